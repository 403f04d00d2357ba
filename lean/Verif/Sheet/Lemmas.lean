import Verif.Sheet.Spec
import Verif.Store.Lemmas
import Verif.Header.Props

set_option autoImplicit false

namespace Verif.Sheets

open TableXml Config OMap Spec

/-! ## The last wish -/

theorem lastWish_cons {α : Type} (f : Call → Option α) (i : α) (c : Call) (cs : List Call) :
    lastWish f i (c :: cs) = lastWish f ((f c).getD i) cs := by
  unfold lastWish
  cases h : f c with
  | none => rw [List.filterMap_cons_none h]; rfl
  | some a =>
    rw [List.filterMap_cons_some h, List.getLast?_cons]
    rfl

theorem run_wish {α : Type} (f : Call → Option α) (get : Sheet → α)
    (h : ∀ s c s', Sheet.call s c = some s' → get s' = (f c).getD (get s)) :
    ∀ (cs : List Call) (s s' : Sheet), s.run cs = some s' → get s' = lastWish f (get s) cs := by
  intro cs
  induction cs with
  | nil => intro s s' hr; cases hr; rfl
  | cons c cs ih =>
    intro s s' hr
    simp only [Sheet.run] at hr
    cases hc : s.call c with
    | none => rw [hc] at hr; cases hr
    | some s1 =>
      rw [hc] at hr
      rw [ih s1 s' hr, lastWish_cons, h s c s1 hc]

/-- All cases of a call: either the result is given, or the call is that of a part. -/
macro "call_cases" h:ident : tactic => `(tactic|
  (simp only [Sheet.call, Option.some.injEq, Option.map_eq_some_iff] at $h:ident
   first
   | (subst $h:ident; rfl)
   | (obtain ⟨_, _, e⟩ := $h:ident; subst e; rfl)))

theorem call_name (s : Sheet) (c : Call) (s' : Sheet) (h : s.call c = some s') :
    s'.head.name = (wishName c).getD s.head.name := by
  cases c <;> call_cases h

theorem call_style (s : Sheet) (c : Call) (s' : Sheet) (h : s.call c = some s') :
    s'.head.style = (wishStyle c).getD s.head.style := by
  cases c <;> call_cases h

theorem call_display (s : Sheet) (c : Call) (s' : Sheet) (h : s.call c = some s') :
    s'.head.display = (wishDisplay c).getD s.head.display := by
  cases c <;> call_cases h

theorem call_print (s : Sheet) (c : Call) (s' : Sheet) (h : s.call c = some s') :
    s'.head.print = (wishPrint c).getD s.head.print := by
  cases c <;> call_cases h

theorem call_headerRows (s : Sheet) (c : Call) (s' : Sheet) (h : s.call c = some s') :
    s'.body.headerRows = (wishHeaderRows c).getD s.body.headerRows := by
  cases c <;> call_cases h

theorem call_headerCols (s : Sheet) (c : Call) (s' : Sheet) (h : s.call c = some s') :
    s'.body.headerCols = (wishHeaderCols c).getD s.body.headerCols := by
  cases c <;> call_cases h

theorem call_extra (s : Sheet) (c : Call) (s' : Sheet) (h : s.call c = some s') :
    s'.head.extra = s.head.extra := by
  cases c <;> call_cases h

theorem run_extra : ∀ (cs : List Call) (s s' : Sheet), s.run cs = some s' → s'.head.extra = s.head.extra := by
  intro cs
  induction cs with
  | nil => intro s s' hr; cases hr; rfl
  | cons c cs ih =>
    intro s s' hr
    simp only [Sheet.run] at hr
    cases hc : s.call c with
    | none => rw [hc] at hr; cases hr
    | some s1 => rw [hc] at hr; rw [ih s1 s' hr, call_extra s c s1 hc]

/-- The ranges, as a list; an empty list is no list. -/
def listed (l : List CellRange) : Option (List CellRange) := if l = [] then none else some l

theorem call_ranges (s : Sheet) (c : Call) (s' : Sheet) (cs : List Call) (l : List CellRange)
    (hl : s.head.ranges = listed l) (h : s.call c = some s') :
    ∃ l', s'.head.ranges = listed l' ∧ rangesOf l (c :: cs) = rangesOf l' cs := by
  cases c
  case addPrintRange r =>
    simp only [Sheet.call, Option.some.injEq] at h
    subst h
    refine ⟨l ++ [r], ?_, rfl⟩
    show some (s.head.ranges.getD [] ++ [r]) = _
    have e2 : listed (l ++ [r]) = some (l ++ [r]) := if_neg (by simp)
    rw [hl, e2]
    by_cases e : l = []
    · subst e; rfl
    · have e3 : listed l = some l := if_neg e
      rw [e3]; rfl
  case clearPrintRanges =>
    simp only [Sheet.call, Option.some.injEq] at h
    subst h
    exact ⟨[], rfl, rfl⟩
  all_goals
    refine ⟨l, ?_, rfl⟩
    rw [← hl]
    call_cases h

theorem run_ranges : ∀ (cs : List Call) (s s' : Sheet) (l : List CellRange), s.head.ranges = listed l →
    s.run cs = some s' → s'.head.ranges = listed (rangesOf l cs) := by
  intro cs
  induction cs with
  | nil => intro s s' l hl hr; cases hr; exact hl
  | cons c cs ih =>
    intro s s' l hl hr
    simp only [Sheet.run] at hr
    cases hc : s.call c with
    | none => rw [hc] at hr; cases hr
    | some s1 =>
      rw [hc] at hr
      obtain ⟨l', h1, h2⟩ := call_ranges s c s1 cs l hl hc
      rw [h2]
      exact ih s1 s' l' h1 hr

/-! ## Cells -/

theorem call_cells (s : Sheet) (c : Call) (s' : Sheet) (cs : List Call) (h : s.call c = some s') (m : Cells)
    (hm : CellOp.run s'.body.data (cellCalls cs) = some m) : CellOp.run s.body.data (cellCalls (c :: cs)) = some m := by
  cases c
  case cell op =>
    simp only [Sheet.call, Option.map_eq_some_iff] at h
    obtain ⟨d, h1, h2⟩ := h
    subst h2
    show (op.step s.body.data).bind _ = _
    rw [h1]
    exact hm
  all_goals
    have e : s'.body.data = s.body.data := by call_cases h
    rw [e] at hm
    exact hm

theorem run_cells : ∀ (cs : List Call) (s s' : Sheet), s.run cs = some s' →
    CellOp.run s.body.data (cellCalls cs) = some s'.body.data := by
  intro cs
  induction cs with
  | nil => intro s s' hr; cases hr; rfl
  | cons c cs ih =>
    intro s s' hr
    simp only [Sheet.run] at hr
    cases hc : s.call c with
    | none => rw [hc] at hr; cases hr
    | some s1 => rw [hc] at hr; exact call_cells s c s1 cs hc _ (ih s1 s' hr)

/-! ## Groups -/

/-- The bounds of the groups. -/
def bounds (gs : List Grouped) : List (Nat × Nat) := gs.map fun g => (g.frm, g.to)

theorem find_bounds (gs : List Grouped) (f t : Nat) :
    (gs.findIdx? fun v => decide (v.frm = f ∧ v.to = t)) = none ↔ (f, t) ∉ bounds gs := by
  rw [List.findIdx?_eq_none_iff]
  unfold bounds
  simp only [List.mem_map, Prod.mk.injEq, not_exists, not_and, decide_eq_false_iff_not]

theorem bounds_modify (gs : List Grouped) (i : Nat) (b : Bool) :
    bounds (gs.modify i fun g => { g with display := b }) = bounds gs := by
  unfold bounds
  apply List.ext_getElem?
  intro k
  rw [List.getElem?_map, List.getElem?_map, List.getElem?_modify]
  by_cases e : i = k
  · simp only [e, if_true]
    cases gs[k]? <;> rfl
  · simp only [e, if_false]
    cases gs[k]? <;> rfl

theorem bounds_remove (f t : Nat) : ∀ gs : List Grouped, bounds (removeGroup gs f t) = (bounds gs).erase (f, t) := by
  intro gs
  induction gs with
  | nil => rfl
  | cons g gs ih =>
    unfold removeGroup at ih ⊢
    rw [List.findIdx?_cons]
    by_cases e : g.frm = f ∧ g.to = t
    · rw [if_pos (by simpa using e)]
      show bounds gs = ((g.frm, g.to) :: bounds gs).erase (f, t)
      rw [e.1, e.2, List.erase_cons_head]
    · rw [if_neg (by simpa using e)]
      have h2 : (bounds (g :: gs)).erase (f, t) = (g.frm, g.to) :: (bounds gs).erase (f, t) := by
        show ((g.frm, g.to) :: bounds gs).erase (f, t) = _
        rw [List.erase_cons_tail]
        simp only [beq_iff_eq, Prod.mk.injEq]
        exact e
      rw [h2, ← ih]
      cases (gs.findIdx? fun v => decide (v.frm = f ∧ v.to = t)) <;> rfl

theorem bounds_add (gs gs' : List Grouped) (f t : Nat) (h : addGroup gs f t = some gs') :
    bounds gs' = bounds gs ++ [(f, t)] := by
  unfold addGroup at h
  dsimp only at h
  split at h
  · split at h
    · injection h with h
      subst h
      simp [bounds]
    · cases h
  · cases h

/-- Groups are proper intervals and do not cross. -/
def Laminar (gs : List Grouped) : Prop :=
  (∀ g ∈ gs, g.frm ≤ g.to) ∧ ∀ g ∈ gs, ∀ g' ∈ gs, ¬ Crossing g g'

theorem laminar_bounds {gs gs' : List Grouped} (h : ∀ p ∈ bounds gs', p ∈ bounds gs) (hl : Laminar gs) : Laminar gs' := by
  have key : ∀ g ∈ gs', ∃ x ∈ gs, x.frm = g.frm ∧ x.to = g.to := by
    intro g hg
    have := h _ (List.mem_map.mpr ⟨g, hg, rfl⟩)
    obtain ⟨x, h1, h2⟩ := List.mem_map.mp this
    injection h2 with h3 h4
    exact ⟨x, h1, h3, h4⟩
  refine ⟨?_, ?_⟩
  · intro g hg
    obtain ⟨x, h1, h2, h3⟩ := key g hg
    have := hl.1 x h1
    omega
  · intro g hg g' hg' hc
    obtain ⟨x, h1, h2, h3⟩ := key g hg
    obtain ⟨y, k1, k2, k3⟩ := key g' hg'
    refine hl.2 x h1 y k1 ?_
    unfold Crossing at hc ⊢
    rw [h2, h3, k2, k3]
    exact hc

theorem laminar_add {gs gs' : List Grouped} {f t : Nat} (hl : Laminar gs) (h : addGroup gs f t = some gs') :
    Laminar gs' := by
  unfold addGroup at h
  dsimp only at h
  split at h
  · rename_i hle
    split at h
    · rename_i hall
      injection h with h
      subst h
      have hn : ∀ g ∈ gs, ¬ Crossing ⟨f, t, true⟩ g := by
        intro g hg
        have := List.all_eq_true.mp hall g hg
        simp only [Bool.or_eq_true, or_assoc] at this
        exact notCrossing_of this
      refine ⟨?_, ?_⟩
      · intro g hg
        rcases List.mem_append.mp hg with e | e
        · exact hl.1 g e
        · simp only [List.mem_singleton] at e; rw [e]; exact hle
      · intro g hg g' hg'
        rcases List.mem_append.mp hg with e | e
        · rcases List.mem_append.mp hg' with e' | e'
          · exact hl.2 g e g' e'
          · simp only [List.mem_singleton] at e'
            rw [e']
            exact fun hc => hn g e hc.symm
        · simp only [List.mem_singleton] at e
          rcases List.mem_append.mp hg' with e' | e'
          · rw [e]; exact hn g' e'
          · simp only [List.mem_singleton] at e'
            rw [e, e']
            rintro ⟨⟨x, _⟩, ⟨y, h1, h2, h3⟩, _⟩
            exact h3 ⟨h1, h2⟩
    · cases h
  · cases h

theorem laminar_step {gs gs' : List Grouped} {op : GroupOp} (hl : Laminar gs) (h : op.step gs = some gs') :
    Laminar gs' := by
  cases op with
  | add f t => exact laminar_add hl h
  | remove f t =>
    simp only [GroupOp.step, Option.some.injEq] at h
    subst h
    refine laminar_bounds ?_ hl
    intro p hp
    rw [bounds_remove] at hp
    exact List.mem_of_mem_erase hp

/-! ## Columns -/

theorem cols_append (a b : List ColOp) : ∀ m : ColHeaders,
    m.run (a ++ b) = (m.run a).bind fun m' => m'.run b := by
  induction a with
  | nil => intro m; rfl
  | cons op a ih =>
    intro m
    show (match m.step op with | some m' => m'.run (a ++ b) | none => none) = _
    simp only [ColHeaders.run]
    cases m.step op with
    | none => rfl
    | some m1 => exact ih m1

theorem cols_loop (v : Visibility) : ∀ (n col : Nat) (m : ColHeaders),
    m.setVisibleLoop v col n = m.run ((List.range n).map fun i => .setVisible (col + i) v) := by
  intro n
  induction n with
  | zero => intro col m; rfl
  | succ n ih =>
    intro col m
    rw [List.range_succ_eq_map, List.map_cons, List.map_map]
    simp only [ColHeaders.setVisibleLoop, ColHeaders.run, Nat.add_zero]
    cases m.step (.setVisible col v) with
    | none => rfl
    | some m1 =>
      dsimp only
      rw [ih]
      congr 1
      apply List.map_congr_left
      intro i _
      show ColOp.setVisible (col + 1 + i) v = ColOp.setVisible (col + (i + 1)) v
      congr 1; omega

theorem cols_show (gs gs' : List Grouped) (m m' : ColHeaders) (f t : Nat) (b : Bool)
    (h : setColGroupDisplayed gs m f t b = some (gs', m')) :
    bounds gs' = bounds gs
      ∧ m.run (if (f, t) ∈ bounds gs then (fromTo f t).map fun c => .setVisible c (shownAs b) else []) = some m' := by
  unfold setColGroupDisplayed at h
  cases hf : gs.findIdx? (fun v => decide (v.frm = f ∧ v.to = t)) with
  | none =>
    rw [hf] at h
    injection h with h
    injection h with h1 h2
    subst h1 h2
    rw [if_neg ((find_bounds gs f t).mp hf)]
    exact ⟨rfl, rfl⟩
  | some i =>
    have hm : (f, t) ∈ bounds gs := by
      apply Classical.byContradiction
      intro hn
      rw [(find_bounds gs f t).mpr hn] at hf
      cases hf
    rw [hf] at h
    dsimp only at h
    rw [cols_loop] at h
    rw [if_pos hm]
    unfold fromTo shownAs
    rw [List.map_map]
    split at h
    · rename_i m1 h1
      injection h with h
      injection h with h2 h3
      subst h2 h3
      exact ⟨bounds_modify _ _ _, h1⟩
    · cases h

theorem call_cols (s : Sheet) (c : Call) (s' : Sheet) (cs : List Call) (gs : List (Nat × Nat))
    (hg : bounds s.body.groupCols = gs) (h : s.call c = some s') :
    ∃ gs' ops, bounds s'.body.groupCols = gs' ∧ colGroups gs (c :: cs) = colGroups gs' cs
      ∧ colCalls gs (c :: cs) = ops ++ colCalls gs' cs ∧ s.body.colHeader.run ops = some s'.body.colHeader := by
  cases c
  case colGroup op =>
    simp only [Sheet.call, Option.map_eq_some_iff] at h
    obtain ⟨g, h1, h2⟩ := h
    subst h2
    cases op with
    | add f t => exact ⟨gs ++ [(f, t)], [], by rw [← hg]; exact bounds_add _ _ _ _ h1, rfl, rfl, rfl⟩
    | remove f t =>
      simp only [GroupOp.step, Option.some.injEq] at h1
      subst h1
      exact ⟨gs.erase (f, t), [], by rw [← hg]; exact bounds_remove _ _ _, rfl, rfl, rfl⟩
  case showColGroup f t b =>
    simp only [Sheet.call, Option.map_eq_some_iff] at h
    obtain ⟨⟨g, m⟩, h1, h2⟩ := h
    subst h2
    obtain ⟨k1, k2⟩ := cols_show _ _ _ _ _ _ _ h1
    rw [hg] at k1 k2
    exact ⟨gs, _, k1, rfl, rfl, k2⟩
  case col op =>
    simp only [Sheet.call, Option.map_eq_some_iff] at h
    obtain ⟨m, h1, h2⟩ := h
    subst h2
    refine ⟨gs, [op], hg, rfl, rfl, ?_⟩
    simp only [ColHeaders.run, h1]
  all_goals
    have e1 : s'.body.groupCols = s.body.groupCols := by call_cases h
    have e2 : s'.body.colHeader = s.body.colHeader := by call_cases h
    exact ⟨gs, [], by rw [e1]; exact hg, rfl, rfl, by rw [e2]; rfl⟩

theorem run_cols : ∀ (cs : List Call) (s s' : Sheet) (gs : List (Nat × Nat)), bounds s.body.groupCols = gs →
    s.run cs = some s' → bounds s'.body.groupCols = colGroups gs cs
      ∧ s.body.colHeader.run (colCalls gs cs) = some s'.body.colHeader := by
  intro cs
  induction cs with
  | nil => intro s s' gs hg hr; cases hr; exact ⟨hg, rfl⟩
  | cons c cs ih =>
    intro s s' gs hg hr
    simp only [Sheet.run] at hr
    cases hc : s.call c with
    | none => rw [hc] at hr; cases hr
    | some s1 =>
      rw [hc] at hr
      obtain ⟨gs', ops, h1, h2, h3, h4⟩ := call_cols s c s1 cs gs hg hc
      obtain ⟨k1, k2⟩ := ih s1 s' gs' h1 hr
      rw [h2, h3, cols_append, h4]
      exact ⟨k1, k2⟩

theorem call_colLaminar (s : Sheet) (c : Call) (s' : Sheet) (hl : Laminar s.body.groupCols) (h : s.call c = some s') :
    Laminar s'.body.groupCols := by
  cases c
  case colGroup op =>
    simp only [Sheet.call, Option.map_eq_some_iff] at h
    obtain ⟨g, h1, h2⟩ := h
    subst h2
    exact laminar_step hl h1
  case showColGroup f t b =>
    simp only [Sheet.call, Option.map_eq_some_iff] at h
    obtain ⟨⟨g, m⟩, h1, h2⟩ := h
    subst h2
    refine laminar_bounds (gs := s.body.groupCols) ?_ hl
    intro p hp
    rw [← (cols_show _ _ _ _ _ _ _ h1).1]
    exact hp
  all_goals
    have e1 : s'.body.groupCols = s.body.groupCols := by call_cases h
    rw [e1]; exact hl

/-! ## Rows -/

theorem rows_append (a b : List RowOp) : ∀ m : RowHeaders,
    m.run (a ++ b) = (m.run a).bind fun m' => m'.run b := by
  induction a with
  | nil => intro m; rfl
  | cons op a ih =>
    intro m
    show (match m.step op with | some m' => m'.run (a ++ b) | none => none) = _
    simp only [RowHeaders.run]
    cases m.step op with
    | none => rfl
    | some m1 => exact ih m1

theorem rows_loop (v : Visibility) : ∀ (n col : Nat) (m : RowHeaders),
    m.setVisibleLoop v col n = m.run ((List.range n).map fun i => .setVisible (col + i) v) := by
  intro n
  induction n with
  | zero => intro col m; rfl
  | succ n ih =>
    intro col m
    rw [List.range_succ_eq_map, List.map_cons, List.map_map]
    simp only [RowHeaders.setVisibleLoop, RowHeaders.run, Nat.add_zero]
    cases m.step (.setVisible col v) with
    | none => rfl
    | some m1 =>
      dsimp only
      rw [ih]
      congr 1
      apply List.map_congr_left
      intro i _
      show RowOp.setVisible (col + 1 + i) v = RowOp.setVisible (col + (i + 1)) v
      congr 1; omega

theorem rows_show (gs gs' : List Grouped) (m m' : RowHeaders) (f t : Nat) (b : Bool)
    (h : setRowGroupDisplayed gs m f t b = some (gs', m')) :
    bounds gs' = bounds gs
      ∧ m.run (if (f, t) ∈ bounds gs then (fromTo f t).map fun c => .setVisible c (shownAs b) else []) = some m' := by
  unfold setRowGroupDisplayed at h
  cases hf : gs.findIdx? (fun v => decide (v.frm = f ∧ v.to = t)) with
  | none =>
    rw [hf] at h
    injection h with h
    injection h with h1 h2
    subst h1 h2
    rw [if_neg ((find_bounds gs f t).mp hf)]
    exact ⟨rfl, rfl⟩
  | some i =>
    have hm : (f, t) ∈ bounds gs := by
      apply Classical.byContradiction
      intro hn
      rw [(find_bounds gs f t).mpr hn] at hf
      cases hf
    rw [hf] at h
    dsimp only at h
    rw [rows_loop] at h
    rw [if_pos hm]
    unfold fromTo shownAs
    rw [List.map_map]
    split at h
    · rename_i m1 h1
      injection h with h
      injection h with h2 h3
      subst h2 h3
      exact ⟨bounds_modify _ _ _, h1⟩
    · cases h

theorem call_rows (s : Sheet) (c : Call) (s' : Sheet) (cs : List Call) (gs : List (Nat × Nat))
    (hg : bounds s.body.groupRows = gs) (h : s.call c = some s') :
    ∃ gs' ops, bounds s'.body.groupRows = gs' ∧ rowGroups gs (c :: cs) = rowGroups gs' cs
      ∧ rowCalls gs (c :: cs) = ops ++ rowCalls gs' cs ∧ s.body.rowHeader.run ops = some s'.body.rowHeader := by
  cases c
  case rowGroup op =>
    simp only [Sheet.call, Option.map_eq_some_iff] at h
    obtain ⟨g, h1, h2⟩ := h
    subst h2
    cases op with
    | add f t => exact ⟨gs ++ [(f, t)], [], by rw [← hg]; exact bounds_add _ _ _ _ h1, rfl, rfl, rfl⟩
    | remove f t =>
      simp only [GroupOp.step, Option.some.injEq] at h1
      subst h1
      exact ⟨gs.erase (f, t), [], by rw [← hg]; exact bounds_remove _ _ _, rfl, rfl, rfl⟩
  case showRowGroup f t b =>
    simp only [Sheet.call, Option.map_eq_some_iff] at h
    obtain ⟨⟨g, m⟩, h1, h2⟩ := h
    subst h2
    obtain ⟨k1, k2⟩ := rows_show _ _ _ _ _ _ _ h1
    rw [hg] at k1 k2
    exact ⟨gs, _, k1, rfl, rfl, k2⟩
  case row op =>
    simp only [Sheet.call, Option.map_eq_some_iff] at h
    obtain ⟨m, h1, h2⟩ := h
    subst h2
    refine ⟨gs, [op], hg, rfl, rfl, ?_⟩
    simp only [RowHeaders.run, h1]
  all_goals
    have e1 : s'.body.groupRows = s.body.groupRows := by call_cases h
    have e2 : s'.body.rowHeader = s.body.rowHeader := by call_cases h
    exact ⟨gs, [], by rw [e1]; exact hg, rfl, rfl, by rw [e2]; rfl⟩

theorem run_rows : ∀ (cs : List Call) (s s' : Sheet) (gs : List (Nat × Nat)), bounds s.body.groupRows = gs →
    s.run cs = some s' → bounds s'.body.groupRows = rowGroups gs cs
      ∧ s.body.rowHeader.run (rowCalls gs cs) = some s'.body.rowHeader := by
  intro cs
  induction cs with
  | nil => intro s s' gs hg hr; cases hr; exact ⟨hg, rfl⟩
  | cons c cs ih =>
    intro s s' gs hg hr
    simp only [Sheet.run] at hr
    cases hc : s.call c with
    | none => rw [hc] at hr; cases hr
    | some s1 =>
      rw [hc] at hr
      obtain ⟨gs', ops, h1, h2, h3, h4⟩ := call_rows s c s1 cs gs hg hc
      obtain ⟨k1, k2⟩ := ih s1 s' gs' h1 hr
      rw [h2, h3, rows_append, h4]
      exact ⟨k1, k2⟩

theorem call_rowLaminar (s : Sheet) (c : Call) (s' : Sheet) (hl : Laminar s.body.groupRows) (h : s.call c = some s') :
    Laminar s'.body.groupRows := by
  cases c
  case rowGroup op =>
    simp only [Sheet.call, Option.map_eq_some_iff] at h
    obtain ⟨g, h1, h2⟩ := h
    subst h2
    exact laminar_step hl h1
  case showRowGroup f t b =>
    simp only [Sheet.call, Option.map_eq_some_iff] at h
    obtain ⟨⟨g, m⟩, h1, h2⟩ := h
    subst h2
    refine laminar_bounds (gs := s.body.groupRows) ?_ hl
    intro p hp
    rw [← (rows_show _ _ _ _ _ _ _ h1).1]
    exact hp
  all_goals
    have e1 : s'.body.groupRows = s.body.groupRows := by call_cases h
    rw [e1]; exact hl

/-! ## Which groups and columns there are -/

theorem run_laminar : ∀ (cs : List Call) (s s' : Sheet), Laminar s.body.groupCols → Laminar s.body.groupRows →
    s.run cs = some s' → Laminar s'.body.groupCols ∧ Laminar s'.body.groupRows := by
  intro cs
  induction cs with
  | nil => intro s s' h1 h2 hr; cases hr; exact ⟨h1, h2⟩
  | cons c cs ih =>
    intro s s' h1 h2 hr
    simp only [Sheet.run] at hr
    cases hc : s.call c with
    | none => rw [hc] at hr; cases hr
    | some s1 =>
      rw [hc] at hr
      exact ih s1 s' (call_colLaminar s c s1 h1 hc) (call_rowLaminar s c s1 h2 hc) hr

/-- A header is stored for the columns that a call names. -/
theorem step_stored {m m' : ColHeaders} (h : m.Ones) {op : ColOp} (hs : m.step op = some m') (k : Nat) :
    (m'.get? k).isSome ↔ k = op.col ∨ (m.get? k).isSome := by
  rw [ColHeaders.step_eq] at hs
  cases hv : m.valid op.col with
  | none =>
    rw [ColHeaders.modify_uncovered h.wf hv] at hs
    injection hs with hs
    subst hs
    rw [get?_insert, get?_insert]
    by_cases e : k = op.col <;> simp [e]
  | some x =>
    obtain ⟨b, hb, h1, h2⟩ := h.wf.valid_some.mp hv
    have hx : x.span = 1 := h.2 _ (mem_of_get?_eq_some hb)
    obtain ⟨m2, hm, _, hg⟩ := ColHeaders.modify_covered h.wf hb h1 h2 (fun h => op.apply h)
    rw [hm] at hs
    injection hs with hs
    subst hs
    rw [hg]
    by_cases e : k = op.col
    · simp [e]
    · rw [if_neg e, if_neg (by omega), if_neg (by omega)]
      simp [e]

theorem run_stored : ∀ (ops : List ColOp) (m m' : ColHeaders), m.Ones → m.run ops = some m' → ∀ k,
    ((m'.get? k).isSome ↔ (∃ op ∈ ops, op.col = k) ∨ (m.get? k).isSome) := by
  intro ops
  induction ops with
  | nil => intro m m' _ hr k; cases hr; simp
  | cons op ops ih =>
    intro m m' h hr k
    simp only [ColHeaders.run] at hr
    cases hc : m.step op with
    | none => rw [hc] at hr; cases hr
    | some m1 =>
      rw [hc] at hr
      rw [ih m1 m' (h.step hc) hr k, step_stored h hc k]
      constructor
      · rintro (⟨o, h1, h2⟩ | h | h)
        · exact .inl ⟨o, List.mem_cons_of_mem _ h1, h2⟩
        · exact .inl ⟨op, List.mem_cons_self, h.symm⟩
        · exact .inr h
      · rintro (⟨o, h1, h2⟩ | h)
        · rcases List.mem_cons.mp h1 with e | e
          · subst e; exact .inr (.inl h2.symm)
          · exact .inl ⟨o, e, h2⟩
        · exact .inr (.inr h)

end Verif.Sheets
