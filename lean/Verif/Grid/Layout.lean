import Verif.Grid.Errors

/-!
# The layout of the written rows (C14, C23)
-/

set_option autoImplicit false

namespace Verif

open OMap

/-! ### Specification: what a list of events says about rows and columns -/

/-- One position of a row: covered or not, and the cell written there. -/
abbrev Entry := Bool × Option CellData

/-- The rows of a list of events: repeat count and one entry per column, repeats expanded. The second
component is the row that is still open. -/
def rowsScan : Option (Nat × List Entry) → List TEv →
    List (Nat × List Entry) × Option (Nat × List Entry)
  | cur, [] => ([], cur)
  | _, .rowStart t :: evs => rowsScan (some (t.repeated.getD 1, [])) evs
  | some (n, l), .cell cov r body :: evs =>
    rowsScan (some (n, l ++ List.replicate (r.getD 1) (cov, body))) evs
  | some p, .rowEnd :: evs => (p :: (rowsScan none evs).1, (rowsScan none evs).2)
  | cur, _ :: evs => rowsScan cur evs

/-- The rows of a written table, each with its position (the number of rows before it), its repeat
count and its entries. -/
def withPos {α : Type} : Nat → List (Nat × α) → List (Nat × Nat × α)
  | _, [] => []
  | pos, (n, a) :: l => (pos, n, a) :: withPos (pos + n) l

/-- The rows of a written table with their positions. -/
def tableRows (evs : List TEv) : List (Nat × Nat × List Entry) := withPos 0 (rowsScan none evs).1

/-! ### What is written for the cells -/

/-- The area a cell spans: the cells it covers, and itself. -/
def InArea (r c : Nat) (d : CellData) (r' c' : Nat) : Prop :=
  ∃ x, d.extra = some x ∧ (1 < x.span.rowSpan ∨ 1 < x.span.colSpan)
    ∧ r ≤ r' ∧ r' < r + x.span.rowSpan ∧ c ≤ c' ∧ c' < c + x.span.colSpan

/-- The areas known after a cell. -/
def addArea (A : List CellRange) (row c : Nat) (d : CellData) : List CellRange :=
  if Covered A row c then A
  else match d.extra with
    | none => A
    | some x =>
      if 1 < x.span.rowSpan ∨ 1 < x.span.colSpan then
        match CellRange.originSpan row c x.span.rowSpan x.span.colSpan with
        | some r => A ++ [r]
        | none => A
      else A

def addAreas (A : List CellRange) (row : Nat) (cs : List (Nat × CellData)) : List CellRange :=
  cs.foldl (fun A p => addArea A row p.1 p.2) A

/-- The next column, or the width. -/
def nextCol (w : Nat) : List (Nat × CellData) → Nat
  | [] => w
  | (c, _) :: _ => c

/-- What is written for the cells of a row. -/
def rowEntries (w : Nat) (row : Nat) : List CellRange → List (Nat × CellData) → List Entry
  | _, [] => []
  | A, (c, d) :: rest =>
    (List.range' c d.repeat).map (fun x => (decide (Covered A row x), some d))
      ++ (List.range' (c + d.repeat) (nextCol w rest - (c + d.repeat))).map
          (fun x => (decide (Covered (addArea A row c d) row x), none))
      ++ rowEntries w row (addArea A row c d) rest

/-- The rows written for the rows of a sheet. -/
def RowsSpec (s : TSheet) (w : Nat) : Nat → List CellRange → List (Nat × List (Nat × CellData)) →
    List (Nat × List Entry) → Prop
  | _, _, [], L => L = []
  | pos, A, (r, cs) :: rest, L => ∃ gaps L',
      L = gaps ++ (rowRepeatOf s r, List.replicate (firstCol cs) (false, none) ++ rowEntries w r A cs) :: L'
      ∧ (∀ g ∈ gaps, g.2 = List.replicate w (false, none) ∧ 1 ≤ g.1)
      ∧ pos + (gaps.map (·.1)).sum = r
      ∧ RowsSpec s w (r + rowRepeatOf s r) (addAreas A r cs) rest L'

/-! ### Proofs -/

/-- Same areas from a position on, row-major. -/
def SameFrom (row col : Nat) (A B : List CellRange) : Prop :=
  ∀ r c, (row < r ∨ (row = r ∧ col ≤ c)) → (Covered A r c ↔ Covered B r c)

theorem SameFrom.mono {row col row' col' : Nat} {A B : List CellRange} (h : SameFrom row col A B)
    (hle : row < row' ∨ (row = row' ∧ col ≤ col')) : SameFrom row' col' A B :=
  fun r c hrc => h r c (by omega)

theorem rowsScan_append (a b : List TEv) : ∀ cur, rowsScan cur (a ++ b)
    = ((rowsScan cur a).1 ++ (rowsScan (rowsScan cur a).2 b).1, (rowsScan (rowsScan cur a).2 b).2) := by
  induction a with
  | nil => intro cur; rfl
  | cons e a ih =>
    intro cur
    cases e <;> cases cur <;> simp [rowsScan, ih]

/-- Entries of a list of cells. -/
def cellEntries (evs : List TEv) : List Entry :=
  evs.flatMap (fun e => match e with
    | .cell cov r body => List.replicate (r.getD 1) (cov, body)
    | _ => [])

theorem cellEntries_append (a b : List TEv) : cellEntries (a ++ b) = cellEntries a ++ cellEntries b := by
  simp [cellEntries]

theorem rowsScan_cells (evs : List TEv) (h : ∀ e ∈ evs, e.isCell = true) : ∀ n l,
    rowsScan (some (n, l)) evs = ([], some (n, l ++ cellEntries evs)) := by
  induction evs with
  | nil => intro n l; simp [rowsScan, cellEntries]
  | cons e evs ih =>
    intro n l
    cases e with
    | cell cov r body =>
      simp only [rowsScan]
      rw [ih (fun x hx => h x (by simp [hx]))]
      simp [cellEntries]
    | _ => exact absurd (h _ List.mem_cons_self) Bool.false_ne_true

/-- Neither rows nor cells. -/
def TEv.isFrame : TEv → Bool
  | .rowStart _ | .rowEnd | .cell _ _ _ => false
  | _ => true

theorem rowsScan_frame (evs : List TEv) (h : ∀ e ∈ evs, e.isFrame = true) : ∀ cur,
    rowsScan cur evs = ([], cur) := by
  induction evs with
  | nil => intro cur; rfl
  | cons e evs ih =>
    intro cur
    have := ih (fun x hx => h x (by simp [hx])) cur
    cases e with
    | rowStart t => exact absurd (h _ List.mem_cons_self) Bool.false_ne_true
    | rowEnd => exact absurd (h _ List.mem_cons_self) Bool.false_ne_true
    | cell a b c => exact absurd (h _ List.mem_cons_self) Bool.false_ne_true
    | _ => cases cur <;> simp only [rowsScan] <;> exact this

theorem entries_pieces (body : Option CellData) (spans : List CellRange) (row col rep : Nat)
    (h : 1 ≤ rep) :
    cellEntries ((splitHidden spans row col rep).map (fun s => .cell s.hidden (repAttr s.repeat) body))
      = (List.range' col rep).map (fun x => (decide (Covered spans row x), body)) := by
  have hx := (C22_exact_partition spans row col rep h).1
  have hrep : ∀ p : SplitCols, (repAttr p.repeat).getD 1 = p.repeat := by
    intro p
    unfold repAttr
    split
    · rfl
    · unfold SplitCols.repeat at *; simp only [Option.getD_none]; omega
  have key : ∀ l : List SplitCols,
      cellEntries (l.map (fun s => .cell s.hidden (repAttr s.repeat) body))
        = (expand l).map (fun q => (q.2, body)) := by
    intro l
    induction l with
    | nil => rfl
    | cons p l ih =>
      rw [List.map_cons, show (TEv.cell p.hidden (repAttr p.repeat) body :: l.map (fun s => TEv.cell s.hidden (repAttr s.repeat) body))
        = [TEv.cell p.hidden (repAttr p.repeat) body] ++ l.map (fun s => TEv.cell s.hidden (repAttr s.repeat) body) from rfl,
        cellEntries_append, ih]
      have e1 : cellEntries [TEv.cell p.hidden (repAttr p.repeat) body]
          = List.replicate p.repeat (p.hidden, body) := by
        simp [cellEntries, hrep]
      rw [e1]
      simp [expand, List.map_const', Function.comp_def]
  rw [key, hx, List.map_map]
  rfl

theorem headHidden (spans : List CellRange) (row col rep : Nat) (h : 1 ≤ rep) (p : SplitCols)
    (l : List SplitCols) (he : splitHidden spans row col rep = p :: l) :
    p.hidden = decide (Covered spans row col) := by
  have hx := (C22_exact_partition spans row col rep h).1
  have hp := (C22_exact_partition spans row col rep h).2.1
  rw [he] at hx hp
  have hp := hp p (by simp)
  have e2 : (List.range' col rep) = col :: List.range' (col + 1) (rep - 1) := by
    cases rep with
    | zero => omega
    | succ n => rw [List.range'_succ]; rfl
  rw [e2] at hx
  simp only [expand, List.flatMap_cons, List.map_cons] at hx
  have e3 : List.range' p.col p.repeat = p.col :: List.range' (p.col + 1) (p.repeat - 1) := by
    unfold SplitCols.repeat
    rw [List.range'_succ]; simp
  rw [e3] at hx
  simp only [List.map_cons, List.cons_append, List.cons.injEq, Prod.mk.injEq] at hx
  exact hx.1.2

theorem pushSpan_addArea {spans A sp : List CellRange} {row c : Nat} {d : CellData}
    (hr : 1 ≤ d.repeat) (hsame : SameFrom row c spans A)
    (h : pushSpan spans (splitHidden spans row c d.repeat) row c d = .ok sp) :
    SameFrom row c sp (addArea A row c d) := by
  unfold pushSpan at h
  unfold addArea
  have hcov : Covered spans row c ↔ Covered A row c := hsame row c (Or.inr ⟨rfl, Nat.le_refl _⟩)
  cases he : d.extra with
  | none =>
    rw [he] at h
    simp only [Except.ok.injEq] at h
    subst h
    split <;> exact hsame
  | some x =>
    rw [he] at h
    simp only at h
    cases hp : splitHidden spans row c d.repeat with
    | nil => exact absurd hp (C22_exact_partition spans row c d.repeat hr).2.2.1
    | cons p l =>
      have hh := headHidden spans row c d.repeat hr p l hp
      rw [hp] at h
      simp only at h
      by_cases hc : Covered A row c
      · rw [if_pos hc]
        have : p.hidden = true := by rw [hh]; exact decide_eq_true (hcov.mpr hc)
        rw [this] at h
        simp only [Bool.not_true, Bool.false_and, Bool.false_eq_true, if_false, Except.ok.injEq] at h
        subst h
        exact hsame
      · rw [if_neg hc]
        have : p.hidden = false := by
          rw [hh]; exact decide_eq_false (fun e => hc (hcov.mp e))
        rw [this] at h
        simp only [Bool.not_false, Bool.true_and, Bool.or_eq_true, decide_eq_true_eq] at h
        simp only
        by_cases hs : 1 < x.span.rowSpan ∨ 1 < x.span.colSpan
        · rw [if_pos hs] at h ⊢
          cases ho : CellRange.originSpan row c x.span.rowSpan x.span.colSpan with
          | none => rw [ho] at h; simp at h
          | some r =>
            rw [ho] at h
            simp only [Except.ok.injEq] at h
            subst h
            intro r' c' hle
            have := hsame r' c' hle
            unfold Covered at this ⊢
            simp only [List.mem_append, List.mem_singleton, or_and_right, exists_or]
            rw [this]
        · rw [if_neg hs] at h ⊢
          simp only [Except.ok.injEq] at h
          subst h
          exact hsame

theorem map_range_congr {α : Type} (f g : Nat → α) (a n : Nat)
    (h : ∀ x, a ≤ x → x < a + n → f x = g x) :
    (List.range' a n).map f = (List.range' a n).map g := by
  refine List.map_congr_left ?_
  intro x hx
  simp only [List.mem_range'_1] at hx
  exact h x hx.1 hx.2

theorem writeCells_entries (mx : Nat × Nat) (row : Nat) (cs : List (Nat × CellData)) :
    ∀ (spans A : List CellRange) (e : List TEv) (spans' : List CellRange),
    cs.Pairwise (fun a b => a.1 < b.1) → (∀ p ∈ cs, 1 ≤ p.2.repeat) →
    SameFrom row (firstCol cs) spans A →
    writeCells mx row spans cs = .ok (e, spans') →
    cellEntries e = rowEntries mx.2 row A cs
    ∧ SameFrom (row + 1) 0 spans' (addAreas A row cs) := by
  induction cs with
  | nil =>
    intro spans A e spans' _ _ hs h
    simp only [writeCells, Except.ok.injEq, Prod.mk.injEq] at h
    obtain ⟨rfl, rfl⟩ := h
    exact ⟨rfl, hs.mono (by omega)⟩
  | cons p cs ih =>
    obtain ⟨c, d⟩ := p
    intro spans A e spans' hp hr hs h
    have hr0 : 1 ≤ d.repeat := hr (c, d) (by simp)
    have hs : SameFrom row c spans A := hs
    have hs1 : SameFrom row c (removeOutlived spans row c) A := by
      intro r x hle
      rw [C22_pruning spans row c r x hle]
      exact hs r x hle
    simp only [writeCells] at h
    cases hps : pushSpan (removeOutlived spans row c)
        (splitHidden (removeOutlived spans row c) row c d.repeat) row c d with
    | error e => rw [hps] at h; simp at h
    | ok sp =>
      rw [hps] at h
      simp only at h
      have hs2 := pushSpan_addArea hr0 hs1 hps
      cases hf : writeFill sp mx row c d.repeat (nextInRow row cs) with
      | error e => rw [hf] at h; simp at h
      | ok e3 =>
        rw [hf] at h
        simp only at h
        cases hw : writeCells mx row sp cs with
        | error e => rw [hw] at h; simp at h
        | ok v =>
          obtain ⟨e5, sp5⟩ := v
          rw [hw] at h
          simp only [Except.ok.injEq, Prod.mk.injEq] at h
          obtain ⟨rfl, rfl⟩ := h
          have hlt : ∀ q ∈ cs, c < q.1 := (List.pairwise_cons.mp hp).1
          have hs3 : SameFrom row (firstCol cs) sp (addArea A row c d) ∨ cs = [] := by
            cases cs with
            | nil => exact Or.inr rfl
            | cons q cs =>
              left
              have := hlt q (by simp)
              exact hs2.mono (Or.inr ⟨rfl, by simp only [firstCol]; omega⟩)
          have hrest : cellEntries e5 = rowEntries mx.2 row (addArea A row c d) cs
              ∧ SameFrom (row + 1) 0 sp5 (addAreas (addArea A row c d) row cs) := by
            rcases hs3 with hs3 | rfl
            · exact ih sp _ e5 sp5 (List.pairwise_cons.mp hp).2 (fun q hq => hr q (by simp [hq])) hs3 hw
            · simp only [writeCells, Except.ok.injEq, Prod.mk.injEq] at hw
              obtain ⟨rfl, rfl⟩ := hw
              exact ⟨rfl, hs2.mono (by omega)⟩
          refine ⟨?_, hrest.2⟩
          rw [cellEntries_append, cellEntries_append, hrest.1]
          simp only [rowEntries]
          congr 1
          congr 1
          · unfold writeCellPieces
            rw [entries_pieces (some d) _ _ _ _ hr0]
            refine map_range_congr _ _ _ _ ?_
            intro x h1 h2
            have := hs1 row x (Or.inr ⟨rfl, h1⟩)
            simp only [Prod.mk.injEq, and_true, decide_eq_decide]
            exact this
          · have fill : ∀ n, 0 < n → cellEntries (writeEmptyCells (splitHidden sp row (c + d.repeat) n))
                = (List.range' (c + d.repeat) n).map
                  (fun x => (decide (Covered (addArea A row c d) row x), none)) := by
              intro n hn
              unfold writeEmptyCells
              rw [entries_pieces none _ _ _ _ hn]
              refine map_range_congr _ _ _ _ ?_
              intro x h1 h2
              have := hs2 row x (Or.inr ⟨rfl, by omega⟩)
              simp only [Prod.mk.injEq, and_true, decide_eq_decide]
              exact this
            cases cs with
            | nil =>
              simp only [nextInRow] at hf
              rw [writeFill_end _ _ _ _ _ _ (by simp)] at hf
              simp only [nextCol]
              split at hf
              · rename_i hn
                simp only [Except.ok.injEq] at hf
                subst hf
                rw [fill _ hn, show mx.2 - c - d.repeat = mx.2 - (c + d.repeat) by omega]
              · simp only [Except.ok.injEq] at hf
                subst hf
                rw [show mx.2 - (c + d.repeat) = 0 by omega]
                rfl
            | cons q cs =>
              obtain ⟨c', d'⟩ := q
              have hlt' : c < c' := hlt (c', d') (by simp)
              simp only [nextInRow] at hf
              rw [writeFill_mid _ _ _ _ _ _ hlt'] at hf
              simp only [nextCol]
              split at hf
              · simp at hf
              split at hf
              · rename_i hn
                simp only [Except.ok.injEq] at hf
                subst hf
                rw [fill _ hn, show c' - c - d.repeat = c' - (c + d.repeat) by omega]
              · simp only [Except.ok.injEq] at hf
                subst hf
                rw [show c' - (c + d.repeat) = 0 by omega]
                rfl

/-! ### Rows -/

theorem scan_emptyRow (s : TSheet) (row n : Nat) (mx : Nat × Nat) :
    rowsScan none (writeEmptyRow s row n mx) = ([(n, List.replicate mx.2 (false, none))], none) := by
  unfold writeEmptyRow
  have : (rowTag (some n) (s.rowHeader.valid row)).repeated = some n := by
    cases s.rowHeader.valid row <;> rfl
  simp only [rowsScan, this, Option.getD_some, List.nil_append]

theorem closeGroups_frame {gs : List Grouped} {p : Grouped → Bool} {n m : Nat} {e : List TEv}
    (h : closeGroups gs p n = .ok (e, m)) : ∀ x ∈ e, x.isFrame = true := by
  unfold closeGroups at h
  simp only at h
  split at h
  · simp only [Except.ok.injEq, Prod.mk.injEq] at h
    obtain ⟨rfl, rfl⟩ := h
    intro x hx
    rw [List.eq_of_mem_replicate hx]
    rfl
  · simp at h

theorem frame_groups (gs : List Grouped) : ∀ x ∈ gs.map groupStartOf, x.isFrame = true := by
  intro x hx
  obtain ⟨g, _, rfl⟩ := List.mem_map.mp hx
  rfl

theorem frame_ite {b : Bool} {e : TEv} (h : e.isFrame = true) :
    ∀ x ∈ (if b then [e] else []), x.isFrame = true := by
  intro x hx
  rw [mem_ite_single hx]; exact h

theorem frame_append {a b : List TEv} (ha : ∀ x ∈ a, x.isFrame = true) (hb : ∀ x ∈ b, x.isFrame = true) :
    ∀ x ∈ a ++ b, x.isFrame = true := by
  intro x hx
  rcases List.mem_append.mp hx with h | h
  · exact ha x h
  · exact hb x h

theorem scan_gapRows (s : TSheet) (mx : Nat × Nat) (n : Nat) :
    ∀ (r : Nat) (g g' : GState) (e : List TEv), writeGapRows s mx r n g = .ok (e, g') →
    rowsScan none e = (List.replicate n (1, List.replicate mx.2 (false, none)), none) := by
  induction n with
  | zero =>
    intro r g g' e h
    simp only [writeGapRows, Except.ok.injEq, Prod.mk.injEq] at h
    rw [← h.1]; rfl
  | succ n ih =>
    intro r g g' e h
    simp only [writeGapRows] at h
    cases h1 : writeGapRow s mx g r with
    | error e => rw [h1] at h; simp at h
    | ok v =>
      obtain ⟨e1, g1⟩ := v
      rw [h1] at h
      simp only at h
      cases h2 : writeGapRows s mx (r + 1) n g1 with
      | error e => rw [h2] at h; simp at h
      | ok v =>
        obtain ⟨e2, g2⟩ := v
        rw [h2] at h
        simp only [Except.ok.injEq, Prod.mk.injEq] at h
        rw [← h.1, rowsScan_append]
        have hs1 : rowsScan none e1 = ([(1, List.replicate mx.2 (false, none))], none) := by
          unfold writeGapRow at h1
          simp only at h1
          cases hc : closeGroups s.groupRows (fun x => decide (x.to = r)) g.count with
          | error e => rw [hc] at h1; simp at h1
          | ok v =>
            obtain ⟨ec, k⟩ := v
            rw [hc] at h1
            simp only [Except.ok.injEq, Prod.mk.injEq] at h1
            rw [← h1.1, rowsScan_append]
            rw [rowsScan_frame _ (frame_append (frame_append (frame_append (frame_ite rfl)
              (closeGroups_frame hc)) (frame_groups _)) (frame_ite rfl))]
            simp only [List.nil_append]
            exact scan_emptyRow s r 1 mx
        rw [hs1]
        simp only
        rw [ih (r + 1) g1 g2 e2 h2, List.replicate_succ]
        rfl

theorem scan_gap (s : TSheet) (mx : Nat × Nat) (row n : Nat) (g g' : GState) (e : List TEv)
    (hn : 0 < n) (h : writeEmptyRowsBefore s row n mx g = .ok (e, g')) :
    ∃ gaps, rowsScan none e = (gaps, none)
      ∧ (∀ x ∈ gaps, x.2 = List.replicate mx.2 (false, none) ∧ 1 ≤ x.1)
      ∧ (gaps.map (·.1)).sum = n := by
  unfold writeEmptyRowsBefore at h
  split at h
  · refine ⟨_, scan_gapRows s mx n row g g' e h, ?_, ?_⟩
    · intro x hx; rw [List.eq_of_mem_replicate hx]; exact ⟨rfl, Nat.le_refl _⟩
    · simp
  · simp only [Except.ok.injEq, Prod.mk.injEq] at h
    rw [← h.1]
    exact ⟨_, scan_emptyRow s row n mx, by simp; omega, by simp⟩

theorem scan_startRow (s : TSheet) (row rep leading : Nat) (g : GState) :
    rowsScan none (writeStartRow s row rep leading g).1
      = ([], some ((dataTag s row).repeated.getD 1, List.replicate leading (false, none))) := by
  unfold writeStartRow
  simp only
  rw [List.append_assoc, rowsScan_append]
  rw [rowsScan_frame _ (frame_append (frame_groups _) (frame_ite rfl))]
  simp only [List.nil_append, List.cons_append, rowsScan]
  split
  · simp only [rowsScan, List.nil_append]
    have : (repAttr leading).getD 1 = leading := by
      unfold repAttr
      split
      · rfl
      · simp only [Option.getD_none]; omega
    rw [this]
  · have : leading = 0 := by omega
    rw [this]; rfl

theorem scan_endRow (s : TSheet) (row rep : Nat) (g g' : GState) (e : List TEv)
    (h : writeEndRow s row rep g = .ok (e, g')) (p : Nat × List Entry) :
    rowsScan (some p) e = ([p], none) := by
  unfold writeEndRow at h
  simp only at h
  cases hc : closeGroups s.groupRows (fun x =>
      decide (x.to = row) || (decide (row < x.to) && decide (x.to < row + rep))) g.count with
  | error e => rw [hc] at h; simp at h
  | ok v =>
    obtain ⟨ec, k⟩ := v
    rw [hc] at h
    simp only [Except.ok.injEq, Prod.mk.injEq] at h
    rw [← h.1]
    simp only [List.cons_append, List.nil_append, rowsScan]
    rw [rowsScan_frame _ (frame_append (frame_ite rfl) (closeGroups_frame hc))]

theorem scan_endLast (g : GState) (p : Nat × List Entry) :
    rowsScan (some p) (writeEndLastRow g) = ([p], none) := by
  unfold writeEndLastRow
  simp only [List.cons_append, List.nil_append, rowsScan]
  rw [rowsScan_frame _ (frame_append (frame_ite rfl) ?_)]
  intro x hx
  rw [List.eq_of_mem_replicate hx]
  rfl

/-- Row change, seen by the scan. -/
theorem scan_rowChange (s : TSheet) (mx : Nat × Nat) (st : WState) (row col : Nat) (e : List TEv)
    (g : GState) (hlt : st.first = false → st.prevRow < row) (hpos : 1 ≤ st.prevRowRepeat)
    (hfirst : st.first = true → st.prevRow = 0 ∧ st.prevRowRepeat = 1 ∧ st.prevCol = 0)
    (h : writeRowChange s mx st row col = .ok (e, g)) (p : Nat × List Entry) :
    ∃ gaps, (∀ x ∈ gaps, x.2 = List.replicate mx.2 (false, none) ∧ 1 ≤ x.1)
      ∧ (if st.first then 0 else st.prevRow + st.prevRowRepeat) + (gaps.map (·.1)).sum = row
      ∧ rowsScan (if st.first then none else some p) e
        = ((if st.first then [] else [p]) ++ gaps,
          some ((dataTag s row).repeated.getD 1, List.replicate col (false, none))) := by
  unfold writeRowChange at h
  simp only at h
  cases hf : st.first with
  | false =>
    have hlt := hlt hf
    have hb : 0 < row - st.prevRow := by omega
    rw [hf] at h
    simp only [hb, true_and, if_true, Bool.false_eq_true, if_false, Nat.add_zero, true_or] at h
    cases he : writeEndRow s st.prevRow st.prevRowRepeat st.g with
    | error e => rw [he] at h; simp at h
    | ok v =>
      obtain ⟨eE, g1⟩ := v
      rw [he] at h
      simp only at h
      by_cases hov : row - st.prevRow < st.prevRowRepeat
      · rw [if_pos hov] at h; simp at h
      · rw [if_neg hov] at h
        simp only [Bool.false_eq_true, if_false]
        by_cases hs : 0 < row - st.prevRow - st.prevRowRepeat
        · rw [if_pos hs] at h
          cases hg : writeEmptyRowsBefore s (row - (row - st.prevRow - st.prevRowRepeat))
              (row - st.prevRow - st.prevRowRepeat) mx g1 with
          | error e => rw [hg] at h; simp at h
          | ok v =>
            obtain ⟨eG, g2⟩ := v
            rw [hg] at h
            simp only [Except.ok.injEq, Prod.mk.injEq] at h
            obtain ⟨gaps, s1, s2, s3⟩ := scan_gap s mx _ _ _ _ _ (by omega) hg
            refine ⟨gaps, s2, by rw [s3]; omega, ?_⟩
            rw [← h.1, rowsScan_append, rowsScan_append, scan_endRow s _ _ _ _ _ he]
            simp only [s1, scan_startRow, List.append_nil]
        · rw [if_neg hs] at h
          simp only [Except.ok.injEq, Prod.mk.injEq] at h
          refine ⟨[], by simp, by simp only [List.map_nil, List.sum_nil]; omega, ?_⟩
          rw [← h.1, rowsScan_append, List.append_nil, scan_endRow s _ _ _ _ _ he]
          simp only [scan_startRow, List.append_nil]
  | true =>
    obtain ⟨h0, h1, h2⟩ := hfirst hf
    rw [hf, h0, h1, h2] at h
    simp only [Nat.sub_zero, Bool.true_eq_false, and_false, if_false, if_true, or_true] at h
    simp only [if_true, List.nil_append, Nat.zero_add]
    by_cases hb : 0 < row
    · rw [if_pos hb, if_neg (by omega), if_pos (by omega)] at h
      cases hg : writeEmptyRowsBefore s (row - (row - 1 + 1)) (row - 1 + 1) mx st.g with
      | error e => rw [hg] at h; simp at h
      | ok v =>
        obtain ⟨eG, g2⟩ := v
        rw [hg] at h
        simp only [if_pos hb, List.nil_append, Except.ok.injEq, Prod.mk.injEq] at h
        obtain ⟨gaps, s1, s2, s3⟩ := scan_gap s mx _ _ _ _ _ (by omega) hg
        refine ⟨gaps, s2, by rw [s3]; omega, ?_⟩
        rw [← h.1, rowsScan_append]
        simp only [s1, scan_startRow, List.append_nil]
    · rw [if_neg hb] at h
      simp only [if_neg hb, List.nil_append, Except.ok.injEq, Prod.mk.injEq] at h
      refine ⟨[], by simp, by simp only [List.map_nil, List.sum_nil]; omega, ?_⟩
      rw [← h.1, scan_startRow]

/-- The row still open. -/
def openRow (st : WState) (p : Nat × List Entry) : Option (Nat × List Entry) :=
  if st.first then none else some p

theorem writeRowList_spec (s : TSheet) (mx : Nat × Nat)
    (rows : List (Nat × List (Nat × CellData))) :
    ∀ (st : WState) (A : List CellRange) (p : Nat × List Entry) (evs : List TEv), rows ≠ [] →
    (∀ q ∈ rows, q.2.Pairwise (fun a b => a.1 < b.1)) → (∀ q ∈ rows, ∀ x ∈ q.2, 1 ≤ x.2.repeat) →
    (∀ q ∈ rows, RowOK s q.1) →
    rows.Pairwise (fun a b => a.1 < b.1) →
    (st.first = false → ∀ q ∈ rows, st.prevRow < q.1) → 1 ≤ st.prevRowRepeat →
    (st.first = true → st.prevRow = 0 ∧ st.prevRowRepeat = 1 ∧ st.prevCol = 0) →
    (∀ q ∈ rows, SameFrom q.1 0 st.spans A) →
    writeRowList s mx st rows = .ok evs →
    ∃ L, rowsScan (openRow st p) evs = ((if st.first then [] else [p]) ++ L, none)
      ∧ RowsSpec s mx.2 (if st.first then 0 else st.prevRow + st.prevRowRepeat) A rows L := by
  induction rows with
  | nil => intro _ _ _ _ h; exact absurd rfl h
  | cons q rows ih =>
    obtain ⟨r, cs⟩ := q
    intro st A p evs _ hp hr hok hrp hlt hpos hfirst hsame h
    simp only [writeRowList] at h
    cases h1 : writeRowChange s mx st r (firstCol cs) with
    | error e => rw [h1] at h; simp at h
    | ok v =>
      obtain ⟨e1, g⟩ := v
      rw [h1] at h
      simp only at h
      cases h2 : writeCells mx r st.spans cs with
      | error e => rw [h2] at h; simp at h
      | ok v =>
        obtain ⟨e2, spans⟩ := v
        rw [h2] at h
        simp only at h
        cases h3 : writeRowList s mx ⟨false, r, rowRepeatOf s r, 0, g, spans⟩ rows with
        | error e => rw [h3] at h; simp at h
        | ok e5 =>
          rw [h3] at h
          simp only [Except.ok.injEq] at h
          obtain ⟨gaps, g1, g2, g3⟩ := scan_rowChange s mx st r (firstCol cs) e1 g
            (fun hf => hlt hf (r, cs) (by simp)) hpos hfirst h1 p
          obtain ⟨c1, c2⟩ := writeCells_entries mx r cs st.spans A e2 spans (hp (r, cs) (by simp))
            (hr (r, cs) (by simp)) ((hsame (r, cs) (by simp)).mono (Or.inr ⟨rfl, Nat.zero_le _⟩)) h2
          obtain ⟨t1, t2, _⟩ := dataTag_ok s r (hok (r, cs) (by simp))
          rw [t1] at g3
          have hcell := rowsScan_cells e2 (writeCells_isCell mx r cs _ _ _ h2)
          have hrlt : ∀ q ∈ rows, r < q.1 := (List.pairwise_cons.mp hrp).1
          rw [c1] at hcell
          have hscan : rowsScan (openRow st p) (e1 ++ e2) = ((if st.first then [] else [p]) ++ gaps,
              some (rowRepeatOf s r, List.replicate (firstCol cs) (false, none)
                ++ rowEntries mx.2 r A cs)) := by
            rw [rowsScan_append]
            unfold openRow
            rw [g3]
            simp only [hcell, List.append_nil]
          rw [← h]
          cases rows with
          | nil =>
            simp only [writeRowList, Except.ok.injEq] at h3
            subst h3
            refine ⟨gaps ++ [(rowRepeatOf s r, List.replicate (firstCol cs) (false, none)
              ++ rowEntries mx.2 r A cs)], ?_, gaps, [], rfl, g1, g2, rfl⟩
            simp only [List.isEmpty_nil, if_true, List.append_nil]
            rw [rowsScan_append, hscan]
            simp only [scan_endLast, List.append_assoc]
          | cons q' rows =>
            obtain ⟨L, l1, l2⟩ := ih ⟨false, r, rowRepeatOf s r, 0, g, spans⟩ (addAreas A r cs)
              (rowRepeatOf s r, List.replicate (firstCol cs) (false, none) ++ rowEntries mx.2 r A cs)
              e5 (by simp) (fun q hq => hp q (by simp [hq])) (fun q hq => hr q (by simp [hq]))
              (fun q hq => hok q (by simp [hq])) (List.pairwise_cons.mp hrp).2
              (fun _ q hq => hrlt q hq) t2 (by simp)
              (fun q hq => c2.mono (by have := hrlt q hq; omega)) h3
            refine ⟨gaps ++ (rowRepeatOf s r, List.replicate (firstCol cs) (false, none)
              ++ rowEntries mx.2 r A cs) :: L, ?_, gaps, L, rfl, g1, g2, l2⟩
            simp only [List.isEmpty_cons, Bool.false_eq_true, if_false, List.append_nil]
            rw [rowsScan_append, hscan]
            simp only [openRow, Bool.false_eq_true, if_false] at l1
            simp only [l1, List.append_assoc, List.cons_append, List.nil_append]

theorem writeRows_spec (s : TSheet) (hd : Sorted s.data) (hok : ∀ q ∈ s.data, RowOK s q.1.1)
    (hrep : ∀ q ∈ s.data, 1 ≤ q.2.repeat) (evs : List TEv) (h : writeRows s = .ok evs) :
    ∃ L, rowsScan none evs = (L, none)
      ∧ RowsSpec s (Cells.usedGridSize s.data).2 0 [] (rowsOf s.data) L := by
  rw [writeRows_list s hd] at h
  have hrs := rowsOf_sorted s.data hd
  have hmem : ∀ p ∈ rowsOf s.data, ∀ x ∈ p.2, ((p.1, x.1), x.2) ∈ s.data := by
    intro p hp x hx
    exact rowsOf_mem_key (r := p.1) (cs := p.2) hp hx
  by_cases hne : rowsOf s.data = []
  · rw [hne] at h ⊢
    simp only [writeRowList, Except.ok.injEq] at h
    subst h
    exact ⟨[], rfl, rfl⟩
  · obtain ⟨L, l1, l2⟩ := writeRowList_spec s _ (rowsOf s.data) {} [] (0, []) evs hne
      (fun q hq => (hrs.2 q hq).2) (fun q hq x hx => hrep _ (hmem q hq x hx))
      (fun q hq => by
        obtain ⟨x, hx, e⟩ := rowsOf_nonempty hd hq
        rw [← e]; exact hok x hx)
      hrs.1 (by simp) (by simp) (by simp) (fun q _ r c _ => Iff.rfl) h
    refine ⟨L, ?_, l2⟩
    simpa [openRow] using l1

theorem writeColLoop_frame (s : TSheet) (maxCol fuel : Nat) : ∀ (c : Nat) (evs : List TEv),
    writeColLoop s maxCol fuel c = .ok evs → ∀ x ∈ evs, x.isFrame = true := by
  induction fuel with
  | zero =>
    intro c evs h
    unfold writeColLoop at h
    split at h
    · simp only [Except.ok.injEq] at h; subst h; simp
    · simp at h
  | succ n ih =>
    intro c evs h
    unfold writeColLoop at h
    split at h
    · simp only [Except.ok.injEq] at h; subst h; simp
    · simp only at h
      split at h
      · simp at h
      · cases h2 : writeColLoop s maxCol n (c + (writeColStep s c).2) with
        | error e => rw [h2] at h; simp at h
        | ok e2 =>
          rw [h2] at h
          simp only [Except.ok.injEq] at h
          subst h
          refine frame_append ?_ (ih _ _ h2)
          unfold writeColStep
          refine frame_append (frame_append (frame_append (frame_append ?_ (frame_ite rfl)) ?_)
            (frame_ite rfl)) ?_
          · intro x hx; obtain ⟨g, _, rfl⟩ := List.mem_map.mp hx; rfl
          · intro x hx; rw [List.mem_singleton.mp hx]; rfl
          · intro x hx; obtain ⟨g, _, rfl⟩ := List.mem_map.mp hx; rfl

/-- The rows of a written sheet. -/
theorem writeSheet_spec (s : TSheet) (hd : Sorted s.data) (hok : ∀ q ∈ s.data, RowOK s q.1.1)
    (hrep : ∀ q ∈ s.data, 1 ≤ q.2.repeat) (evs : List TEv) (h : writeSheet s = .ok evs) :
    (∃ L, rowsScan none evs = (L, none)
      ∧ RowsSpec s (Cells.usedGridSize s.data).2 0 [] (rowsOf s.data) L)
    ∧ (∀ p ∈ rowsOf s.data, NoOverlap p.2) ∧ RowsApart s 0 (rowsOf s.data) := by
  unfold writeSheet at h
  generalize ht : ({ s with colHeader := prepareCols s.groupCols s.headerCols s.colHeader } : TSheet) = t at h
  have hdt : t.data = s.data := by rw [← ht]
  have hrt : t.rowHeader = s.rowHeader := by rw [← ht]
  have hrr : ∀ r, rowRepeatOf t r = rowRepeatOf s r := by intro r; unfold rowRepeatOf; rw [hrt]
  have hok' : ∀ q ∈ t.data, RowOK t q.1.1 := by
    intro q hq
    unfold RowOK
    rw [hrr, hrt]
    exact hok q (hdt ▸ hq)
  unfold writeTable at h
  cases h1 : writeCols t with
  | error e => rw [h1] at h; simp at h
  | ok e1 =>
    rw [h1] at h
    simp only at h
    cases h2 : writeRows t with
    | error e => rw [h2] at h; simp at h
    | ok e2 =>
      rw [h2] at h
      simp only [Except.ok.injEq] at h
      subst h
      obtain ⟨L, l1, l2⟩ := writeRows_spec t (hdt ▸ hd) hok' (hdt ▸ hrep) e2 h2
      obtain ⟨g1, g2, _⟩ := core_sheet {} [] t (hdt ▸ hd) hok' (hdt ▸ hrep) e2 h2 {} (by simp [Core.atRow]) rfl
      rw [hdt] at l2 g2 g1
      have hspec : ∀ rows pos A L, RowsSpec t (Cells.usedGridSize s.data).2 pos A rows L →
          RowsSpec s (Cells.usedGridSize s.data).2 pos A rows L := by
        intro rows
        induction rows with
        | nil => intro pos A L h; exact h
        | cons q rows ih =>
          rintro pos A L ⟨gaps, L', a1, a2, a3, a4⟩
          refine ⟨gaps, L', ?_, a2, a3, ?_⟩
          · rw [← hrr]; exact a1
          · rw [← hrr]; exact ih _ _ _ a4
      have hap : ∀ rows pos, RowsApart t pos rows → RowsApart s pos rows := by
        intro rows
        induction rows with
        | nil => intro pos h; exact h
        | cons q rows ih =>
          intro pos h
          refine ⟨h.1, ?_⟩
          rw [← hrr]
          exact ih _ h.2
      refine ⟨⟨L, ?_, hspec _ _ _ _ l2⟩, g2, hap _ _ g1⟩
      rw [rowsScan_append, rowsScan_frame e1 (writeColLoop_frame t _ _ _ _ h1)]
      simp only [l1, List.nil_append]

end Verif
