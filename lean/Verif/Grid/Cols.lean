import Verif.Grid.Groups
import Verif.Grid.Tiles
import Verif.Header.Lemmas

/-!
# Writing and reading the column section
-/

set_option autoImplicit false

namespace Verif

open OMap

/-- No header extends over the border before column `c`. -/
def ColHeaders.Border (m : ColHeaders) (c : Nat) : Prop :=
  ∀ b h, get? m b = some h → ¬ (b < c ∧ c < b + h.span)

/-- Does the header carry an attribute that is written? -/
def ColHeader.styled (h : ColHeader) : Bool :=
  h.style.isSome || h.cellstyle.isSome || decide (h.visible ≠ .visible)

/-- The part of a header that is written (the width is written with the style). -/
def ColHeader.strip (h : ColHeader) : ColHeader := { h with width := .default }

/-- What the column section of a sheet has to satisfy to be written and read without loss. -/
structure ColsOK (s : TSheet) : Prop where
  wf : s.colHeader.WF
  groups : GroupsOK s.groupCols
  frm : ∀ g ∈ s.groupCols, s.colHeader.Border g.frm
  to : ∀ g ∈ s.groupCols, s.colHeader.Border g.to
  to1 : ∀ g ∈ s.groupCols, s.colHeader.Border (g.to + 1)
  hle : ∀ h, s.headerCols = some h → h.frm ≤ h.to
  hfrm : ∀ h, s.headerCols = some h → s.colHeader.Border h.frm
  hto : ∀ h, s.headerCols = some h → s.colHeader.Border (h.to + 1)

/-- The header range read so far, at column `c`. -/
def headerUpTo (h : Option HeaderRange) (c : Nat) : Option HeaderRange :=
  match h with
  | none => none
  | some h => if c ≤ h.frm then none else some ⟨h.frm, min c (h.to + 1) - 1⟩

/-- Columns read so far. -/
structure ColInv (s : TSheet) (c : Nat) (st : RState) : Prop where
  col : st.col = c
  border : s.colHeader.Border c
  sorted : Sorted st.sheet.colHeader
  cols : ∀ k, get? st.sheet.colHeader k
    = if k < c then ((get? s.colHeader k).filter ColHeader.styled).map ColHeader.strip else none
  groups : GInv s.groupCols c st.colGroup st.sheet.groupCols
  header : st.sheet.headerCols = headerUpTo s.headerCols c

theorem read_open_cols (o : ReadOpts) (gs : List Grouped) : ∀ (st : RState),
    (∀ g ∈ gs, g.frm = st.col) →
    readEvents o st (gs.map colGroupStartOf)
      = some { st with colGroup := (gs.map openGroup).reverse ++ st.colGroup } := by
  induction gs with
  | nil => intro st _; rfl
  | cons g gs ih =>
    intro st h
    have hg := h g (by simp)
    simp only [List.map_cons, readEvents, colGroupStartOf, readStep]
    refine (ih _ ?_).trans ?_
    · intro x hx; exact h x (by simp [hx])
    have : (⟨st.col, 0, (if g.display then none else some false : Option Bool).getD true⟩ : Grouped)
        = openGroup g := by
      cases g with | mk f t d => cases d <;> simp_all [openGroup]
    simp only [this, List.reverse_cons, List.append_assoc, List.cons_append, List.nil_append]

theorem read_close_cols (o : ReadOpts) (k : Nat) : ∀ (st : RState), k ≤ st.colGroup.length →
    0 < st.col →
    readEvents o st (List.replicate k .colGroupEnd)
      = some { st with colGroup := st.colGroup.drop k, sheet := { st.sheet with
          groupCols := st.sheet.groupCols
            ++ (st.colGroup.take k).map (fun g => { g with to := st.col - 1 }) } } := by
  induction k with
  | zero => intro st _ _; simp [readEvents]
  | succ k ih =>
    intro st hk hc
    cases hg : st.colGroup with
    | nil => rw [hg] at hk; simp at hk
    | cons g gs =>
      rw [hg] at hk
      simp only [List.replicate_succ, readEvents, readStep, hg, if_neg (show ¬ st.col = 0 by omega)]
      refine (ih { st with colGroup := gs, sheet := { st.sheet with
        groupCols := st.sheet.groupCols ++ [{ g with to := st.col - 1 }] } } ?_ hc).trans ?_
      · simpa using hk
      · simp

theorem checkTags_open_cols (gs : List Grouped) (T : List TTag) (rest : List TEv) :
    checkTags T (gs.map colGroupStartOf ++ rest)
      = checkTags (List.replicate gs.length .colGroup ++ T) rest := by
  induction gs generalizing T with
  | nil => rfl
  | cons g gs ih =>
    simp only [List.map_cons, List.cons_append, checkTags, colGroupStartOf, TEv.opens]
    rw [ih]
    congr 1
    rw [List.length_cons, List.replicate_succ', List.append_assoc]
    rfl

theorem checkTags_close_cols (k : Nat) (T : List TTag) (rest : List TEv) :
    checkTags (List.replicate k .colGroup ++ T) (List.replicate k .colGroupEnd ++ rest)
      = checkTags T rest := by
  induction k with
  | zero => rfl
  | succ k ih =>
    simp only [List.replicate_succ, List.cons_append, checkTags, TEv.opens, TEv.closes, if_true]
    exact ih

theorem read_colAttr (m : ColHeaders) (c : Nat) (h : ColHeader) (hs : 1 ≤ h.span) :
    readColAttr m c (colTag h)
      = (if h.styled then OMap.insert m c h.strip else m, h.span) := by
  unfold readColAttr colTag ColHeader.styled ColHeader.strip
  simp only [repAttr_getD _ hs]
  by_cases hv : h.visible = .visible
  · simp only [hv, ne_eq, not_true_eq_false, decide_false, Bool.or_false, if_true,
      Option.isSome_none, Option.getD_none]
    split <;> rfl
  · simp only [hv, ne_eq, not_false_eq_true, decide_true, Bool.or_true, if_false,
      Option.isSome_some, Option.getD_some, if_true]

theorem Border.next {s : TSheet} (hw : s.colHeader.WF) {c : Nat} (hb : s.colHeader.Border c) :
    s.colHeader.Border (c + (writeColStep s c).2) := by
  unfold writeColStep
  simp only
  intro b h hg hlt
  cases hc : OMap.get? s.colHeader c with
  | none =>
    rw [hc] at hlt
    simp only at hlt
    by_cases e : b = c
    · subst e; rw [hc] at hg; simp at hg
    · exact hb b h hg (by omega)
  | some x =>
    rw [hc] at hlt
    simp only at hlt
    rcases Nat.lt_trichotomy b c with e | e | e
    · exact hb b h hg (by omega)
    · subst e
      rw [hc] at hg
      simp only [Option.some.injEq] at hg
      subst hg
      omega
    · have := hw.disj hc hg e; omega

/-- A border strictly inside a step does not exist. -/
theorem Border.inside {s : TSheet} {c x : Nat} (hx : s.colHeader.Border x)
    (h : c < x) : c + (writeColStep s c).2 ≤ x := by
  unfold writeColStep
  simp only
  cases hc : OMap.get? s.colHeader c with
  | none => simp only; omega
  | some y =>
    simp only
    have := hx c y hc
    omega

theorem step_pos {s : TSheet} (hw : s.colHeader.WF) (c : Nat) : 1 ≤ (writeColStep s c).2 := by
  unfold writeColStep
  simp only
  cases hc : OMap.get? s.colHeader c with
  | none => exact Nat.le_refl 1
  | some y => exact hw.pos hc

/-- One step of the column loop. -/
theorem col_step (s : TSheet) (hs : ColsOK s) (o : ReadOpts) (c : Nat) (st : RState)
    (hi : ColInv s c st) :
    ∃ st', readEvents o st (writeColStep s c).1 = some st'
      ∧ ColInv s (c + (writeColStep s c).2) st'
      ∧ ∀ rest, checkTags (List.replicate st.colGroup.length .colGroup)
          ((writeColStep s c).1 ++ rest)
        = checkTags (List.replicate st'.colGroup.length .colGroup) rest := by
  obtain ⟨hcol, hbor, hsort, hcols, hgrp, hhdr⟩ := hi
  have hpos := step_pos hs.wf c
  generalize hn : (writeColStep s c).2 = n at *
  -- the group part
  have hfrm : ∀ g ∈ s.groupCols, c < g.frm → c + n ≤ g.frm := by
    intro g hg hlt
    rw [← hn]; exact Border.inside (hs.frm g hg) hlt
  have hto : ∀ g ∈ s.groupCols, c ≤ g.to → c + n - 1 ≤ g.to := by
    intro g hg hle
    have : c + n ≤ g.to + 1 := by rw [← hn]; exact Border.inside (hs.to1 g hg) (by omega)
    omega
  have hkeq : s.groupCols.filter (fun g => decide (g.to = c + n - 1))
      = s.groupCols.filter (fun g => decide (c = g.to)) := by
    apply List.filter_congr
    intro g hg
    rw [Bool.eq_iff_iff]
    simp only [decide_eq_true_eq]
    constructor
    · intro e
      by_cases h1 : c < g.to
      · have : c + n ≤ g.to := by rw [← hn]; exact Border.inside (hs.to g hg) h1
        omega
      · omega
    · intro e
      have := hto g hg (by omega)
      have h2 : c + n ≤ g.to + 1 := by rw [← hn]; exact Border.inside (hs.to1 g hg) (by omega)
      omega
  obtain ⟨hk, hg'⟩ := hgrp.step hs.groups hpos hfrm hto
  simp only [hkeq] at hk hg'
  have hfe : s.groupCols.filter (fun g => decide (g.frm = c))
      = s.groupCols.filter (fun g => decide (c = g.frm)) := by
    apply List.filter_congr
    intro g _
    rw [Bool.eq_iff_iff]; simp only [decide_eq_true_eq]; omega
  rw [hfe] at hk hg'
  generalize hO : s.groupCols.filter (fun g => decide (c = g.frm)) = O at *
  generalize hE : s.groupCols.filter (fun g => decide (c = g.to)) = E at *
  have hOc : ∀ g ∈ O, g.frm = st.col := by
    intro g hg
    rw [← hO] at hg
    simp only [List.mem_filter, decide_eq_true_eq] at hg
    omega
  -- the column itself
  let tag : ColTag := match OMap.get? s.colHeader c with | some h => colTag h | none => {}
  have htag : (writeColStep s c).1 = O.map colGroupStartOf
      ++ (if inHeaderCols s c then [.colHeaderStart] else []) ++ [.column tag]
      ++ (if inHeaderCols s c then [.colHeaderEnd] else []) ++ List.replicate E.length .colGroupEnd := by
    unfold writeColStep
    simp only [hO, hE]
    congr 1
    rw [List.map_const']
  have hcolread : readColAttr st.sheet.colHeader c tag
      = (if ((get? s.colHeader c).filter ColHeader.styled).isSome
          then OMap.insert st.sheet.colHeader c (((get? s.colHeader c).getD {}).strip)
          else st.sheet.colHeader, n) := by
    simp only [tag]
    rw [← hn]
    unfold writeColStep
    simp only
    cases hc : OMap.get? s.colHeader c with
    | none => simp [readColAttr]
    | some x =>
      simp only [Option.getD_some]
      rw [read_colAttr _ _ _ (hs.wf.pos hc)]
      by_cases hx : x.styled = true
      · simp [Option.filter, hx]
      · simp [Option.filter, hx]
  generalize hm' : (if ((get? s.colHeader c).filter ColHeader.styled).isSome
          then OMap.insert st.sheet.colHeader c (((get? s.colHeader c).getD {}).strip)
          else st.sheet.colHeader) = m' at hcolread
  have hms : Sorted m' := by
    rw [← hm']
    split
    · exact hsort.insert _ _
    · exact hsort
  have hmg : ∀ k, get? m' k = if k < c + n then
      ((get? s.colHeader k).filter ColHeader.styled).map ColHeader.strip else none := by
    intro k
    have hnone : c < k → k < c + n → get? s.colHeader k = none := by
      intro h1 h2
      cases hk : OMap.get? s.colHeader k with
      | none => rfl
      | some y =>
        exfalso
        rw [← hn] at h2
        unfold writeColStep at h2
        simp only at h2
        cases hc : OMap.get? s.colHeader c with
        | none => rw [hc] at h2; simp only at h2; omega
        | some x =>
          rw [hc] at h2
          simp only at h2
          have := hs.wf.disj hc hk h1
          omega
    rw [← hm']
    by_cases hst : ((get? s.colHeader c).filter ColHeader.styled).isSome = true
    · rw [if_pos hst, get?_insert]
      by_cases hkc : k = c
      · subst hkc
        rw [if_pos rfl, if_pos (by omega)]
        cases hc : OMap.get? s.colHeader k with
        | none => rw [hc] at hst; simp at hst
        | some x =>
          rw [hc] at hst
          have hx : x.styled = true := by
            by_cases hx : x.styled = true
            · exact hx
            · simp [Option.filter, hx] at hst
          simp [Option.filter, hx]
      · rw [if_neg hkc, hcols]
        by_cases h1 : k < c
        · rw [if_pos h1, if_pos (by omega)]
        · rw [if_neg h1]
          by_cases h2 : k < c + n
          · rw [if_pos h2, hnone (by omega) h2]; rfl
          · rw [if_neg h2]
    · rw [if_neg hst, hcols]
      have hf : (get? s.colHeader c).filter ColHeader.styled = none := by
        cases e : (get? s.colHeader c).filter ColHeader.styled with
        | none => rfl
        | some y => rw [e] at hst; exact absurd rfl hst
      by_cases h1 : k < c
      · rw [if_pos h1, if_pos (by omega)]
      · rw [if_neg h1]
        by_cases h2 : k < c + n
        · rw [if_pos h2]
          by_cases hkc : k = c
          · subst hkc; rw [hf]; rfl
          · rw [hnone (by omega) h2]; rfl
        · rw [if_neg h2]
  -- header range
  have hhin : ∀ h, s.headerCols = some h → inHeaderCols s c = true →
      h.frm ≤ c ∧ c ≤ h.to := by
    intro h hh hin
    unfold inHeaderCols at hin
    rw [hh] at hin
    simpa using hin
  let stack' := (O.map openGroup).reverse ++ st.colGroup
  have hstk : (O.map openGroup).reverse ++ st.colGroup = stack' := rfl
  rw [hstk] at hk hg'
  -- read everything
  refine ⟨{ st with
      col := c + n, colRangeFrom := if inHeaderCols s c then c else st.colRangeFrom
      colGroup := stack'.drop E.length
      sheet := { st.sheet with
        colHeader := m'
        headerCols := headerUpTo s.headerCols (c + n)
        groupCols := st.sheet.groupCols
          ++ (stack'.take E.length).map (fun g => { g with to := c + n - 1 }) } }, ?_, ?_, ?_⟩
  · rw [htag]
    simp only [List.append_assoc]
    rw [readEvents_append, read_open_cols o O st hOc]
    simp only [Option.bind_some, hstk]
    by_cases hin : inHeaderCols s c = true
    · simp only [hin, if_true, List.cons_append, List.nil_append, readEvents, readStep]
      simp only [hcol, hcolread]
      -- the end of the header range
      have hend : endHeader st.sheet.headerCols c (c + n) = some (headerUpTo s.headerCols (c + n)) := by
        cases hh : s.headerCols with
        | none => unfold inHeaderCols at hin; rw [hh] at hin; simp at hin
        | some h =>
          obtain ⟨a1, a2⟩ := hhin h hh hin
          have a3 : c + n ≤ h.to + 1 := by
            rw [← hn]; exact Border.inside (hs.hto h hh) (by omega)
          rw [hhdr, hh]
          unfold endHeader headerUpTo
          simp only
          rw [if_neg (by omega), if_neg (show ¬ c + n ≤ h.frm by omega)]
          by_cases a4 : c ≤ h.frm
          · have : c = h.frm := by omega
            simp only [if_pos a4]
            rw [this]
            have : min (h.frm + n) (h.to + 1) = h.frm + n := by omega
            rw [this]
          · simp only [if_neg a4]
            have : min (c + n) (h.to + 1) = c + n := by omega
            rw [this]
      simp only [hend, Option.map_some]
      exact read_close_cols o E.length _ hk (by show 0 < c + n; omega)
    · have hin' : inHeaderCols s c = false := by simpa using hin
      simp only [hin', Bool.false_eq_true, if_false, List.cons_append, List.nil_append, readEvents,
        readStep]
      simp only [hcol, hcolread]
      refine (read_close_cols o E.length _ hk (by show 0 < c + n; omega)).trans ?_
      have hh2 : st.sheet.headerCols = headerUpTo s.headerCols (c + n) := by
        rw [hhdr]
        cases hh : s.headerCols with
        | none => rfl
        | some h =>
          unfold inHeaderCols at hin'
          rw [hh] at hin'
          simp only [Bool.and_eq_false_iff, decide_eq_false_iff_not] at hin'
          unfold headerUpTo
          simp only
          by_cases a1 : c < h.frm
          · have a3 : c + n ≤ h.frm := by rw [← hn]; exact Border.inside (hs.hfrm h hh) a1
            rw [if_pos (by omega), if_pos a3]
          · have a2 := hs.hle h hh
            rw [if_neg (by omega), if_neg (by omega)]
            have : min c (h.to + 1) = min (c + n) (h.to + 1) := by omega
            rw [this]
      show some _ = some _
      simp only [hh2]
  · refine ⟨rfl, ?_, hms, hmg, hg', rfl⟩
    rw [← hn]
    exact Border.next hs.wf hbor
  · intro rest
    rw [htag]
    simp only [List.append_assoc]
    rw [checkTags_open_cols]
    have hlen : List.replicate O.length TTag.colGroup ++ List.replicate st.colGroup.length .colGroup
        = List.replicate E.length .colGroup
          ++ List.replicate (stack'.drop E.length).length .colGroup := by
      rw [List.replicate_append_replicate, List.replicate_append_replicate]
      congr 1
      rw [List.length_drop]
      have : stack'.length = O.length + st.colGroup.length := by
        rw [← hstk]; simp
      omega
    rw [hlen]
    cases inHeaderCols s c with
    | true =>
      simp only [if_true, List.cons_append, List.nil_append, checkTags, TEv.opens, TEv.closes]
      exact checkTags_close_cols _ _ _
    | false =>
      simp only [Bool.false_eq_true, if_false, List.cons_append, List.nil_append, checkTags,
        TEv.opens, TEv.closes]
      exact checkTags_close_cols _ _ _

theorem col_loop (s : TSheet) (hs : ColsOK s) (o : ReadOpts) (mx : Nat)
    (hmx : ∀ g ∈ s.groupCols, g.to < mx) (fuel : Nat) :
    ∀ (c : Nat) (st : RState), ColInv s c st → mx ≤ c + fuel →
    ∃ evs st' c', writeColLoop s mx fuel c = .ok evs
      ∧ readEvents o st evs = some st' ∧ mx ≤ c' ∧ ColInv s c' st'
      ∧ ∀ rest, checkTags (List.replicate st.colGroup.length .colGroup) (evs ++ rest)
        = checkTags [] rest := by
  induction fuel with
  | zero =>
    intro c st hi hf
    have hle : mx ≤ c := by omega
    refine ⟨[], st, c, ?_, rfl, hle, hi, ?_⟩
    · unfold writeColLoop; rw [if_pos hle]
    · intro rest
      obtain ⟨e, _⟩ := hi.groups.final (fun g hg => by have := hmx g hg; omega)
      rw [e]; rfl
  | succ fuel ih =>
    intro c st hi hf
    by_cases hle : mx ≤ c
    · refine ⟨[], st, c, ?_, rfl, hle, hi, ?_⟩
      · unfold writeColLoop; rw [if_pos hle]
      · intro rest
        obtain ⟨e, _⟩ := hi.groups.final (fun g hg => by have := hmx g hg; omega)
        rw [e]; rfl
    · obtain ⟨st1, r1, r2, r3⟩ := col_step s hs o c st hi
      have hpos := step_pos hs.wf c
      obtain ⟨evs, st', c', q1, q2, q3, q4, q5⟩ := ih _ st1 r2 (by omega)
      refine ⟨(writeColStep s c).1 ++ evs, st', c', ?_, ?_, q3, q4, ?_⟩
      · unfold writeColLoop
        rw [if_neg hle]
        simp only [if_neg (show ¬ (writeColStep s c).2 = 0 by omega), q1]
      · rw [readEvents_append, r1]
        exact q2
      · intro rest
        rw [List.append_assoc, r3, q5]

theorem colCount_ge (s : TSheet) :
    (Cells.usedGridSize s.data).2 ≤ colCount s ∧ (∀ g ∈ s.groupCols, g.to < colCount s)
    ∧ ∀ h, s.headerCols = some h → h.to < colCount s := by
  have hf : ∀ (gs : List Grouped) (a : Nat),
      a ≤ gs.foldl (fun m g => max m (g.to + 1)) a
      ∧ ∀ g ∈ gs, g.to < gs.foldl (fun m g => max m (g.to + 1)) a := by
    intro gs
    induction gs with
    | nil => intro a; simp
    | cons g gs ih =>
      intro a
      obtain ⟨i1, i2⟩ := ih (max a (g.to + 1))
      simp only [List.foldl_cons]
      refine ⟨by omega, ?_⟩
      intro x hx
      rcases List.mem_cons.mp hx with e | e
      · subst e; omega
      · exact i2 x e
  obtain ⟨f1, f2⟩ := hf s.groupCols (Cells.usedGridSize s.data).2
  unfold colCount
  cases hh : s.headerCols with
  | none => exact ⟨f1, f2, by simp⟩
  | some h =>
    simp only
    refine ⟨by omega, ?_, ?_⟩
    · intro g hg; have := f2 g hg; omega
    · intro h' e
      simp only [Option.some.injEq] at e
      subst e; omega

/-- The column section is written, is well formed and reads back. -/
theorem cols_roundtrip (s : TSheet) (hs : ColsOK s) (o : ReadOpts) :
    ∃ evs st', writeCols s = .ok evs ∧ readEvents o {} evs = some st'
      ∧ (∀ rest, checkTags [] (evs ++ rest) = checkTags [] rest)
      ∧ Sorted st'.sheet.colHeader
      ∧ (∃ c, colCount s ≤ c ∧ ∀ k, get? st'.sheet.colHeader k = if k < c then
          ((get? s.colHeader k).filter ColHeader.styled).map ColHeader.strip else none)
      ∧ st'.sheet.groupCols.Perm s.groupCols
      ∧ st'.sheet.headerCols = s.headerCols := by
  have hinit : ColInv s 0 {} := by
    refine ⟨rfl, fun b h _ => by omega, sorted_nil, fun k => by simp, ginv_zero _, ?_⟩
    unfold headerUpTo
    cases s.headerCols with
    | none => rfl
    | some h => simp
  obtain ⟨evs, st', c', h1, h2, h3, h4, h5⟩ := col_loop s hs o (colCount s)
    (colCount_ge s).2.1 (colCount s) 0 {} hinit (by omega)
  refine ⟨evs, st', h1, h2, h5, h4.sorted, ⟨c', h3, h4.cols⟩, ?_, ?_⟩
  · exact (h4.groups.final (fun g hg => by have := (colCount_ge s).2.1 g hg; omega)).2
  · rw [h4.header]
    unfold headerUpTo
    cases hh : s.headerCols with
    | none => rfl
    | some h =>
      have a1 := (colCount_ge s).2.2 h hh
      have a2 := hs.hle h hh
      simp only
      rw [if_neg (by omega)]
      have : min c' (h.to + 1) - 1 = h.to := by omega
      rw [this]

/-! ### Columns read, whatever the groups -/

/-- Other events than columns leave the columns alone. -/
theorem readEvents_nocolumn (o : ReadOpts) (evs : List TEv) : ∀ (st st' : RState),
    (∀ e ∈ evs, (∃ d, e = .colGroupStart d) ∨ e = .colGroupEnd ∨ e = .colHeaderStart
      ∨ e = .colHeaderEnd) → readEvents o st evs = some st' →
    st'.col = st.col ∧ st'.sheet.colHeader = st.sheet.colHeader := by
  induction evs with
  | nil => intro st st' _ h; simp only [readEvents, Option.some.injEq] at h; subst h; exact ⟨rfl, rfl⟩
  | cons e evs ih =>
    intro st st' he h
    simp only [readEvents] at h
    cases hs : readStep o st e with
    | none => rw [hs] at h; simp at h
    | some st1 =>
      rw [hs] at h
      obtain ⟨i1, i2⟩ := ih st1 st' (fun x hx => he x (by simp [hx])) h
      have : st1.col = st.col ∧ st1.sheet.colHeader = st.sheet.colHeader := by
        rcases he e (by simp) with ⟨d, rfl⟩ | rfl | rfl | rfl
        · simp only [readStep, Option.some.injEq] at hs; subst hs; exact ⟨rfl, rfl⟩
        · simp only [readStep] at hs
          split at hs
          · simp only [Option.some.injEq] at hs; subst hs; exact ⟨rfl, rfl⟩
          · split at hs
            · simp at hs
            · simp only [Option.some.injEq] at hs; subst hs; exact ⟨rfl, rfl⟩
        · simp only [readStep, Option.some.injEq] at hs; subst hs; exact ⟨rfl, rfl⟩
        · simp only [readStep, Option.map_eq_some_iff] at hs
          obtain ⟨x, _, hs⟩ := hs
          subst hs; exact ⟨rfl, rfl⟩
      exact ⟨i1.trans this.1, i2.trans this.2⟩

/-- The columns read up to column `c`. -/
structure ColLook (m : ColHeaders) (c : Nat) (r : ColHeaders) : Prop where
  sorted : Sorted r
  get : ∀ k, get? r k
    = if k < c then ((get? m k).filter ColHeader.styled).map ColHeader.strip else none

theorem colLook_step {s : TSheet} (hw : s.colHeader.WF) {c : Nat} {r : ColHeaders}
    (h : ColLook s.colHeader c r) :
    ColLook s.colHeader (c + (writeColStep s c).2)
      (readColAttr r c (match s.colHeader.get? c with | some h => colTag h | none => {})).1
    ∧ (readColAttr r c (match s.colHeader.get? c with | some h => colTag h | none => {})).2
      = (writeColStep s c).2 := by
  obtain ⟨hsort, hcols⟩ := h
  unfold writeColStep
  simp only
  cases hc : OMap.get? s.colHeader c with
  | none =>
    simp only [readColAttr, Option.isSome_none, Bool.or_self, Bool.false_eq_true, if_false,
      Option.getD_none, and_true]
    refine ⟨hsort, ?_⟩
    intro k
    rw [hcols]
    by_cases h1 : k < c
    · rw [if_pos h1, if_pos (by omega)]
    · rw [if_neg h1]
      by_cases h2 : k < c + 1
      · have : k = c := by omega
        rw [if_pos h2, this, hc]; rfl
      · rw [if_neg h2]
  | some x =>
    have hp := hw.pos hc
    simp only
    rw [read_colAttr _ _ _ hp]
    refine ⟨⟨?_, ?_⟩, rfl⟩
    · simp only
      split
      · exact hsort.insert _ _
      · exact hsort
    · intro k
      have hnone : c < k → k < c + x.span → get? s.colHeader k = none := by
        intro h1 h2
        cases hk : OMap.get? s.colHeader k with
        | none => rfl
        | some y => have := hw.disj hc hk h1; omega
      simp only
      by_cases hx : x.styled = true
      · rw [if_pos hx, get?_insert]
        by_cases hkc : k = c
        · subst hkc
          rw [if_pos rfl, if_pos (by omega), hc]
          simp [Option.filter, hx]
        · rw [if_neg hkc, hcols]
          by_cases h1 : k < c
          · rw [if_pos h1, if_pos (by omega)]
          · rw [if_neg h1]
            by_cases h2 : k < c + x.span
            · rw [if_pos h2, hnone (by omega) h2]; rfl
            · rw [if_neg h2]
      · rw [if_neg hx, hcols]
        by_cases h1 : k < c
        · rw [if_pos h1, if_pos (by omega)]
        · rw [if_neg h1]
          by_cases h2 : k < c + x.span
          · rw [if_pos h2]
            by_cases hkc : k = c
            · subst hkc; rw [hc]; simp [Option.filter, hx]
            · rw [hnone (by omega) h2]; rfl
          · rw [if_neg h2]

theorem colLook_loop {s : TSheet} (hw : s.colHeader.WF) (o : ReadOpts) (mx fuel : Nat) :
    ∀ (c : Nat) (st st' : RState) (evs : List TEv), st.col = c →
    ColLook s.colHeader c st.sheet.colHeader → writeColLoop s mx fuel c = .ok evs →
    readEvents o st evs = some st' →
    ∃ c', mx ≤ c' ∧ ColLook s.colHeader c' st'.sheet.colHeader := by
  induction fuel with
  | zero =>
    intro c st st' evs hcol hl hwr hrd
    unfold writeColLoop at hwr
    split at hwr
    · rename_i hle
      simp only [Except.ok.injEq] at hwr
      subst hwr
      simp only [readEvents, Option.some.injEq] at hrd
      subst hrd
      exact ⟨c, hle, hl⟩
    · simp at hwr
  | succ fuel ih =>
    intro c st st' evs hcol hl hwr hrd
    unfold writeColLoop at hwr
    split at hwr
    · rename_i hle
      simp only [Except.ok.injEq] at hwr
      subst hwr
      simp only [readEvents, Option.some.injEq] at hrd
      subst hrd
      exact ⟨c, hle, hl⟩
    · simp only at hwr
      split at hwr
      · simp at hwr
      split at hwr
      · simp at hwr
      rename_i evs' hev
      simp only [Except.ok.injEq] at hwr
      subst hwr
      rw [readEvents_append] at hrd
      cases h1 : readEvents o st (writeColStep s c).1 with
      | none => rw [h1] at hrd; simp at hrd
      | some st1 =>
        rw [h1] at hrd
        simp only [Option.bind_some] at hrd
        have hstep : st1.col = c + (writeColStep s c).2
            ∧ ColLook s.colHeader (c + (writeColStep s c).2) st1.sheet.colHeader := by
          have hform : (writeColStep s c).1 = ((s.groupCols.filter (fun g => decide (c = g.frm))).map
              colGroupStartOf ++ (if inHeaderCols s c then [.colHeaderStart] else []))
              ++ ([.column (match s.colHeader.get? c with | some h => colTag h | none => {})]
              ++ ((if inHeaderCols s c then [.colHeaderEnd] else [])
              ++ (s.groupCols.filter (fun g => decide (c = g.to))).map (fun _ => .colGroupEnd))) := by
            unfold writeColStep
            simp only [List.append_assoc]
            rfl
          rw [hform, readEvents_append] at h1
          cases h2 : readEvents o st ((s.groupCols.filter (fun g => decide (c = g.frm))).map
              colGroupStartOf ++ (if inHeaderCols s c then [.colHeaderStart] else [])) with
          | none => rw [h2] at h1; simp at h1
          | some st2 =>
            rw [h2] at h1
            simp only [Option.bind_some] at h1
            obtain ⟨a1, a2⟩ := readEvents_nocolumn o _ st st2 (by
              intro e he
              rcases List.mem_append.mp he with he | he
              · obtain ⟨g, _, rfl⟩ := List.mem_map.mp he
                exact Or.inl ⟨_, rfl⟩
              · rw [mem_ite_single he]; simp) h2
            simp only [List.cons_append, List.nil_append, readEvents, readStep] at h1
            obtain ⟨b1, b2⟩ := readEvents_nocolumn o _ _ st1 (by
              intro e he
              rcases List.mem_append.mp he with he | he
              · rw [mem_ite_single he]; simp
              · obtain ⟨g, _, rfl⟩ := List.mem_map.mp he
                simp) h1
            simp only at b1 b2
            rw [a2, a1, hcol] at b1 b2
            obtain ⟨c1, c2⟩ := colLook_step hw hl
            rw [b1, b2, c2]
            exact ⟨rfl, c1⟩
        exact ih _ st1 st' evs' hstep.1 hstep.2 hev hrd

/-- The columns read back, whatever the groups and header columns. -/
theorem colLook_cols {s : TSheet} (hw : s.colHeader.WF) (o : ReadOpts) (evs : List TEv)
    (st : RState) (hwr : writeCols s = .ok evs) (hrd : readEvents o {} evs = some st) :
    ∃ c, colCount s ≤ c ∧ ColLook s.colHeader c st.sheet.colHeader :=
  colLook_loop hw o _ _ 0 {} st evs rfl ⟨sorted_nil, fun k => by simp⟩ hwr hrd

theorem ColLook.wf {m r : ColHeaders} {c : Nat} (hw : m.WF) (h : ColLook m c r) : r.WF := by
  have hg : ∀ k x, get? r k = some x → ∃ y, get? m k = some y ∧ y.styled = true ∧ x = y.strip
      ∧ k < c := by
    intro k x hx
    rw [h.get] at hx
    split at hx
    · rename_i hk
      simp only [Option.map_eq_some_iff, Option.filter_eq_some_iff] at hx
      obtain ⟨y, ⟨h1, h2⟩, h3⟩ := hx
      exact ⟨y, h1, h2, h3.symm, hk⟩
    · simp at hx
  refine ⟨h.sorted, ?_, ?_⟩
  · intro p hp
    obtain ⟨y, h1, _, h3, _⟩ := hg p.1 p.2 ((get?_eq_some_iff h.sorted).mpr hp)
    rw [h3]
    exact (show 1 ≤ y.span from hw.pos h1)
  · refine List.Pairwise.imp_of_mem ?_ h.sorted
    intro p q hp hq hlt
    have hlt : p.1 < q.1 := by simpa using hlt
    obtain ⟨y, h1, _, h3, _⟩ := hg p.1 p.2 ((get?_eq_some_iff h.sorted).mpr hp)
    obtain ⟨y', h1', _, h3', _⟩ := hg q.1 q.2 ((get?_eq_some_iff h.sorted).mpr hq)
    have := hw.disj h1 h1' hlt
    rw [h3]
    exact this

/-- What `valid` finds in the columns read. -/
theorem ColLook.valid {m r : ColHeaders} {c : Nat} (hw : m.WF) (h : ColLook m c r) {k : Nat}
    (hk : k < c) : r.valid k = ((m.valid k).filter ColHeader.styled).map ColHeader.strip := by
  have hwr := h.wf hw
  apply Option.ext
  intro x
  rw [hwr.valid_some]
  constructor
  · rintro ⟨b, h1, h2, h3⟩
    rw [h.get, if_pos (by omega)] at h1
    simp only [Option.map_eq_some_iff, Option.filter_eq_some_iff] at h1 ⊢
    obtain ⟨y, ⟨g1, g2⟩, rfl⟩ := h1
    exact ⟨y, ⟨hw.valid_some.mpr ⟨b, g1, h2, h3⟩, g2⟩, rfl⟩
  · intro hx
    simp only [Option.map_eq_some_iff, Option.filter_eq_some_iff] at hx
    obtain ⟨y, ⟨g1, g2⟩, rfl⟩ := hx
    obtain ⟨b, h1, h2, h3⟩ := hw.valid_some.mp g1
    refine ⟨b, ?_, h2, h3⟩
    rw [h.get, if_pos (by omega), h1]
    simp [Option.filter, g2]

/-- Style, default cell style and visibility of the columns read. -/
theorem ColLook.attrs {m r : ColHeaders} {c : Nat} (hw : m.WF) (h : ColLook m c r) {k : Nat}
    (hk : k < c) : r.observe k = { m.observe k with width := .default } := by
  rw [ColHeaders.observe_eq, ColHeaders.observe_eq, h.valid hw hk]
  cases hv : m.valid k with
  | none => rfl
  | some x =>
    by_cases hx : x.styled = true
    · simp [Option.filter, hx, ColHeader.strip, ColHeader.obs]
    · have h2 := hx
      unfold ColHeader.styled at h2
      simp only [Bool.or_eq_true, not_or, decide_eq_true_eq, ne_eq, Decidable.not_not] at h2
      have e1 : x.style = none := by simpa using h2.1.1
      have e2 : x.cellstyle = none := by simpa using h2.1.2
      simp [Option.filter, hx, ColHeader.obs, e1, e2, h2.2]

end Verif
