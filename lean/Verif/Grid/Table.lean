import Verif.Grid.RowTags
import Verif.Grid.Reach

/-!
# Whole tables: groups, header rows and columns, balance, errors (C13, C15, C16, C19, C24, C25)
-/

set_option autoImplicit false

namespace Verif

open OMap

theorem prepare_validObs (m : ColHeaders) (hm : m.WF) (hg : m.NoGap) (gs : List Grouped)
    (hc : Option HeaderRange) (c : Nat) :
    ((prepareCols gs hc m).valid c).map ColHeader.obs = (m.valid c).map ColHeader.obs := by
  unfold prepareCols
  rw [ColHeaders.splitAt_validObs _ _ (ColHeaders.dedup_wf m hm)]
  cases m with
  | nil => rfl
  | cons p m => rw [ColHeaders.dedup_cons _ _ hm.sorted, ColHeaders.dedupL_obs _ _ _ hm.sorted hg]

theorem prepare_wf (m : ColHeaders) (hm : m.WF) (gs : List Grouped) (hc : Option HeaderRange) :
    (prepareCols gs hc m).WF := ColHeaders.splitAt_wf _ _ (ColHeaders.dedup_wf m hm)

theorem border_of_isBorder (m : ColHeaders) (hm : m.WF) (gs : List Grouped)
    (hc : Option HeaderRange) (c : Nat) (h : isBorder gs hc c = true) :
    (prepareCols gs hc m).Border c := by
  intro b x hb
  exact ColHeaders.splitAt_uncrossed (isBorder gs hc) _ (ColHeaders.dedup_wf m hm) (b, x)
    (mem_of_get?_eq_some hb) c h

/-- A border where the attributes change or where there are none. -/
theorem border_of_change (m : ColHeaders) (hm : m.WF) (c : Nat)
    (h : m.valid c = none ∨ m.observe (c - 1) ≠ m.observe c) : m.Border c := by
  rintro b x hb ⟨h1, h2⟩
  have v1 : m.valid c = some x := hm.valid_some.mpr ⟨b, hb, by omega, h2⟩
  have v2 : m.valid (c - 1) = some x := hm.valid_some.mpr ⟨b, hb, by omega, by omega⟩
  rcases h with h | h
  · rw [v1] at h; simp at h
  · apply h
    rw [ColHeaders.observe_of_some v1, ColHeaders.observe_of_some v2]

/-- What the columns of a sheet have to satisfy for its column groups and header columns to be
written and read back: the last column of a group with more than one column differs from the one
before it, or has no attributes at all. -/
structure TSheet.ColsFit (s : TSheet) : Prop where
  wf : s.colHeader.WF
  nogap : s.colHeader.NoGap
  groups : GroupsOK s.groupCols
  cut : ∀ g ∈ s.groupCols, g.frm = g.to ∨ s.colHeader.valid g.to = none
    ∨ s.colHeader.observe (g.to - 1) ≠ s.colHeader.observe g.to
  hle : ∀ h, s.headerCols = some h → h.frm ≤ h.to

theorem TSheet.ColsFit.ok {s : TSheet} (h : s.ColsFit) :
    ColsOK { s with colHeader := prepareCols s.groupCols s.headerCols s.colHeader } := by
  have hobs := (C58_prepare_partial s.colHeader h.wf s.groupCols s.headerCols).2 h.nogap
  have hfrm : ∀ g ∈ s.groupCols, (prepareCols s.groupCols s.headerCols s.colHeader).Border g.frm := by
    intro g hg
    refine border_of_isBorder _ h.wf _ _ _ ?_
    simp only [isBorder, Bool.or_eq_true, List.any_eq_true, decide_eq_true_eq]
    exact Or.inl ⟨g, hg, Or.inl rfl⟩
  refine ⟨prepare_wf _ h.wf _ _, h.groups, hfrm, ?_, ?_, h.hle, ?_, ?_⟩
  · intro g hg
    rcases h.cut g hg with e | e | e
    · rw [← e]; exact hfrm g hg
    · refine border_of_change _ (prepare_wf _ h.wf _ _) _ (Or.inl ?_)
      have := prepare_validObs s.colHeader h.wf h.nogap s.groupCols s.headerCols g.to
      rw [e] at this
      simpa using this
    · refine border_of_change _ (prepare_wf _ h.wf _ _) _ (Or.inr ?_)
      show (prepareCols s.groupCols s.headerCols s.colHeader).observe _ ≠
        (prepareCols s.groupCols s.headerCols s.colHeader).observe _
      rw [hobs, hobs]; exact e
  · intro g hg
    refine border_of_isBorder _ h.wf _ _ _ ?_
    simp only [isBorder, Bool.or_eq_true, List.any_eq_true, decide_eq_true_eq]
    exact Or.inl ⟨g, hg, Or.inr rfl⟩
  · intro x hx
    have hx : s.headerCols = some x := hx
    refine border_of_isBorder _ h.wf _ _ _ ?_
    simp [isBorder, hx]
  · intro x hx
    have hx : s.headerCols = some x := hx
    refine border_of_isBorder _ h.wf _ _ _ ?_
    simp [isBorder, hx]

/-- The cells and repeat counts of a sheet as the API makes them: the cell store is an ordered map,
repeat counts and spans are not 0, the row repeats are those `row_repeat` reports. -/
structure TSheet.CellsOK (s : TSheet) : Prop where
  sorted : Sorted s.data
  rows : ∀ q ∈ s.data, RowOK s q.1.1
  rep : ∀ q ∈ s.data, 1 ≤ q.2.repeat
  spans : ∀ q ∈ s.data, q.2.SpansOK

/-- Columns and rows together. -/
theorem table_roundtrip (s : TSheet) (hc : s.CellsOK) (hcol : s.ColsFit) (hrow : RowsOK s)
    (h1 : ¬ s.CellClash) (h2 : ¬ s.RowClash) (o : ReadOpts) :
    ∃ evs s', writeSheet s = .ok evs ∧ readTable o evs = some s' ∧ checkTags [] evs = some []
      ∧ s'.groupRows.Perm s.groupRows ∧ s'.groupCols.Perm s.groupCols
      ∧ s'.headerRows = s.headerRows ∧ s'.headerCols = s.headerCols := by
  let t : TSheet := { s with colHeader := prepareCols s.groupCols s.headerCols s.colHeader }
  obtain ⟨e1, st1, a1, a2, a3, _, _, a6, a7⟩ := cols_roundtrip t hcol.ok o
  obtain ⟨c1, c2, c3, c4, c5, c6, c7, c8, c9⟩ :=
    readEvents_cols o e1 (writeCols_isCol t _ _ 0 e1 a1) {} st1 a2
  obtain ⟨e2, st2, b1, b2, b3, b4, b5⟩ := rows_roundtrip t hc.sorted hc.rows hc.rep hc.spans
    ⟨hrow.groups, hrow.frm, hrow.to, hrow.hle, hrow.hrows, hrow.hfrm, hrow.hto⟩ h1 h2 o st1
    c1 c2 c8 c6 c7
  have hnc := readEvents_core o e2 (writeLoop_notCol t _ _ _ _ b1) st1 st2 b2
  have htags : checkTags [] (e1 ++ e2) = some [] := by
    rw [a3]
    have := b5 []
    rw [List.append_nil] at this
    rw [this]; rfl
  refine ⟨e1 ++ e2, (if o.useRepeat then calcRepeat else calcCloned)
      { st2.sheet with colHeader := st2.sheet.colHeader.dedup }, ?_, ?_, htags, ?_⟩
  · unfold writeSheet writeTable
    have a1' : writeCols { s with colHeader := prepareCols s.groupCols s.headerCols s.colHeader }
      = .ok e1 := a1
    have b1' : writeRows { s with colHeader := prepareCols s.groupCols s.headerCols s.colHeader }
      = .ok e2 := b1
    rw [a1']
    simp only
    rw [b1']
  · unfold readTable
    rw [htags]
    simp only
    rw [readEvents_append, a2]
    simp only [Option.bind_some, b2]
    split <;> rfl
  · have hcols : st2.sheet.groupCols = st1.sheet.groupCols ∧ st2.sheet.headerCols = st1.sheet.headerCols := by
      exact ⟨hnc.2.2.1, hnc.2.2.2⟩
    have e : ∀ f : TSheet → TSheet, (f = calcRepeat ∨ f = calcCloned) → ∀ x,
        (f x).groupRows = x.groupRows ∧ (f x).groupCols = x.groupCols
        ∧ (f x).headerRows = x.headerRows ∧ (f x).headerCols = x.headerCols := by
      rintro f (rfl | rfl) x <;> exact ⟨rfl, rfl, rfl, rfl⟩
    obtain ⟨x1, x2, x3, x4⟩ := e (if o.useRepeat then calcRepeat else calcCloned)
      (by split <;> simp) { st2.sheet with colHeader := st2.sheet.colHeader.dedup }
    rw [x1, x2, x3, x4]
    refine ⟨b3, ?_, b4, ?_⟩
    · simp only [hcols.1]; exact a6
    · simp only [hcols.2]; exact a7

end Verif
