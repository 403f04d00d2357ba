import Verif.TableXml.Steady

/-!
# Saving and loading a sheet many times

What is still the same after any number of times.
-/

set_option autoImplicit false

namespace Verif.TableXml

open Codec Xml OMap

/-! ## The specification -/

/-- What is still there of the sheet `s` after it was saved and loaded a number of times: the row and column groups, the
header rows and columns; the attributes of the columns up to each cell with content; no column has got attributes it
did not have; each cell shows what was shown in its place; what was shown and is not empty is there; a cell that has
nothing but a style other than that of its column is there if empty cells are not to be ignored; and the rows with
content have the same attributes. -/
structure StillSame (ignoreEmpty : Bool) (defStyle : ValueType → Option String) (s s' : TSheet) : Prop where
  groupRows : s'.groupRows.Perm s.groupRows
  groupCols : s'.groupCols.Perm s.groupCols
  headerRows : s'.headerRows = s.headerRows
  headerCols : s'.headerCols = s.headerCols
  cols : ∀ r c d k, s.data.get? (r, c) = some d → d.isEmpty = false → k ≤ c →
    s'.colHeader.attrs k = s.colHeader.attrs k
  noCols : ∀ k, s'.colHeader.attrs k = {} ∨ s'.colHeader.attrs k = s.colHeader.attrs k
  sound : ∀ r c v, s'.data.get? (r, c) = some v → ∃ d, s.Shows r c d ∧ SameCell defStyle d v
  complete : ∀ r c d, s.Shows r c d → d.isEmpty = false → ∃ v, s'.data.get? (r, c) = some v ∧ SameCell defStyle d v
  styled : ignoreEmpty = false → ∀ r c d, s.data.get? (r, c) = some d → d.repeat = 1 →
    (outStyle defStyle d).isSome → outStyle defStyle d ≠ s.colHeader.colCellstyle c →
    ∃ v, s'.data.get? (r, c) = some v ∧ SameCell defStyle d v
  rows : ∀ r c d, s.data.get? (r, c) = some d → d.isEmpty = false → s'.rowHeader.attrs r = s.rowHeader.attrs r

/-- Sheets that are still the same, one by one in their order. -/
inductive StillSheets (ignoreEmpty : Bool) (defStyle : ValueType → Option String) :
    List (Head × TSheet) → List (Head × TSheet) → Prop where
  | nil : StillSheets ignoreEmpty defStyle [] []
  | cons {h : Head} {s s' : TSheet} {l l' : List (Head × TSheet)} : StillSame ignoreEmpty defStyle s s' →
    StillSheets ignoreEmpty defStyle l l' → StillSheets ignoreEmpty defStyle ((h, s) :: l) ((h, s') :: l')

/-- Sheets that can be saved and loaded many times. -/
def AllSteady (fl : Floats) (lb : Bool) (l : List (Head × TSheet)) : Prop :=
  ∀ p ∈ l, HeadOk lb p.1 ∧ SheetOk fl lb p.2 ∧ SheetFits p.2 ∧ Steady p.2

/-! ## Proofs -/

theorem same_style {defStyle : ValueType → Option String} {d v : CellData} (h : SameCell defStyle d v) :
    outStyle defStyle v = outStyle defStyle d := by
  have h1 : v.style = outStyle defStyle d := congrArg CellContent.style h
  have h2 : v.value = d.value := congrArg CellContent.value h
  cases hd : d.style with
  | some x =>
    have e : outStyle defStyle d = some x := by unfold outStyle; rw [hd]
    rw [e] at h1 ⊢
    unfold outStyle
    rw [h1]
  | none =>
    have e : outStyle defStyle d = defStyle (Value.valueType d.value) := by unfold outStyle; rw [hd]
    rw [e] at h1 ⊢
    unfold outStyle
    rw [h1, h2]
    cases defStyle (Value.valueType d.value) <;> rfl

theorem same_trans {defStyle : ValueType → Option String} {d v w : CellData} (h : SameCell defStyle d v)
    (h' : SameCell defStyle v w) : SameCell defStyle d w := by
  have hs := same_style h
  unfold SameCell at *
  rw [h', hs, h]

theorem same_repeat {defStyle : ValueType → Option String} {d v : CellData} (h : SameCell defStyle d v) : v.repeat = 1 :=
  congrArg CellContent.repeat h

theorem styleOf (m : ColHeaders) (c : Nat) : m.colCellstyle c = (m.attrs c).cellstyle := rfl

theorem still_one (fl : Floats) (defStyle : ValueType → Option String) (lb : Bool) (s s' : TSheet) (hs : SheetOk fl lb s)
    (hf : SheetFits s) (hst : Steady s) (ignoreEmpty : Bool) (evs : List TEv) (h1 : writeSheet s = .ok evs)
    (h2 : readTable (absOpts id defStyle ⟨ignoreEmpty, false⟩) evs = some s') :
    StillSame ignoreEmpty defStyle s s' := by
  obtain ⟨_, _, _, same⟩ := steady fl defStyle lb s s' hs hf hst ignoreEmpty evs h1 h2
  obtain ⟨_, _, _, c4, _⟩ := settle_cols s s' (absOpts id defStyle ⟨ignoreEmpty, false⟩) evs hs.cells hf.cols.wf
    hf.cols.nogap hf.hole h1 h2
  refine ⟨same.groupRows, same.groupCols, same.headerRows, same.headerCols, ?_, ?_, same.sound, same.complete, same.styled, ?_⟩
  · intro r c d k hd _ hk
    exact same.cols r c k (by simp [Cells.isEmpty, OMap.contains, hd]) hk
  · intro k
    by_cases h : s'.colHeader.attrs k = {}
    · exact .inl h
    · exact .inr (c4 k h k (Nat.le_refl _))
  · intro r c d hd he
    have := hst.rows _ ((get?_eq_some_iff hs.cells.sorted).1 hd)
    simp only at this
    exact same.rows r r ⟨⟨c, d, hd⟩, Nat.le_refl _, by omega⟩ ⟨c, d, hd, he⟩

theorem still_step (fl : Floats) (defStyle : ValueType → Option String) (lb : Bool) (ignoreEmpty : Bool)
    (s s1 s' : TSheet) (hs : SheetOk fl lb s) (hst : Steady s) (h : StillSame ignoreEmpty defStyle s s1)
    (hs1 : SheetOk fl lb s1) (hf1 : SheetFits s1) (hst1 : Steady s1) (evs : List TEv) (h1 : writeSheet s1 = .ok evs)
    (h2 : readTable (absOpts id defStyle ⟨ignoreEmpty, false⟩) evs = some s') :
    StillSame ignoreEmpty defStyle s s' := by
  have next := still_one fl defStyle lb s1 s' hs1 hf1 hst1 ignoreEmpty evs h1 h2
  have shown : ∀ r c d, s1.Shows r c d → s1.data.get? (r, c) = some d := by
    rintro r c d ⟨r0, c0, g1, g2, g3, g4, g5⟩
    have a := hst1.rows _ ((get?_eq_some_iff hs1.cells.sorted).1 g1)
    obtain ⟨d0, _, e0⟩ := h.sound _ _ _ g1
    have b := same_repeat e0
    simp only at a
    have e1 : r = r0 := by omega
    have e2 : c = c0 := by omega
    subst e1 e2
    exact g1
  have shows1 : ∀ r c d, s1.data.get? (r, c) = some d → s1.Shows r c d := by
    intro r c d g1
    have a := hst1.rows _ ((get?_eq_some_iff hs1.cells.sorted).1 g1)
    obtain ⟨d0, _, e0⟩ := h.sound _ _ _ g1
    have b := same_repeat e0
    simp only at a
    exact ⟨r, c, g1, Nat.le_refl _, by omega, Nat.le_refl _, by omega⟩
  have there : ∀ r c d, s.data.get? (r, c) = some d → d.isEmpty = false →
      ∃ v, s1.data.get? (r, c) = some v ∧ v.isEmpty = false := by
    intro r c d hd he
    have hm := (get?_eq_some_iff hs.cells.sorted).1 hd
    have a := hst.rows _ hm
    have b := hs.cells.rep _ hm
    simp only at a b
    obtain ⟨v, v1, v2⟩ := h.complete r c d ⟨r, c, hd, Nat.le_refl _, by omega, Nat.le_refl _, by omega⟩ he
    exact ⟨v, v1, by rw [same_empty v2]; exact he⟩
  refine ⟨next.groupRows.trans h.groupRows, next.groupCols.trans h.groupCols, next.headerRows.trans h.headerRows,
    next.headerCols.trans h.headerCols, ?_, ?_, ?_, ?_, ?_, ?_⟩
  · intro r c d k hd he hk
    obtain ⟨v, v1, v2⟩ := there r c d hd he
    rw [next.cols r c v k v1 v2 hk, h.cols r c d k hd he hk]
  · intro k
    rcases next.noCols k with e | e
    · exact .inl e
    · rw [e]; exact h.noCols k
  · intro r c v hv
    obtain ⟨d1, g1, g2⟩ := next.sound r c v hv
    obtain ⟨d, g3, g4⟩ := h.sound r c d1 (shown r c d1 g1)
    exact ⟨d, g3, same_trans g4 g2⟩
  · intro r c d hd he
    obtain ⟨v, v1, v2⟩ := h.complete r c d hd he
    obtain ⟨w, w1, w2⟩ := next.complete r c v (shows1 r c v v1) (by rw [same_empty v2]; exact he)
    exact ⟨w, w1, same_trans v2 w2⟩
  · intro hie r c d hd hr hsome hne
    obtain ⟨v, v1, v2⟩ := h.styled hie r c d hd hr hsome hne
    have ho := same_style v2
    obtain ⟨w, w1, w2⟩ := next.styled hie r c v v1 (same_repeat v2) (by rw [ho]; exact hsome) (by
      rw [ho, styleOf]
      rcases h.noCols c with e | e
      · rw [e]
        intro hx
        rw [hx] at hsome
        cases hsome
      · rw [e]
        exact hne)
    exact ⟨w, w1, same_trans v2 w2⟩
  · intro r c d hd he
    obtain ⟨v, v1, v2⟩ := there r c d hd he
    rw [next.rows r c v v1 v2, h.rows r c d hd he]

/-- The sheets of a workbook, one time more. -/
theorem still_sheets (fl : Floats) (defStyle : ValueType → Option String) (lb ignoreEmpty : Bool)
    {l l1 : List (Head × TSheet)} (h : StillSheets ignoreEmpty defStyle l l1) :
    ∀ {l'}, AllSteady fl lb l → AllSteady fl lb l1 → Rounds (absOpts id defStyle ⟨ignoreEmpty, false⟩) l1 l' →
      StillSheets ignoreEmpty defStyle l l' := by
  induction h with
  | nil => intro l' _ _ hr; cases hr; exact .nil
  | cons h _ ih =>
    intro l' hl hl1 hr
    cases hr with
    | cons h1 h2 hr =>
      obtain ⟨_, a1, a2, a3⟩ := hl _ List.mem_cons_self
      obtain ⟨_, b1, b2, b3⟩ := hl1 _ List.mem_cons_self
      exact .cons (still_step fl defStyle lb ignoreEmpty _ _ _ a1 a3 h b1 b2 b3 _ h1 h2)
        (ih (fun p hp => hl p (List.mem_cons_of_mem _ hp)) (fun p hp => hl1 p (List.mem_cons_of_mem _ hp)) hr)

theorem still_first (fl : Floats) (defStyle : ValueType → Option String) (lb ignoreEmpty : Bool)
    {l l' : List (Head × TSheet)} (hr : Rounds (absOpts id defStyle ⟨ignoreEmpty, false⟩) l l') :
    AllSteady fl lb l → StillSheets ignoreEmpty defStyle l l' ∧ AllSteady fl lb l' := by
  induction hr with
  | nil => intro _; exact ⟨.nil, by intro p hp; cases hp⟩
  | cons h1 h2 _ ih =>
    intro hl
    obtain ⟨a0, a1, a2, a3⟩ := hl _ List.mem_cons_self
    obtain ⟨i1, i2⟩ := ih fun p hp => hl p (List.mem_cons_of_mem _ hp)
    obtain ⟨b1, b2, b3, _⟩ := steady fl defStyle lb _ _ a1 a2 a3 ignoreEmpty _ h1 h2
    refine ⟨.cons (still_one fl defStyle lb _ _ a1 a2 a3 ignoreEmpty _ h1 h2) i1, ?_⟩
    intro p hp
    rcases List.mem_cons.1 hp with rfl | hp
    · exact ⟨a0, b1, b2, b3⟩
    · exact i2 p hp

end Verif.TableXml
