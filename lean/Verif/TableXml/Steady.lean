import Verif.Grid.Settle
import Verif.TableXml.BodyProps

/-!
# Saving a sheet that was loaded

The conditions under which what was read of a sheet can be written again, and again.
-/

set_option autoImplicit false

namespace Verif.TableXml

open Codec Xml OMap

/-! ## The specification -/

/-- What a sheet needs besides `SheetOk` and `SheetFits` to be written and read again and again: no row is repeated;
the last row of each row group and the header rows have a cell with content; no two groups begin at the same place; and
the last column of a group of columns does not have the attributes of the column in front of it, if it has any. -/
structure Steady (s : TSheet) : Prop where
  rows : ∀ q ∈ s.data, s.repeatOf q.1.1 = 1
  groupEnds : ∀ g ∈ s.groupRows, ∃ c d, s.data.get? (g.to, c) = some d ∧ d.isEmpty = false
  headers : ∀ h, s.headerRows = some h → ∀ r, h.frm ≤ r → r ≤ h.to →
    ∃ c d, s.data.get? (r, c) = some d ∧ d.isEmpty = false
  groupRows : (s.groupRows.map (·.frm)).Nodup
  groupCols : (s.groupCols.map (·.frm)).Nodup
  cut : ∀ g ∈ s.groupCols, g.frm = g.to ∨ s.colHeader.attrs g.to = {}
    ∨ s.colHeader.attrs (g.to - 1) ≠ s.colHeader.attrs g.to

/-! ## Proofs -/

theorem same_empty {defStyle : ValueType → Option String} {d v : CellData} (h : SameCell defStyle d v) :
    v.isEmpty = d.isEmpty := by
  rw [isEmpty_content, isEmpty_content, h]

theorem same_ok {defStyle : ValueType → Option String} {d v : CellData} (h : SameCell defStyle d v) (lb : Bool)
    (hd : CellOk lb d) : CellOk lb v := by
  have h1 : (v.extra.getD {}).annotation = (d.extra.getD {}).annotation := congrArg CellContent.annotation h
  have h2 : (v.extra.getD {}).drawFrames = (d.extra.getD {}).drawFrames := congrArg CellContent.drawFrames h
  have h3 : (v.extra.getD {}).span = (d.extra.getD {}).span := congrArg CellContent.span h
  have h4 : (v.extra.getD {}).matrixSpan = (d.extra.getD {}).matrixSpan := congrArg CellContent.matrixSpan h
  obtain ⟨⟨a1, a2⟩, ⟨a3, a4⟩, a5, a6⟩ := hd
  refine ⟨⟨?_, ?_⟩, ⟨?_, ?_⟩, ?_, ?_⟩
  · rw [h1]; exact a1
  · rw [h2]; exact a2
  · rw [h1]; exact a3
  · rw [h2]; exact a4
  · rw [h3]; exact a5
  · rw [h4]; exact a6

theorem groups_perm {l l' : List Grouped} (h : GroupsOK l) (hp : l'.Perm l) (hn : (l.map (·.frm)).Nodup) :
    GroupsOK l' ∧ (l'.map (·.frm)).Nodup := by
  have hn' : (l'.map (·.frm)).Nodup := (hp.map _).nodup_iff.2 hn
  refine ⟨⟨fun g hg => h.le g (hp.mem_iff.1 hg), fun g hg g' hg' => h.laminar g (hp.mem_iff.1 hg) g' (hp.mem_iff.1 hg'), ?_⟩, hn'⟩
  unfold List.Nodup at hn'
  rw [List.pairwise_map] at hn'
  exact hn'.imp fun h e => absurd e h

/-- What was read can be written and read again, and again. -/
theorem steady (fl : Floats) (defStyle : ValueType → Option String) (lb : Bool) (s s' : TSheet) (hs : SheetOk fl lb s)
    (hf : SheetFits s) (hst : Steady s) (ignoreEmpty : Bool) (evs : List TEv) (h1 : writeSheet s = .ok evs)
    (h2 : readTable (absOpts id defStyle ⟨ignoreEmpty, false⟩) evs = some s') :
    SheetOk fl lb s' ∧ SheetFits s' ∧ Steady s' ∧ SameSheet ignoreEmpty defStyle s s' := by
  obtain ⟨evs2, s2, b1, b2, same⟩ := same_sheet fl defStyle lb s hs hf ignoreEmpty
  have e1 : evs2 = evs := by
    rw [h1] at b1
    exact (Except.ok.inj b1).symm
  subst e1
  have e2 : s2 = s' := by
    rw [h2] at b2
    exact (Option.some.inj b2).symm
  subst e2
  obtain ⟨r1, r2, r3⟩ := settle_rows s s2 (absOpts id defStyle ⟨ignoreEmpty, false⟩) evs2 hs.cells hf.cols.wf hst.rows rfl h1 h2
  obtain ⟨c1, c2, c3, c4, c5⟩ := settle_cols s s2 (absOpts id defStyle ⟨ignoreEmpty, false⟩) evs2 hs.cells hf.cols.wf
    hf.cols.nogap hf.hole h1 h2
  have c6 := C19_columns_partial s s2 (absOpts id defStyle ⟨ignoreEmpty, false⟩) evs2 hs.cells hf.cols.wf
    hf.cols.nogap hf.hole h1 h2
  -- each cell was there
  have from_ : ∀ q ∈ s2.data, ∃ c0 d, ((q.1.1, c0), d) ∈ s.data ∧ c0 ≤ q.1.2 ∧ q.1.2 < c0 + d.repeat
      ∧ SameCell defStyle d q.2 := by
    intro q hq
    obtain ⟨d, ⟨r0, c0, g1, g2, g3, g4, g5⟩, hd⟩ := same.sound q.1.1 q.1.2 q.2 ((get?_eq_some_iff r1).2 hq)
    have hm := (get?_eq_some_iff hs.cells.sorted).1 g1
    have := hst.rows _ hm
    simp only at this
    have e : q.1.1 = r0 := by omega
    exact ⟨c0, d, by rw [e]; exact hm, g4, g5, hd⟩
  have shows : ∀ r c d, s.data.get? (r, c) = some d → d.isEmpty = false →
      ∃ v, s2.data.get? (r, c) = some v ∧ v.isEmpty = false := by
    intro r c d hd hne
    have hm := (get?_eq_some_iff hs.cells.sorted).1 hd
    have a := hst.rows _ hm
    have b := hs.cells.rep _ hm
    simp only at a b
    obtain ⟨v, v1, v2⟩ := same.complete r c d ⟨r, c, hd, by omega, by omega, by omega, by omega⟩ hne
    exact ⟨v, v1, by rw [same_empty v2]; exact hne⟩
  have gr := groups_perm hf.rows.groups same.groupRows hst.groupRows
  have gc := groups_perm hf.cols.groups same.groupCols hst.groupCols
  have ends : ∀ g ∈ s2.groupRows, ∃ c d, s2.data.get? (g.to, c) = some d ∧ d.isEmpty = false := by
    intro g hg
    obtain ⟨c, d, g1, g2⟩ := hst.groupEnds g (same.groupRows.mem_iff.1 hg)
    obtain ⟨v, v1, v2⟩ := shows _ _ _ g1 g2
    exact ⟨c, v, v1, v2⟩
  have heads : ∀ h, s2.headerRows = some h → ∀ r, h.frm ≤ r → r ≤ h.to →
      ∃ c d, s2.data.get? (r, c) = some d ∧ d.isEmpty = false := by
    intro h hh r ha hb
    rw [same.headerRows] at hh
    obtain ⟨c, d, g1, g2⟩ := hst.headers h hh r ha hb
    obtain ⟨v, v1, v2⟩ := shows _ _ _ g1 g2
    exact ⟨c, v, v1, v2⟩
  have cut : ∀ g ∈ s2.groupCols, g.frm = g.to ∨ s2.colHeader.attrs g.to = {}
      ∨ s2.colHeader.attrs (g.to - 1) ≠ s2.colHeader.attrs g.to := by
    intro g hg
    have hg' := same.groupCols.mem_iff.1 hg
    rw [c6 g.to (.inr (.inl ⟨g, hg', Nat.le_refl _⟩)), c6 (g.to - 1) (.inr (.inl ⟨g, hg', by omega⟩))]
    exact hst.cut g hg'
  refine ⟨⟨⟨r1, fun q hq => (r2 q hq).2.1, fun q hq => ?_, fun q hq => ?_⟩, ⟨by decide, ?_, ?_, ?_, ?_, ?_⟩, ?_⟩,
    ⟨⟨c1, c2, gc.1, ?_, ?_⟩, ⟨gr.1, ?_, ?_, ?_, ?_, ?_, ?_⟩, ?_, ?_, ?_, ?_⟩,
    ⟨fun q hq => (r2 q hq).2.2, ends, heads, gr.2, gc.2, cut⟩, same⟩
  · rw [(r2 q hq).1]; exact Nat.le_refl 1
  · intro x hx
    obtain ⟨c0, d, g1, _, _, g4⟩ := from_ q hq
    have := (same_ok g4 lb (hs.kept _ g1).1).span
    rw [hx] at this
    exact ⟨this.1, this.2.2.1⟩
  · intro q hq
    obtain ⟨c0, d, g1, _, _, g4⟩ := from_ q hq
    exact hs.small.rows ((q.1.1, c0), d) g1
  · intro q hq
    obtain ⟨c0, d, g1, _, g3, _⟩ := from_ q hq
    have := hs.small.cols _ g1
    have := (r2 q hq).1
    simp only at *
    omega
  · intro q hq
    rw [(r2 q hq).1]; exact Nat.le_refl 1
  · intro q hq
    have := r3 q hq
    omega
  · exact c5 _ hs.small.spans
  · intro q hq
    obtain ⟨c0, d, g1, _, g3, g4⟩ := from_ q hq
    refine ⟨same_ok g4 lb (hs.kept _ g1).1, ?_⟩
    have : q.2.value = d.value := congrArg CellContent.value g4
    rw [this]
    exact (hs.kept _ g1).2
  · intro g hg
    rcases cut g hg with h | h | h
    · exact .inl h
    · exact .inr (.inl (c3 _ h))
    · exact .inr (.inr fun e => h (attrs_of_observe e))
  · intro h hh
    rw [same.headerCols] at hh
    exact hf.cols.hle h hh
  · intro g _ q hq hx
    rw [(r2 q hq).2.2] at hx
    omega
  · intro g hg
    obtain ⟨c, d, g1, _⟩ := ends g hg
    have hm := (get?_eq_some_iff r1).1 g1
    refine ⟨_, hm, ?_⟩
    rw [(r2 _ hm).2.2]
  · intro h hh
    rw [same.headerRows] at hh
    exact hf.rows.hle h hh
  · intro h hh r ha hb
    obtain ⟨c, d, g1, _⟩ := heads h hh r ha hb
    have hm := (get?_eq_some_iff r1).1 g1
    refine ⟨_, hm, Nat.le_refl _, ?_⟩
    rw [(r2 _ hm).2.2]
    exact Nat.lt_succ_self _
  · intro h _ q hq hx
    rw [(r2 q hq).2.2] at hx
    omega
  · intro h _ q hq hx
    rw [(r2 q hq).2.2] at hx
    omega
  · rintro ⟨r, c, c', d, d', g1, g2, g3, g4⟩
    have := (r2 _ ((get?_eq_some_iff r1).1 g1)).1
    simp only at this
    omega
  · rintro ⟨r, r', c, c', d, d', g1, g2, g3, g4⟩
    have := (r2 _ ((get?_eq_some_iff r1).1 g1)).2.2
    simp only at this
    omega
  · intro q hq
    rw [(r2 q hq).2.2]
    omega
  · intro i k hik he hne hx
    have hk : s2.colHeader.attrs k ≠ {} := by rw [← he]; exact hne
    have a1 := c4 k hk i (by omega)
    have a2 := c4 k hk k (Nat.le_refl _)
    refine hf.hole i k hik (by rw [← a1, ← a2]; exact he) (by rw [← a1]; exact hne) fun x h1 h2 => ?_
    rw [← c4 k hk x (by omega)]
    exact hx x h1 h2

end Verif.TableXml
