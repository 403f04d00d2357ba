import Verif.Whole.Edit
import Verif.Whole.AgainExample

/-!
# Working with a workbook: cases

A history that meets the hypotheses of C96, and what goes wrong without them.
-/

set_option autoImplicit false

namespace Verif.Whole

open Xml Codec Xml.Spec OMap
open Spec
open TableXml (Plain Ready Sound Agrees)

/-! ## A history -/

/-- The sheet `lastingSheet`, without the repeat of a cell. -/
def plainSheet : TSheet :=
  { (sheetOf [put 1 0, put 2 0, put 4 1, .setRowSpan 4 1 2, .setColSpan 4 1 3, put 5 0, put 5 2]
      [.setStyle 4 "r"]
      [.setStyle 0 "a", .setStyle 1 "b", .setStyle 2 "a"]).getD {} with
    groupRows := [⟨1, 5, true⟩, ⟨3, 4, false⟩, ⟨5, 5, true⟩]
    groupCols := [⟨0, 1, false⟩, ⟨1, 1, true⟩]
    headerRows := some ⟨1, 2⟩
    headerCols := some ⟨0, 1⟩ }

theorem plainSheet_cells : plainSheet.CellsOK :=
  ⟨by unfold Sorted; decide, by unfold RowOK; decide, by decide,
   by unfold CellData.SpansOK; decide⟩

theorem plainSheet_cellClash : ¬ plainSheet.CellClash := by
  rintro ⟨r, c, c', d, d', h1, h2, h3, h4⟩
  have m1 := get?_mem_keys _ plainSheet_cells.sorted h1
  have m2 := get?_mem_keys _ plainSheet_cells.sorted h2
  have : ∀ p ∈ plainSheet.data, ∀ q ∈ plainSheet.data, p.1.1 = q.1.1 → p.1.2 < q.1.2 →
      ¬ q.1.2 < p.1.2 + p.2.repeat := by decide
  exact this _ m1 _ m2 rfl h3 h4

theorem plainSheet_rowClash : ¬ plainSheet.RowClash := by
  rintro ⟨r, r', c, c', d, d', h1, h2, h3, h4⟩
  have m1 := get?_mem_keys _ plainSheet_cells.sorted h1
  have m2 := get?_mem_keys _ plainSheet_cells.sorted h2
  have : ∀ p ∈ plainSheet.data, ∀ q ∈ plainSheet.data, p.1.1 < q.1.1 →
      ¬ q.1.1 < p.1.1 + plainSheet.repeatOf p.1.1 := by decide
  exact this _ m1 _ m2 h3 h4

theorem plainSheet_rows : RowsOK plainSheet := by
  have hr : plainSheet.headerRows = some ⟨1, 2⟩ := rfl
  refine ⟨⟨by decide, ?_, by decide⟩, by decide, by decide, ?_, ?_, ?_, ?_⟩
  · have h : ∀ g ∈ plainSheet.groupRows, ∀ g' ∈ plainSheet.groupRows, g.frm ≤ g.to ∧ g'.frm ≤ g'.to ∧
        ((g.frm ≤ g'.frm ∧ g'.to ≤ g.to) ∨ (g'.frm ≤ g.frm ∧ g.to ≤ g'.to) ∨ g.to < g'.frm ∨ g'.to < g.frm) := by
      decide
    intro g hg g' hg'
    exact crossing_iff g g' (h g hg g' hg').1 (h g hg g' hg').2.1 (h g hg g' hg').2.2
  · intro h e
    rw [hr, Option.some.injEq] at e
    rw [← e]; decide
  · intro h e r h1 h2
    rw [hr, Option.some.injEq] at e
    subst e
    simp only at h1 h2
    have : ∀ r ∈ [1, 2], ∃ q ∈ plainSheet.data, q.1.1 ≤ r ∧ r < q.1.1 + plainSheet.repeatOf q.1.1 := by decide
    exact this r (by simp; omega)
  · intro h e
    rw [hr, Option.some.injEq] at e
    rw [← e]; decide
  · intro h e
    rw [hr, Option.some.injEq] at e
    rw [← e]; decide

theorem plainSheet_fits : TableXml.SheetFits plainSheet :=
  ⟨{ fullSheet_cols with }, plainSheet_rows, plainSheet_cellClash, plainSheet_rowClash, by decide, fullSheet_noHole⟩

theorem plainSheet_ok (fl : Floats) (lb : Bool) : TableXml.SheetOk fl lb plainSheet where
  cells := plainSheet_cells
  small := ⟨by decide, by decide, by decide, by decide, by decide, by decide⟩
  kept := by
    have h0 : ∀ q ∈ plainSheet.data, (q.2.extra.getD {}).annotation = none ∧ (q.2.extra.getD {}).drawFrames = []
        ∧ SpanOk (q.2.extra.getD {}).span ∧ SpanOk (q.2.extra.getD {}).matrixSpan := by
      unfold SpanOk
      decide
    have h1 : ∀ q ∈ plainSheet.data, CellOk lb q.2 := by
      intro q hq
      obtain ⟨ha, hd, hs, hm⟩ := h0 q hq
      exact cellOk_plain lb q.2 ha hd hs hm
    have h2 : ∀ q ∈ plainSheet.data, q.2.value = .boolean true := by decide
    intro q hq
    refine ⟨h1 q hq, ?_⟩
    rw [h2 q hq]
    trivial

theorem plainSheet_steady : TableXml.Steady plainSheet where
  rows := by decide
  groupEnds := by
    have : ∀ g ∈ plainSheet.groupRows, ∃ q ∈ plainSheet.data, q.1.1 = g.to ∧ q.2.isEmpty = false := by decide
    intro g hg
    obtain ⟨q, hq, h1, h2⟩ := this g hg
    exact ⟨q.1.2, q.2, (get?_eq_some_iff plainSheet_cells.sorted).2 (by rw [← h1]; exact hq), h2⟩
  headers := by
    intro h e r h1 h2
    have hr : plainSheet.headerRows = some ⟨1, 2⟩ := rfl
    rw [hr, Option.some.injEq] at e
    subst e
    simp only at h1 h2
    have : ∀ r ∈ [1, 2], ∃ q ∈ plainSheet.data, q.1.1 = r ∧ q.2.isEmpty = false := by decide
    obtain ⟨q, hq, h1, h2⟩ := this r (by simp; omega)
    exact ⟨q.1.2, q.2, (get?_eq_some_iff plainSheet_cells.sorted).2 (by rw [← h1]; exact hq), h2⟩
  groupRows := by decide
  groupCols := by decide
  cut := by decide

/-- A workbook with something in every part but the validations, without repeats. -/
def plainBook : Source :=
  { lasting with sheets := [(TableXml.fullHead, plainSheet), ({ name := "b".toList }, plainSheet)] }

theorem plainBook_lasts : Lasting Meta.asBits false plainBook :=
  { lasting_meets with
    sheets := by
      intro p hp
      simp only [plainBook, List.mem_cons, List.not_mem_nil, or_false] at hp
      rcases hp with rfl | rfl
      · exact ⟨TableXml.fullHead_ok, plainSheet_ok _ false, plainSheet_fits, plainSheet_steady⟩
      · exact ⟨⟨(by intro l hl; cases hl), .inl rfl, (by intro t ht; cases ht)⟩, plainSheet_ok _ false,
          plainSheet_fits, plainSheet_steady⟩
    some := by simp [plainBook] }

theorem plainSheet_plain : Plain plainSheet := ⟨by decide, by decide⟩

theorem plainBook_plain : ∀ p ∈ plainBook.sheets, Plain p.2 := by
  intro p hp
  simp only [plainBook, List.mem_cons, List.not_mem_nil, or_false] at hp
  rcases hp with rfl | rfl <;> exact plainSheet_plain

/-- A value is set, the workbook is saved and loaded, a formula is set, and it is saved and loaded again. -/
def history : List Step :=
  [.change 0 (.setValue 4 2 (.boolean false)), .reload, .change 0 (.setFormula 5 0 "of:=1+1".toList), .reload]

/-- **The hypotheses of C96 are met** by `plainBook` and this history; in the end the value and the formula are there, and
so are the value the cell (5, 0) had before and the merged cells at (4, 1). -/
theorem C96_meets : ∃ s', Works Meta.asBits false (writePackage Meta.asBits fun _ => none)
      (readPackage ⟨Meta.asBits, Refs.checked, {}⟩) plainBook history s'
    ∧ ∃ p, s'.sheets[0]? = some p ∧ (observe p.2.data 4 2).value = .boolean false
      ∧ (observe p.2.data 5 0).formula = some "of:=1+1".toList ∧ (observe p.2.data 5 0).value = .boolean true
      ∧ (observe p.2.data 4 1).rowSpan = 2 ∧ (observe p.2.data 4 1).colSpan = 3 := by
  have hsv := package_saves (e := ⟨Meta.asBits, Refs.checked, {}⟩) rfl rfl (fun _ => none)
  have some0 : ∀ (l : List (TableXml.Head × TSheet)), l.map (·.1) = plainBook.sheets.map (·.1) → ∃ p, l[0]? = some p := by
    intro l hl
    cases l with
    | nil => cases hl
    | cons p l => exact ⟨p, rfl⟩
  -- the value is set
  have ex1 : ∃ m, (CellOp.setValue 4 2 (.boolean false)).step plainSheet.data = some m := ⟨_, rfl⟩
  obtain ⟨m, hm⟩ := ex1
  have hs1 : Sound Meta.asBits false plainSheet (.setValue 4 2 (.boolean false)) :=
    ⟨trivial, by decide, by decide, (by unfold Ready; decide), by decide⟩
  have w1 := Works.change (i := 0) (Works.start (fl := Meta.asBits) (lb := false)
    (write := writePackage Meta.asBits fun _ => none) (read := readPackage ⟨Meta.asBits, Refs.checked, {}⟩)
    (s := plainBook)) (h := TableXml.fullHead) (b := plainSheet) rfl hs1 hm
  obtain ⟨l1, p1⟩ := lasting_change plainBook_lasts plainBook_plain (i := 0) rfl hs1 hm
  -- saved and loaded
  obtain ⟨z1, t1, a1, a2, a3, _⟩ := hsv _ l1
  have w2 := Works.reload w1 a1 a2 (reopen_spec t1)
  obtain ⟨l2, p2, k2⟩ := works hsv w2 plainBook_lasts plainBook_plain
  obtain ⟨q, hq⟩ := some0 _ k2.heads
  -- the formula is set
  have hm5 : m.get? (5, 0) = some ((plainSheet.data.get? (5, 0)).getD {}) := by
    have : ((CellOp.setValue 4 2 (.boolean false)).step plainSheet.data).bind (·.get? (5, 0))
      = some ((plainSheet.data.get? (5, 0)).getD {}) := by decide
    rw [hm] at this
    exact this
  have hready : Ready q.2 5 := C96_next_package_partial (e := ⟨Meta.asBits, Refs.checked, {}⟩) rfl rfl (fun _ => none) _ _ l1
    z1 t1 a1 a2 (reopen_spec t1) 0 (TableXml.fullHead, { plainSheet with data := m }) q rfl hq 5
    (.inl ⟨0, _, hm5, by decide⟩)
  obtain ⟨m2, hm2⟩ : ∃ m2, (CellOp.setFormula 5 0 "of:=1+1".toList).step q.2.data = some m2 := ⟨_, rfl⟩
  have hs2 : Sound Meta.asBits false q.2 (.setFormula 5 0 "of:=1+1".toList) := by
    refine ⟨trivial, by decide, by decide, hready, ?_⟩
    intro hb
    exfalso
    simp [TableXml.Blank, Obs.after] at hb
  have w3 := Works.change (i := 0) w2 (h := q.1) (b := q.2) hq hs2 hm2
  obtain ⟨l3, _, _⟩ := works hsv w3 plainBook_lasts plainBook_plain
  obtain ⟨z2, t2, b1, b2, _⟩ := hsv _ l3
  have w4 := Works.reload w3 b1 b2 (reopen_spec t2)
  obtain ⟨_, _, k4⟩ := works hsv w4 plainBook_lasts plainBook_plain
  refine ⟨reopen t2, w4, ?_⟩
  obtain ⟨q2, hq2⟩ := some0 _ k4.heads
  refine ⟨q2, hq2, ?_⟩
  have key := k4.cells 0 (TableXml.fullHead, plainSheet) q2 rfl hq2
  have e1 := (key 4 2).1
  have e2 := (key 5 0).1
  have e3 := (key 4 1).1
  have v1 := congrArg Obs.value e1
  have f2 := congrArg Obs.formula e2
  have v2 := congrArg Obs.value e2
  have r3 := congrArg Obs.rowSpan e3
  have c3 := congrArg Obs.colSpan e3
  exact ⟨v1.trans (by decide), f2.trans (by decide), v2.trans (by decide), r3.trans (by decide), c3.trans (by decide)⟩

/-! ## What goes wrong -/

/-- **C96** is false of the code for rows that are not ready: a sheet has cells in the rows 0 and 2, and row 0 has a
style.  It is saved and loaded, a cell is set in row 1, and it is saved and loaded again.  Then the cell of row 2 is in
row 3. -/
theorem C96_shift_counterexample :
    ((sheetOf [put 0 0, put 2 0] [.setStyle 0 "a"] []).bind fun s =>
      (rewrite s).bind fun s1 => ((put 1 0).step s1.data).bind fun m => (rewrite { s1 with data := m }).map fun s2 =>
        (s1.data.map (·.1), m.map (·.1), s2.data.map (·.1)))
      = some ([(0, 0), (2, 0)], [(0, 0), (1, 0), (2, 0)], [(0, 0), (1, 0), (3, 0)]) := by
  decide +kernel

/-- The sheet of the counterexample meets the hypotheses of `C96_unready`, and its row 1 is not ready. -/
theorem C96_unready_meets :
    ((sheetOf [put 0 0, put 2 0] [.setStyle 0 "a"] []).bind fun s =>
      (rewrite s).map fun s1 => (s1.rowHeader.get? 1).map (·.repeat)) = some (some 0) := by
  decide +kernel

end Verif.Whole
