import Verif.Whole.Again

/-!
# Saving and loading a workbook many times: cases

A workbook that meets the hypotheses of C95, and what goes wrong without them.
-/

set_option autoImplicit false

namespace Verif.Whole

open Xml Codec Xml.Spec OMap
open Verif.Book (Stores HMap)
open Spec

/-! ## A workbook that lasts -/

/-- Cells in rows 1, 2, 4 and 5, one of them repeated, one merged over 2 by 3 cells; nested row groups, one of them
hidden, header rows, styled columns in a group, header columns. -/
def lastingSheet : TSheet :=
  { (sheetOf [put 1 0, put 2 0, put 4 1, .setRepeat 4 1 3, .setRowSpan 4 1 2, .setColSpan 4 1 3, put 5 0, put 5 2]
      [.setStyle 4 "r"]
      [.setStyle 0 "a", .setStyle 1 "b", .setStyle 2 "a"]).getD {} with
    groupRows := [⟨1, 5, true⟩, ⟨3, 4, false⟩, ⟨5, 5, true⟩]
    groupCols := [⟨0, 1, false⟩, ⟨1, 1, true⟩]
    headerRows := some ⟨1, 2⟩
    headerCols := some ⟨0, 1⟩ }

theorem lastingSheet_cells : lastingSheet.CellsOK :=
  ⟨by unfold Sorted; decide, by unfold RowOK; decide, by decide,
   by unfold CellData.SpansOK; decide⟩

theorem lastingSheet_cellClash : ¬ lastingSheet.CellClash := by
  rintro ⟨r, c, c', d, d', h1, h2, h3, h4⟩
  have m1 := get?_mem_keys _ lastingSheet_cells.sorted h1
  have m2 := get?_mem_keys _ lastingSheet_cells.sorted h2
  have : ∀ p ∈ lastingSheet.data, ∀ q ∈ lastingSheet.data, p.1.1 = q.1.1 → p.1.2 < q.1.2 →
      ¬ q.1.2 < p.1.2 + p.2.repeat := by decide
  exact this _ m1 _ m2 rfl h3 h4

theorem lastingSheet_rowClash : ¬ lastingSheet.RowClash := by
  rintro ⟨r, r', c, c', d, d', h1, h2, h3, h4⟩
  have m1 := get?_mem_keys _ lastingSheet_cells.sorted h1
  have m2 := get?_mem_keys _ lastingSheet_cells.sorted h2
  have : ∀ p ∈ lastingSheet.data, ∀ q ∈ lastingSheet.data, p.1.1 < q.1.1 →
      ¬ q.1.1 < p.1.1 + lastingSheet.repeatOf p.1.1 := by decide
  exact this _ m1 _ m2 h3 h4

theorem lastingSheet_rows : RowsOK lastingSheet := by
  have hr : lastingSheet.headerRows = some ⟨1, 2⟩ := rfl
  refine ⟨⟨by decide, ?_, by decide⟩, by decide, by decide, ?_, ?_, ?_, ?_⟩
  · have h : ∀ g ∈ lastingSheet.groupRows, ∀ g' ∈ lastingSheet.groupRows, g.frm ≤ g.to ∧ g'.frm ≤ g'.to ∧
        ((g.frm ≤ g'.frm ∧ g'.to ≤ g.to) ∨ (g'.frm ≤ g.frm ∧ g.to ≤ g'.to) ∨ g.to < g'.frm ∨ g'.to < g.frm) := by
      decide
    intro g hg g' hg'
    exact crossing_iff g g' (h g hg g' hg').1 (h g hg g' hg').2.1 (h g hg g' hg').2.2
  · intro h e
    rw [hr, Option.some.injEq] at e
    rw [← e]; decide
  · intro h e r h1 h2
    rw [hr, Option.some.injEq] at e
    subst e
    simp only at h1 h2
    have : ∀ r ∈ [1, 2], ∃ q ∈ lastingSheet.data, q.1.1 ≤ r ∧ r < q.1.1 + lastingSheet.repeatOf q.1.1 := by decide
    exact this r (by simp; omega)
  · intro h e
    rw [hr, Option.some.injEq] at e
    rw [← e]; decide
  · intro h e
    rw [hr, Option.some.injEq] at e
    rw [← e]; decide

theorem lastingSheet_fits : TableXml.SheetFits lastingSheet :=
  ⟨{ fullSheet_cols with }, lastingSheet_rows, lastingSheet_cellClash, lastingSheet_rowClash, by decide, fullSheet_noHole⟩

theorem lastingSheet_ok (fl : Floats) (lb : Bool) : TableXml.SheetOk fl lb lastingSheet where
  cells := lastingSheet_cells
  small := ⟨by decide, by decide, by decide, by decide, by decide, by decide⟩
  kept := by
    have h0 : ∀ q ∈ lastingSheet.data, (q.2.extra.getD {}).annotation = none ∧ (q.2.extra.getD {}).drawFrames = []
        ∧ SpanOk (q.2.extra.getD {}).span ∧ SpanOk (q.2.extra.getD {}).matrixSpan := by
      unfold SpanOk
      decide
    have h1 : ∀ q ∈ lastingSheet.data, CellOk lb q.2 := by
      intro q hq
      obtain ⟨ha, hd, hs, hm⟩ := h0 q hq
      exact cellOk_plain lb q.2 ha hd hs hm
    have h2 : ∀ q ∈ lastingSheet.data, q.2.value = .boolean true := by decide
    intro q hq
    refine ⟨h1 q hq, ?_⟩
    rw [h2 q hq]
    trivial

theorem lastingSheet_steady : TableXml.Steady lastingSheet where
  rows := by decide
  groupEnds := by
    have : ∀ g ∈ lastingSheet.groupRows, ∃ q ∈ lastingSheet.data, q.1.1 = g.to ∧ q.2.isEmpty = false := by decide
    intro g hg
    obtain ⟨q, hq, h1, h2⟩ := this g hg
    exact ⟨q.1.2, q.2, (get?_eq_some_iff lastingSheet_cells.sorted).2 (by rw [← h1]; exact hq), h2⟩
  headers := by
    intro h e r h1 h2
    have hr : lastingSheet.headerRows = some ⟨1, 2⟩ := rfl
    rw [hr, Option.some.injEq] at e
    subst e
    simp only at h1 h2
    have : ∀ r ∈ [1, 2], ∃ q ∈ lastingSheet.data, q.1.1 = r ∧ q.2.isEmpty = false := by decide
    obtain ⟨q, hq, h1, h2⟩ := this r (by simp; omega)
    exact ⟨q.1.2, q.2, (get?_eq_some_iff lastingSheet_cells.sorted).2 (by rw [← h1]; exact hq), h2⟩
  groupRows := by decide
  groupCols := by decide
  cut := by decide

/-- A workbook with something in every part but the validations. -/
def lasting : Source :=
  { demo with validations := [], sheets := [(TableXml.fullHead, lastingSheet), ({ name := "b".toList }, lastingSheet)] }

theorem lasting_meets : Lasting Meta.asBits false lasting :=
  { demo_good.toGoodParts with
    body := ⟨.inl rfl, demo_good.body.extra, (by intro v hv; cases hv), by simp [lasting], by decide⟩
    noRules := rfl
    stays := by
      intro q hq i
      refine ⟨demo_good.masterKeeps q hq i, ?_⟩
      have hq' : q ∈ demo.masters := hq
      simp only [demo, List.mem_cons, List.not_mem_nil, or_false] at hq'
      rcases hq' with rfl | rfl
      · cases i with
        | footerLeft =>
          intro x hx
          have hx' : x ∈ Master.demoFooter.content := hx
          simp only [Master.demoFooter, List.mem_cons, List.not_mem_nil, or_false] at hx'
          rcases hx' with rfl | rfl
          · exact .inr (by decide)
          · exact .inl rfl
        | header => intro x hx; cases hx
        | headerFirst => intro x hx; cases hx
        | headerLeft => intro x hx; cases hx
        | footer => intro x hx; cases hx
        | footerFirst => intro x hx; cases hx
      · intro x hx; cases hx
    sheets := by
      intro p hp
      simp only [lasting, List.mem_cons, List.not_mem_nil, or_false] at hp
      rcases hp with rfl | rfl
      · exact ⟨TableXml.fullHead_ok, lastingSheet_ok _ false, lastingSheet_fits, lastingSheet_steady⟩
      · exact ⟨⟨(by intro l hl; cases hl), .inl rfl, (by intro t ht; cases ht)⟩, lastingSheet_ok _ false,
          lastingSheet_fits, lastingSheet_steady⟩
    some := by simp [lasting] }

/-- **The hypotheses of C95 are met** by a workbook with something in every part but the validations: it can be saved
and loaded any number of times, and always has its cell (4, 3), which is shown because the cell (4, 1) is repeated. -/
theorem C95_meets (n : Nat) : ∃ t, Cycles (writePackage Meta.asBits fun _ => none)
      (readPackage ⟨Meta.asBits, Refs.checked, {}⟩) (n + 1) lasting t
    ∧ t.metadata.title = "a < b & \"c\"".toList
    ∧ ∃ s s', t.body.sheets = [(TableXml.fullHead, s), ({ name := "b".toList }, s')]
      ∧ ∃ v, s.data.get? (4, 3) = some v ∧ v.value = .boolean true := by
  obtain ⟨h1, h2⟩ := C95_package_partial (e := ⟨Meta.asBits, Refs.checked, {}⟩) rfl rfl (fun _ => none) lasting
    lasting_meets
  obtain ⟨t, ht⟩ := h1 n
  obtain ⟨a, _⟩ := h2 _ t ht
  refine ⟨t, ht, a.metadata.title, ?_⟩
  have hs := a.sheets
  simp only [lasting] at hs
  revert hs
  generalize t.body.sheets = l
  intro hs
  cases hs with
  | cons g1 hs =>
    cases hs with
    | cons g2 hs =>
      cases hs
      refine ⟨_, _, rfl, ?_⟩
      obtain ⟨v, v1, v2⟩ := g1.complete 4 3 ((lastingSheet.data.get? (4, 1)).getD {}) ⟨4, 1, by decide, by decide, by decide, by decide, by decide⟩ (by decide)
      exact ⟨v, v1, (congrArg CellContent.value v2).trans (by decide)⟩

/-! ## What does not last -/

/-- **C95** is false of the code for validations: with any validation, each time there is one more that was not there
before.  (All validations that were there are still there, `C78_package_partial`.) -/
theorem C95_rules_counterexample {e : Env} (hm : e.ints.max = Refs.Spec.maxU32) (ho : e.opts.useRepeat = false)
    (defStyle : ValueType → Option String) (s : Source) (h : Good e.fl false s) (hv : s.validations ≠ []) :
    ∃ z t, writePackage e.fl defStyle s = some z ∧ readPackage e z = .ok t
      ∧ ∃ n v, n ∉ s.validations.map (·.name) ∧ t.body.valid.get? .validation n = some v := by
  obtain ⟨z, t, h1, h2, _, h4, _⟩ := package_exact hm ho defStyle s h
  refine ⟨z, t, h1, h2, ?_⟩
  have key : ∀ (vs : List Valid.Validation) (v : Valid.Validation) (b b' : Stores Valid.Body), Valid.stored (vs ++ [v]) b = .ok b' →
      ∃ b1 b2, Valid.stored vs b = .ok b1 ∧ Valid.addValid b1 (Valid.named v) = .ok b2
        ∧ Valid.addValid b2 (Valid.anonymous v) = .ok b' := by
    intro vs v
    induction vs with
    | nil =>
      intro b b' hb
      rw [List.nil_append, Valid.stored] at hb
      cases e1 : Valid.addValid b (Valid.named v) with
      | error f => rw [e1] at hb; cases hb
      | ok b1 =>
        rw [e1] at hb
        simp only at hb
        cases e2 : Valid.addValid b1 (Valid.anonymous v) with
        | error f => rw [e2] at hb; cases hb
        | ok b2 =>
          rw [e2] at hb
          cases hb
          exact ⟨b, b1, rfl, e1, e2⟩
    | cons w vs ih =>
      intro b b' hb
      rw [List.cons_append, Valid.stored] at hb
      cases e1 : Valid.addValid b (Valid.named w) with
      | error f => rw [e1] at hb; cases hb
      | ok b1 =>
        rw [e1] at hb
        simp only at hb
        cases e2 : Valid.addValid b1 (Valid.anonymous w) with
        | error f => rw [e2] at hb; cases hb
        | ok b2 =>
          rw [e2] at hb
          obtain ⟨c1, c2, i1, i2⟩ := ih _ _ hb
          refine ⟨c1, c2, ?_, i2⟩
          rw [Valid.stored, e1]
          simp only
          rw [e2]
          exact i1
  obtain ⟨vs, v, e0⟩ : ∃ vs v, s.validations = vs ++ [v] :=
    ⟨s.validations.dropLast, s.validations.getLast hv, (List.dropLast_concat_getLast hv).symm⟩
  have h5 := h4.valid
  have hne : ∀ w ∈ vs, w.name ≠ [] := fun w hw => (h.body.valid w (by rw [e0]; exact List.mem_append_left _ hw)).name
  have hnv : v.name ≠ [] := (h.body.valid v (by rw [e0]; simp)).name
  have hnd := h.body.names
  rw [e0] at h5 hnd ⊢
  rw [List.map_append] at hnd
  obtain ⟨b1, b2, k0, k1, k2⟩ := key vs v _ _ h5
  obtain ⟨g1, _⟩ := Valid.stored_get vs {} b1 k0 hne (List.nodup_append.1 hnd).1
  obtain ⟨r1, a1⟩ := Valid.addValid_ok k1
  obtain ⟨r, a⟩ := Valid.addValid_ok k2
  have d := Book.add_get b1 b2 .validation (Valid.named v) r1 a1
  obtain rfl : r1 = v.name := d.1 hnv
  obtain ⟨c1, c2, c3⟩ := Book.C40_any_state b2 t.body.valid .validation (Valid.anonymous v).body r a
  refine ⟨r, _, ?_, c2⟩
  intro hc
  rw [d.2] at c1
  obtain ⟨w, hw, rfl⟩ := List.mem_map.1 hc
  split at c1
  · cases c1
  · rename_i hn
    rcases List.mem_append.1 hw with hw | hw
    · rw [g1 w hw] at c1
      cases c1
    · rw [List.mem_singleton.1 hw] at hn
      exact hn ⟨rfl, rfl⟩

/-- **C95** is false of the code for two row groups that begin in the same row: the first time they stay as they are,
the second time the inner one is shown and the outer one is hidden. -/
theorem C95_groups_counterexample :
    ((sheetOf [put 0 0, put 1 0] [] []).bind fun s =>
      (rewrite { s with groupRows := [⟨0, 1, true⟩, ⟨0, 0, false⟩] }).bind fun s1 =>
        (rewrite s1).map fun s2 => (s1.groupRows, s2.groupRows))
      = some ([⟨0, 0, false⟩, ⟨0, 1, true⟩], [⟨0, 0, true⟩, ⟨0, 1, false⟩]) := by
  decide +kernel

/-- A master page with a header of two paragraphs, of which the first is empty. -/
def blankFirst : Book.Style Master.Master :=
  ⟨"a".toList, { slot := fun i => if i = .header then { display := true, content := [.tag pName [] [], textP "x".toList] } else {} }⟩

/-- **C95** is false of the code for an empty paragraph in a header or footer: it is there after the first time, and
gone after the second. -/
theorem C95_paragraph_counterexample :
    (match Master.mastersBack (Master.mastersXml false [blankFirst]) with
      | none => none
      | some b => (b.get? .masterPage "a".toList).map fun q => ((q.body.slot .header).content,
        match Master.mastersBack (Master.mastersXml false [q]) with
        | none => none
        | some b => (b.get? .masterPage "a".toList).map fun q => (q.body.slot .header).content))
      = some ([textP [], textP "x".toList], some [textP "x".toList]) := by
  decide +kernel

end Verif.Whole
