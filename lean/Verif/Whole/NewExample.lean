import Verif.Whole.NewProps
import Verif.Whole.CycleExample

/-!
# A case for C100

A new workbook with a style, a format, a font, a master page, a validation, a title, and two sheets, one of which is
filled call by call.
-/

set_option autoImplicit false

namespace Verif.Whole

open Xml Codec Spec
open Verif.Sheets.Spec
open Verif.Width Verif.Width.Spec

def makeCalls : List BookCall :=
  [.style (.add .col Style.demoCol), .pushSheet "x".toList [], .pushSheet "b".toList [], .insertSheet 0 "a".toList cycleCalls,
   .removeSheet 1, .format (.add .fmtNumber Style.demoFormat), .addFont Style.demoFont, .master (.add .masterPage Master.demoMaster),
   .validation (.add .validation Valid.demo), .metadata (fun m => { m with title := "t".toList }),
   .view (fun v => { v with showGrid := false })] ++ cycleCalls.map (.sheet 1)

theorem make_hist : histories makeCalls = [("a".toList, cycleCalls), ("b".toList, cycleCalls)] := rfl

theorem make_ok : ∀ c ∈ makeCalls, CallOk Meta.asBits false c := by
  intro c hc
  rcases List.mem_append.1 hc with hc | hc
  · simp only [List.mem_cons, List.not_mem_nil, or_false] at hc
    rcases hc with rfl | rfl | rfl | rfl | rfl | rfl | rfl | rfl | rfl | rfl | rfl
    · exact cycle_col_ok
    · trivial
    · trivial
    · trivial
    · trivial
    · exact Style.demo_ok.format .fmtNumber (Style.demoFormat.name, Style.demoFormat) (List.mem_of_getElem? (i := 0) rfl)
    · exact Style.demo_ok.font (Style.demoFont.name, Style.demoFont) (List.mem_of_getElem? (i := 0) rfl)
    · exact ⟨Master.demoMaster_ok, Master.demoMaster_keeps⟩
    · refine ⟨rfl, fun n hn => ?_⟩
      have := demo_good.body.valid Valid.demo (List.mem_of_getElem? (i := 0) rfl)
      exact { this with name := hn }
    · intro m h; exact { h with }
    · trivial
  · obtain ⟨x, _, rfl⟩ := List.mem_map.1 hc
    trivial

theorem make_sheets : SheetsOk Meta.asBits false (histories makeCalls) := by
  rw [make_hist]
  have hmem : ∀ q ∈ [("a".toList, cycleCalls), ("b".toList, cycleCalls)], q = ("a".toList, cycleCalls) ∨ q = ("b".toList, cycleCalls) := by
    intro q hq
    simpa using hq
  refine ⟨by simp, ?_, ?_, ?_, by decide⟩
  · intro q hq
    rcases hmem q hq with rfl | rfl <;> exact cycle_saveable _ _
  · intro q hq
    have : q.2 = cycleCalls := by rcases hmem q hq with rfl | rfl <;> rfl
    rw [this]
    intro c hc
    simp only [cycleCalls, List.mem_cons, List.not_mem_nil, or_false] at hc
    rcases hc with rfl | rfl | rfl | rfl | rfl | rfl | rfl | rfl <;> trivial
  · intro q hq
    rcases hmem q hq with rfl | rfl <;> decide

theorem make_run : ∃ b0 b, Workbook.new ⟨false, false, false⟩ ⟨"en".toList, none, none, []⟩ = some b0
    ∧ b0.run makeCalls = some b ∧ b.styles.book.styles.get? .col "co1".toList = some Style.demoCol
    ∧ b.styles.book.styles.get? .cell "default-num".toList = some (Fmt.cellStyle "default-num".toList "num1".toList)
    ∧ b.styles.book.formats.get? .fmtNumber "num1".toList = some ⟨"num1".toList, Fmt.tableEn.number.2⟩
    ∧ b.metadata.title = "t".toList ∧ b.view.showGrid = false ∧ b.view.activeTable = []
    ∧ b.valid.store .validation = [(Valid.demo.name, Valid.demo)] :=
  ⟨_, _, rfl, rfl, rfl, rfl, rfl, rfl, rfl, rfl, rfl⟩

/-- **The hypotheses of C100 are met**: the workbook is made, saved and loaded, and it has the title, the view, the style
of numbers of the locale, and in the second sheet what the calls asked for. -/
theorem C100_meets : ∃ b0 b z w, Workbook.new ⟨false, false, false⟩ ⟨"en".toList, none, none, []⟩ = some b0
    ∧ b0.run makeCalls = some b ∧ b.save Meta.asBits = some z ∧ load ⟨Meta.asBits, Refs.checked, {}⟩ z = .ok w
    ∧ w.file.metadata.title = "t".toList ∧ w.view.showGrid = false ∧ w.view.activeTable = "a".toList
    ∧ (∃ s, w.file.styles.styles.get? .cell "default-num".toList = some s ∧ s.body.main = [])
    ∧ (∃ f, w.file.styles.formats.get? .fmtNumber "num1".toList = some f)
    ∧ (∃ v, w.file.body.valid.get? .validation Valid.demo.name = some v ∧ v.body.rule = Valid.demo.body.rule)
    ∧ ∃ s, w.sheets[1]? = some s ∧ s.head.name = "b".toList ∧ s.body.data.value 1 1 = .boolean true
      ∧ s.body.colHeader.colWidth 0 = .cm (num 3) := by
  obtain ⟨b0, b, h0, h1, h2, h3, h4, h5, h6, h7, h8⟩ := make_run
  obtain ⟨z, w, w1, w2, w3, w4, w5, w6, w7, w8⟩ := C100_package_partial (e := ⟨Meta.asBits, Refs.checked, {}⟩) rfl rfl makeCalls b0 b
    h0 h1 make_ok make_sheets (by rw [make_hist]; exact cycle_sizes_of _ h2) (by rw [make_hist]; decide)
  rw [make_hist] at w3 w5
  refine ⟨b0, b, z, w, h0, h1, w1, w2, w7.metadata.title.trans h5, ?_, ?_, ?_, ?_, ?_, ?_⟩
  · rw [w3]; unfold bookView; rw [if_pos h7]; exact h6
  · rw [w3]; unfold bookView; rw [if_pos h7]; rfl
  · obtain ⟨t, t1, t2⟩ := w8.styles .cell _ _ (by decide) (by decide) h3 (by decide) (.inr rfl)
    exact ⟨t, t1, t2.main⟩
  · obtain ⟨t, t1, _⟩ := w8.formats .fmtNumber _ _ h4 (.inr rfl)
    exact ⟨t, t1⟩
  · obtain ⟨v, v1, _, v2⟩ := w7.validations Valid.demo (by
      show _ ∈ (b.valid.store .validation).map Prod.snd
      rw [h8]
      exact List.mem_cons_self)
    exact ⟨v, v1, v2⟩
  · obtain ⟨s, s1, s2⟩ := w5 1 _ _ rfl
    have c1 := s2.complete 1 1 rfl (fun h => absurd h.1 (by rw [cycle_cells]; decide))
    exact ⟨s, s1, s2.name, congrArg Obs.value c1, (s2.cols 1 1 0 rfl (by omega)).1⟩

end Verif.Whole
