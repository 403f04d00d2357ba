import Verif.Whole.CycleProps
import Verif.Width.Examples

/-!
# A case for C94

Two sheets made by the same calls, with widths, a height, a hidden row and a split view.
-/

set_option autoImplicit false

namespace Verif.Whole

open Xml Codec OMap Sheets Sheets.Spec Spec
open Verif.Book (Stores Style)
open Verif.Style (Body)
open Verif.Width Verif.Width.Spec

def cycleCalls : List Sheets.Call :=
  [.cell (.setValue 0 0 (.text "head".toList)), .col (.setStyle 0 "co1"), .col (.setWidth 0 (.cm (num 3))),
   .col (.setWidth 1 (.mm (num 40))), .row (.setHeight 0 (.pt (num 20))), .cell (.setValue 1 1 (.boolean true)),
   .splitColHeader 0, .row (.setVisible 0 .collapsed)]

theorem cycle_cells (r c : Nat) : specAt (r, c) (cellCalls cycleCalls)
    = if (r, c) = (0, 0) then { Obs.fresh with present := true, value := .text "head".toList }
      else if (r, c) = (1, 1) then { Obs.fresh with present := true, value := .boolean true }
      else .fresh := by
  by_cases h1 : (r, c) = (0, 0)
  · rw [h1]; rfl
  by_cases h2 : (r, c) = (1, 1)
  · rw [h2]; rfl
  rw [if_neg h1, if_neg h2]
  simp [specAt, cycleCalls, cellCalls, CellOp.pos, Ne.symm h1, Ne.symm h2]

theorem cycle_cols (k : Nat) : (k = 0 ∧ colAsked cycleCalls k = ⟨some "co1", none, .visible, .cm (num 3)⟩)
    ∨ (k = 1 ∧ colAsked cycleCalls k = ⟨none, none, .visible, .mm (num 40)⟩)
    ∨ (k ≠ 0 ∧ k ≠ 1 ∧ colAsked cycleCalls k = {} ∧ ¬ Named cycleCalls k) := by
  by_cases h0 : k = 0
  · exact .inl ⟨h0, by rw [h0]; rfl⟩
  by_cases h1 : k = 1
  · exact .inr (.inl ⟨h1, by rw [h1]; rfl⟩)
  refine .inr (.inr ⟨h0, h1, ?_⟩)
  have e : colCalls [] cycleCalls = [.setStyle 0 "co1", .setWidth 0 (.cm (num 3)), .setWidth 1 (.mm (num 40))] := rfl
  unfold Named colAsked
  rw [e]
  simp [colSpec, ColOp.col, Ne.symm h0, Ne.symm h1]

theorem cycle_rows (o : RowObs) (h : RowState cycleCalls o) : o.style = none := by
  have e : rowCalls [] cycleCalls = [.setHeight 0 (.pt (num 20)), .setVisible 0 .collapsed] := rfl
  obtain ⟨r, h⟩ := h
  unfold rowAsked at h
  rw [e] at h
  by_cases h0 : r = 0
  · subst h0
    rcases h with rfl | rfl <;> rfl
  · rcases h with rfl | rfl
    · simp [rowSpec, RowOp.row, Ne.symm h0]
    · simp [rowBefore, RowOp.row, Ne.symm h0]

theorem cycle_saveable (fl : Floats) (lb : Bool) : Saveable fl lb cycleCalls where
  cells := by
    intro r c hp
    rw [cycle_cells] at hp ⊢
    have hx : ∀ o : Obs, o.annotation = none → o.drawFrames = [] → o.rowSpan = 1 → o.colSpan = 1 → o.matrixRowSpan = 1 →
        o.matrixColSpan = 1 → ExtrasFit lb o := by
      intro o h1 h2 h3 h4 h5 h6
      exact cellOk_plain lb _ h1 h2 (by simp [h3, h4, SpanOk]) (by simp [h5, h6, SpanOk])
    by_cases h1 : (r, c) = (0, 0)
    · rw [if_pos h1]
      injection h1 with h1 h2
      subst h1 h2
      exact ⟨by decide, by decide, rfl, ⟨by decide, by decide⟩, hx _ rfl rfl rfl rfl rfl rfl⟩
    rw [if_neg h1] at hp ⊢
    by_cases h2 : (r, c) = (1, 1)
    · rw [if_pos h2]
      injection h2 with h1 h2
      subst h1 h2
      exact ⟨by decide, by decide, rfl, trivial, hx _ rfl rfl rfl rfl rfl rfl⟩
    rw [if_neg h2] at hp
    cases hp
  rows := by
    intro r n h
    have e : rowCalls [] cycleCalls = [.setHeight 0 (.pt (num 20)), .setVisible 0 .collapsed] := rfl
    rw [e] at h
    simp at h
  cols := by
    intro k h
    rcases cycle_cols k with ⟨a, _⟩ | ⟨a, _⟩ | ⟨_, _, _, a⟩
    · omega
    · omega
    · exact absurd h a
  gap := by
    intro a b hab _ hb
    rcases cycle_cols b with ⟨e, _⟩ | ⟨e, _⟩ | ⟨_, _, _, e⟩
    · omega
    · omega
    · exact absurd hb e
  hole := by
    intro a b hab he hne
    rw [he] at hne
    rcases cycle_cols b with ⟨e, _⟩ | ⟨e, _⟩ | ⟨_, _, e, _⟩
    · omega
    · omega
    · unfold colAsked at e
      exact absurd (by unfold colWish; rw [e]) hne
  headerRows := by intro h hh; cases hh
  headerCols := by intro h hh; cases hh
  colOrder := List.Pairwise.nil
  colCut := by intro g hg; cases hg
  rowOrder := List.Pairwise.nil
  rowEnds := by intro g hg; cases hg
  ranges := by intro r hr; cases hr

/-- The style of the first column. -/
def cycleStyles : Stores Body := ({} : Stores Body).setStore .col [("co1".toList, Style.demoCol)]

/-- A workbook with something in every part. -/
def cycleRest : Source := { demo with config := [], styles := { styles := cycleStyles } }

theorem cycle_store (k : Book.Kind) (q : Str × Style Body) (h : q ∈ cycleStyles.store k) :
    k = .col ∧ q = ("co1".toList, Style.demoCol) := by
  unfold cycleStyles at h
  rw [Book.get_setStore] at h
  split at h
  · rename_i hk
    rw [List.mem_singleton] at h
    exact ⟨hk, h⟩
  · cases h

theorem cycle_col_ok : Style.BodyOk .col Style.demoCol.body :=
  Style.demo_ok.style .col ("co1".toList, Style.demoCol) (List.mem_of_getElem? (i := 0) rfl)

theorem cycleRest_good : GoodParts Meta.asBits false cycleRest :=
  { demo_good with
    config := ⟨by unfold Config.Distinct; simp [cycleRest], by simp [cycleRest], by simp [cycleRest]⟩
    styles := by
      refine ⟨?_, ?_, ?_, ?_, ?_, ?_, ?_, ?_, ?_, ?_, ?_, ?_⟩
      · intro k q hq
        obtain ⟨_, rfl⟩ := cycle_store k q hq
        exact ⟨rfl, by decide⟩
      · intro k q hq
        obtain ⟨rfl, rfl⟩ := cycle_store k q hq
        exact cycle_col_ok
      · intro k
        show Book.HMap.Distinct (cycleStyles.store k)
        unfold cycleStyles
        rw [Book.get_setStore]
        split
        · simp [Book.HMap.Distinct, Book.HMap.keys]
        · simp [Book.HMap.Distinct, Book.HMap.keys]
      · intro k q hq; cases hq
      · intro k q hq; cases hq
      · intro k; show Book.HMap.Distinct []; simp [Book.HMap.Distinct, Book.HMap.keys]
      · intro q hq; cases hq
      · intro q hq; cases hq
      · show Book.HMap.Distinct []; simp [Book.HMap.Distinct, Book.HMap.keys]
      · intro q hq; cases hq
      · intro q hq; cases hq
      · show Book.HMap.Distinct []; simp [Book.HMap.Distinct, Book.HMap.keys]
    styleCount := by decide +kernel }

theorem cycle_sizes_of (st : Stores Body) (hst : st.get? .col "co1".toList = some Style.demoCol) :
    SizesFit Meta.asBits st [("a".toList, cycleCalls), ("b".toList, cycleCalls)] := by
  have hq : ∀ q ∈ [("a".toList, cycleCalls), ("b".toList, cycleCalls)], q.2 = cycleCalls := by
    intro q hq
    simp only [List.mem_cons, List.not_mem_nil, or_false] at hq
    rcases hq with rfl | rfl <;> rfl
  have er : rowCalls [] cycleCalls = [.setHeight 0 (.pt (num 20)), .setVisible 0 .collapsed] := rfl
  refine ⟨?_, ?_, ?_, ?_, ?_, ?_, ?_⟩
  · intro q h
    rw [hq q h, er]
    simp [rowsSafe, RowOp.row]
  · intro q h c
    exact bits_ok _
  · intro q h o _
    exact bits_ok _
  · intro q h c n hn
    rw [hq q h] at hn ⊢
    rcases cycle_cols c with ⟨_, e⟩ | ⟨_, e⟩ | ⟨_, _, e, _⟩
    · rw [e] at hn
      injection hn with hn
      subst hn
      exact ⟨Style.demoCol, hst, co1_kept, fun _ => rfl⟩
    · rw [e] at hn; cases hn
    · rw [e] at hn; cases hn
  · intro q h q' h' c c' n hn hn'
    rw [hq q h] at hn ⊢
    rw [hq q' h'] at hn' ⊢
    have : ∀ c, (colAsked cycleCalls c).style = some n → c = 0 := by
      intro c hn
      rcases cycle_cols c with ⟨e0, e⟩ | ⟨_, e⟩ | ⟨_, _, e, _⟩
      · exact e0
      · rw [e] at hn; cases hn
      · rw [e] at hn; cases hn
    rw [this c hn, this c' hn']
  · intro q h o n ho hn
    rw [hq q h] at ho
    rw [cycle_rows o ho] at hn
    cases hn
  · intro q h q' h' o o' n ho _ hn
    rw [hq q h] at ho
    rw [cycle_rows o ho] at hn
    cases hn

theorem cycle_sizes : SizesFit Meta.asBits cycleStyles [("a".toList, cycleCalls), ("b".toList, cycleCalls)] :=
  cycle_sizes_of _ rfl

/-- **The hypotheses of C94 are met**: the workbook is saved and loaded, and the second sheet has the widths, the height
and the view that were asked for. -/
theorem C94_meets : ∃ a b z l, (Sheet.new "a".toList).run cycleCalls = some a ∧ (Sheet.new "b".toList).run cycleCalls = some b
    ∧ Doc.save Meta.asBits (fun _ => none) { rest := cycleRest, sheets := [a, b] } = some z
    ∧ load ⟨Meta.asBits, Refs.checked, {}⟩ z = .ok l ∧ l.sheets.length = 2 ∧ l.view.activeTable = "a".toList
    ∧ ∃ s, l.sheets[1]? = some s ∧ s.head.name = "b".toList ∧ s.body.data.value 1 1 = .boolean true
      ∧ s.body.colHeader.colWidth 0 = .cm (num 3) ∧ s.body.colHeader.colWidth 1 = .mm (num 40)
      ∧ s.body.colHeader.colstyle 0 = some "co1" ∧ s.body.rowHeader.rowHeight 0 = .pt (num 20)
      ∧ s.body.rowHeader.rowVisible 0 = .collapsed
      ∧ (s.config.horSplitMode, s.config.horSplitPos) = (.heading, 1) := by
  have hrun : ∀ n : Str, ∃ s, (Sheet.new n).run cycleCalls = some s := fun n => ⟨_, rfl⟩
  obtain ⟨a, ha⟩ := hrun "a".toList
  obtain ⟨b, hb⟩ := hrun "b".toList
  have hmem : ∀ q ∈ [("a".toList, cycleCalls), ("b".toList, cycleCalls)], q = ("a".toList, cycleCalls) ∨ q = ("b".toList, cycleCalls) := by
    intro q hq
    simpa using hq
  have hd : Cyclic Meta.asBits false [("a".toList, cycleCalls), ("b".toList, cycleCalls)] { rest := cycleRest, sheets := [a, b] } := by
    refine ⟨cycleRest_good, ?_, by simp, ?_, ?_, ?_, by decide, cycle_sizes, (by decide +kernel : cycleRest.styles.count + 4 * (List.map (fun q : Str × List Sheets.Call => (rowCalls [] q.snd).length + (colCalls [] q.snd).length) [("a".toList, cycleCalls), ("b".toList, cycleCalls)]).sum < 4294967296)⟩
    · unfold Made; simp only [List.map_cons, ha, hb, List.map_nil]
    · intro q hq
      rcases hmem q hq with rfl | rfl <;> exact cycle_saveable _ _
    · intro q hq
      have : q.2 = cycleCalls := by rcases hmem q hq with rfl | rfl <;> rfl
      rw [this]
      intro c hc
      simp only [cycleCalls, List.mem_cons, List.not_mem_nil, or_false] at hc
      rcases hc with rfl | rfl | rfl | rfl | rfl | rfl | rfl | rfl <;> trivial
    · intro q hq
      rcases hmem q hq with rfl | rfl <;> decide
  obtain ⟨z, hz⟩ := (C94_saves (e := ⟨Meta.asBits, Refs.checked, {}⟩) rfl rfl (fun _ => none) _ _
    [.add .col Style.demoCol] [some "co1".toList] rfl (by decide) (by
      intro q hq
      have hn := Config.assigns_noValue {} [(lastWish wishName q.1 q.2, ({} : Config.SheetConfig))]
      refine ⟨Config.pathFits_new _ _ ?_, Config.pathFits_new _ _ ?_, Config.pathFits_new _ _ ?_⟩
      · exact hn ⟨Config.viewPath, _, _⟩ (by unfold Config.assigns; exact List.mem_append.2 (.inl (List.mem_of_getElem? (i := 0) rfl)))
      · refine hn ⟨Config.sheetPath (lastWish wishName q.1 q.2), Config.SKey.cursorX.name, ({} : Config.SheetConfig).value .cursorX⟩ ?_
        unfold Config.assigns
        refine List.mem_append.2 (.inr (List.mem_flatMap.2 ⟨_, List.mem_cons_self, ?_⟩))
        exact List.mem_append.2 (.inl (List.mem_map.2 ⟨.cursorX, by decide, rfl⟩))
      · refine hn ⟨Config.scriptPath (lastWish wishName q.1 q.2), Config.kCodeName, .string (lastWish wishName q.1 q.2)⟩ ?_
        unfold Config.assigns
        refine List.mem_append.2 (.inr (List.mem_flatMap.2 ⟨_, List.mem_cons_self, ?_⟩))
        exact List.mem_append.2 (.inr List.mem_cons_self))).1 hd
  obtain ⟨l, h1, h2, h3, h4, _⟩ := C94_package_partial (e := ⟨Meta.asBits, Refs.checked, {}⟩) rfl rfl (fun _ => none) _ _ hd z hz
  refine ⟨a, b, z, l, ha, hb, hz, h1, h3, by rw [h2]; rfl, ?_⟩
  obtain ⟨s, s1, s2⟩ := h4 1 _ _ rfl
  have c1 := s2.complete 1 1 rfl (fun h => absurd h.1 (by rw [cycle_cells]; decide))
  have r0 := s2.rows 0 0 rfl (fun h => absurd h.1 (by rw [cycle_cells]; decide))
  have k0 := s2.cols 1 1 0 rfl (by omega)
  have k1 := s2.cols 1 1 1 rfl (by omega)
  exact ⟨s, s1, s2.name, congrArg Obs.value c1, k0.1, k1.1, k0.2.2.2 (.inl (by decide)), r0.1, r0.2.2.1, s2.leftRight⟩

end Verif.Whole
