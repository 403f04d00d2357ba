import Verif.Width.RowProps
import Verif.Width.Examples

/-!
# Where C57 fails for rows, and a workbook that meets its hypotheses
-/

set_option autoImplicit false

namespace Verif.Width

open Xml Xml.Spec Codec Refs Book Style Style.Spec OMap Refs.Spec Spec

/-- A style for rows. -/
def demoRow : Style Body := ⟨"ro1".toList, { main := [("style:row-height".toList, "2cm".toList)] }⟩

/-- `demo` with this style. -/
def rowDemo : SBook := { demo with styles := demo.styles.setStore .row [(demoRow.name, demoRow)] }

theorem rowDemo_stores : StoresOk rowDemo.styles := by
  have key : ∀ k, (∀ e ∈ rowDemo.styles.store k, (e.1 = e.2.name ∧ e.2.name ≠ []) ∧ BodyOk k e.2.body)
      ∧ HMap.Distinct (rowDemo.styles.store k) := by
    intro k
    have hs : rowDemo.styles.store k = if k = .row then [(demoRow.name, demoRow)] else demo.styles.store k := rfl
    rw [hs]
    split
    · rename_i hk
      subst hk
      refine ⟨?_, by decide⟩
      intro e he
      simp only [List.mem_cons, List.not_mem_nil, or_false] at he
      subst he
      exact ⟨⟨rfl, by decide⟩, ⟨by decide, by decide, by decide, by decide, by decide, by decide⟩, by decide +kernel, by decide +kernel,
        by decide +kernel, by decide +kernel, (by intro l h; cases h), (by intro l h; cases h)⟩
    · exact ⟨fun e he => ⟨demo_ok.styleKey k e he, demo_ok.style k e he⟩, demo_ok.stylesMap k⟩
  exact ⟨fun k e he => ((key k).1 e he).1, fun k e he => ((key k).1 e he).2, fun k => (key k).2⟩

theorem rowDemo_ok : BookOk rowDemo := book_ok demo demo_ok _ rowDemo_stores

/-- Two rows with one style. -/
def sharedRows (w w' : Length) : TSheet :=
  { data := [((0, 0), { value := .boolean true }), ((1, 0), { value := .boolean true })]
    rowHeader := [(0, { style := some "ro1", height := w }), (1, { style := some "ro1", height := w' })] }

/-- The styles after two rows with the style `ro1` were saved. -/
def sharedStores (w w' : Length) : Stores Body :=
  (rowDemo.styles.modify .row "ro1".toList (toBody rowDim bits w)).modify .row "ro1".toList (toBody rowDim bits w')

theorem shared_rows (w w' : Length) :
    calcRowSheets bits rowDemo.styles [sharedRows w w'] = .ok (sharedStores w w', [sharedRows w w']) := by
  simp only [sharedRows, calcRowSheets, calcRows, sizeStep, reduceCtorEq, and_false, if_false]
  rfl

/-- **C57 fails if rows share a style**: two workbooks that differ in the height of the first row only, 1 cm and 3 cm. The
second row has the same style and is 3 cm high. They are saved as the same styles and the same table. -/
theorem C57_heights_counterexample :
    ∃ (s s' : TSheet) (st : Stores Body), s.rowHeader.rowHeight 0 ≠ s'.rowHeader.rowHeight 0
      ∧ calcRowSheets bits rowDemo.styles [s] = .ok (st, [s]) ∧ calcRowSheets bits rowDemo.styles [s'] = .ok (st, [s'])
      ∧ writeSheet s = writeSheet s' ∧ ∃ evs, writeSheet s = .ok evs := by
  refine ⟨sharedRows (.cm (num 1)) (.cm (num 3)), sharedRows (.cm (num 3)) (.cm (num 3)),
    sharedStores (.cm (num 3)) (.cm (num 3)), by decide, ?_, shared_rows _ _, by decide +kernel,
    evsOf (sharedRows (.cm (num 1)) (.cm (num 3))), by decide +kernel⟩
  rw [shared_rows]
  have : sharedStores (.cm (num 1)) (.cm (num 3)) = sharedStores (.cm (num 3)) (.cm (num 3)) := by
    have h : ∀ w, (sharedStores w (.cm (num 3))) = ⟨(sharedStores w (.cm (num 3))).1, fun k =>
        if k = .row then (sharedStores w (.cm (num 3))).store .row else rowDemo.styles.store k⟩ := by
      intro w
      unfold sharedStores Stores.modify Stores.setStore
      congr 1
      funext k
      by_cases hk : k = .row
      · subst hk; rfl
      · simp only [if_neg hk]
    rw [h (.cm (num 1)), h (.cm (num 3))]
    refine congrArg (Stores.mk _) ?_
    have e : (sharedStores (.cm (num 1)) (.cm (num 3))).store .row = (sharedStores (.cm (num 3)) (.cm (num 3))).store .row := by
      show [_] = [_]
      rfl
    rw [e]
  rw [this]

/-- The headers after a style and a height were set for a row: the second call leaves a header behind that covers no row
and has the style without the height. -/
theorem styled_then_high (r : Nat) (n : String) (w : Length) :
    RowHeaders.run [] [.setStyle r n, .setHeight r w]
      = some [(r, { style := some n, height := w }), (r + 1, { style := some n, span := 0 })] := by
  have h1 : ¬ r + 1 < r := by omega
  have h2 : r < r + 1 := by omega
  simp [RowHeaders.run, RowHeaders.step, RowHeaders.modify, RowHeaders.split, OMap.lastLe, OMap.insert, OMap.get?, h1]

/-- **C57 fails for a row that gets first its style and then its height**, whatever row, style and height: a header that
covers no row is left behind by the second call, and when the workbook is saved this header makes the style say that the
height is computed. In memory the height is there; whoever reads the saved styles gets the default. -/
theorem C57_style_then_height_counterexample (f : Floats) (b : Stores Body) (r : Nat) (n : String) (w : Length)
    (hw : w ≠ .default) (hb : b.get? .row n.toList ≠ none) :
    ∃ m b' m', RowHeaders.run [] [.setStyle r n, .setHeight r w] = some m ∧ m.rowHeight r = w ∧ w ≠ .default ∧ m.rowstyle r = some n
      ∧ calcRows f b m = .ok (b', m') ∧ m'.rowstyle r = some n ∧ derived rowDim f b' (m'.rowstyle r) .default = some .default := by
  have h1 : ¬ r + 1 ≤ r := by omega
  let b' := (b.modify .row n.toList (toBody rowDim f w)).modify .row n.toList (toBody rowDim f .default)
  refine ⟨_, b', [(r, { style := some n, height := w }), (r + 1, { style := some n, span := 0 })],
    styled_then_high r n w, ?_, hw, ?_, ?_, ?_, ?_⟩
  · simp [RowHeaders.rowHeight, RowHeaders.valid, OMap.lastLe, h1]
  · simp [RowHeaders.rowstyle, RowHeaders.valid, OMap.lastLe, h1]
  · simp [calcRows, sizeStep, b', rowDim]
  · simp [RowHeaders.rowstyle, RowHeaders.valid, OMap.lastLe, h1]
  · have e : RowHeaders.rowstyle [(r, { style := some n, height := w }), (r + 1, { style := some n, span := 0 })] r = some n := by
      simp [RowHeaders.rowstyle, RowHeaders.valid, OMap.lastLe, h1]
    rw [e]
    cases hg : b.get? .row n.toList with
    | none => exact absurd hg hb
    | some t =>
      have hg' : b'.get? .row n.toList = some (toBody rowDim f .default (toBody rowDim f w t)) := by
        simp [b', get_modify, hg]
      simp only [derived, show rowDim.kind = .row from rfl, hg']
      have : val rowDim.optimal (toBody rowDim f .default (toBody rowDim f w t)).body.main = some "true".toList := by
        unfold toBody
        simp only
        rw [val_toStyle_optimal rowDim rowDim_ok, if_pos rfl]
      rw [this]
      rfl

/-! ## The hypotheses are met -/

/-- Rows: one with the style `ro1` and its height, three copies of a row with a height and no style, two rows without cells,
and a last row. -/
def fitRows : TSheet :=
  { data := [((0, 0), { value := .boolean true }), ((1, 0), { value := .boolean false }), ((6, 1), { value := .boolean true })]
    colHeader := [(0, { style := some "co1", width := .cm (num 2) }), (1, { width := .mm (num 5) })]
    rowHeader := [(0, { style := some "ro1", height := .cm (num 2) }), (1, { «repeat» := 3, height := .mm (num 7) }),
      (4, { style := some "ro1", height := .cm (num 2) }), (5, { style := some "ro1", height := .cm (num 2) }),
      (6, { cellstyle := some "x", height := .inch (num 1) })] }

theorem fit_data (r : Nat) (h : fitRows.DataRow r) : r = 0 ∨ r = 1 ∨ r = 6 := by
  obtain ⟨c, d, h⟩ := h
  have hm := mem_of_get?_eq_some h
  simp only [fitRows, List.mem_cons, Prod.mk.injEq, List.not_mem_nil, or_false] at hm
  omega

theorem fit_copy (r r0 : Nat) (h : fitRows.CopyOf r r0) : (r0 = 0 ∧ r = 0) ∨ (r0 = 1 ∧ 1 ≤ r ∧ r < 4) ∨ (r0 = 6 ∧ r = 6) := by
  obtain ⟨h1, h2, h3⟩ := h
  rcases fit_data r0 h1 with rfl | rfl | rfl
  · have : fitRows.repeatOf 0 = 1 := by decide
    omega
  · have : fitRows.repeatOf 1 = 3 := by decide
    omega
  · have : fitRows.repeatOf 6 = 1 := by decide
    omega

theorem fit_in (r : Nat) (h : fitRows.InTable r) : r ≤ 6 := by
  obtain ⟨r1, h1, h2⟩ := h
  rcases fit_data r1 h1 with rfl | rfl | rfl
  · have : fitRows.repeatOf 0 = 1 := by decide
    omega
  · have : fitRows.repeatOf 1 = 3 := by decide
    omega
  · have : fitRows.repeatOf 6 = 1 := by decide
    omega

theorem fit_empty (r : Nat) (h : fitRows.EmptyRow r) (hi : fitRows.InTable r) : r = 4 ∨ r = 5 := by
  have h6 := fit_in r hi
  have h0 : r ≠ 0 := fun e => h 0 ⟨⟨0, _, rfl⟩, by omega, by rw [e]; decide⟩
  have h1 : ¬ (1 ≤ r ∧ r < 4) := fun e => h 1 ⟨⟨0, _, rfl⟩, by omega, by
    have : fitRows.repeatOf 1 = 3 := by decide
    omega⟩
  have h7 : r ≠ 6 := fun e => h 6 ⟨⟨1, _, rfl⟩, by omega, by rw [e]; decide⟩
  omega

/-- **The hypotheses of C57 are met** by a workbook with styles that are shared and styles that are made when saving, with
copies of rows and rows without cells. -/
theorem C57_sizes_meets : WidthsFit rowDemo.styles [fitRows] ∧ HeightsFit rowDemo.styles [fitRows]
    ∧ (∃ st1 ss1 st2 ss2, calcRowSheets bits rowDemo.styles [fitRows] = .ok (st1, ss1) ∧ calcSheets bits st1 ss1 = .ok (st2, ss2))
    ∧ BookOk rowDemo ∧ (∀ l, LengthOk bits l) ∧ fitRows.CellsOK ∧ fitRows.colHeader.WF ∧ RowsFit fitRows
    ∧ (∀ o, EmptyRowsFit fitRows o) ∧ rowDemo.count + 5 + 2 < 4294967296 := by
  have hr : ∀ h, IsRowHeader [fitRows] h → (h.style = some "ro1" ∧ h.height = .cm (num 2)) ∨ h.style = none := by
    rintro h ⟨s, hs, c, hc⟩
    obtain rfl := List.mem_singleton.1 hs
    simp only [fitRows, List.mem_cons, Prod.mk.injEq, List.not_mem_nil, or_false] at hc
    rcases hc with ⟨_, rfl⟩ | ⟨_, rfl⟩ | ⟨_, rfl⟩ | ⟨_, rfl⟩ | ⟨_, rfl⟩
    · exact .inl ⟨rfl, rfl⟩
    · exact .inr rfl
    · exact .inl ⟨rfl, rfl⟩
    · exact .inl ⟨rfl, rfl⟩
    · exact .inr rfl
  have hh : ∀ h, IsHeader [fitRows] h → (h.style = some "co1" ∧ h.width = .cm (num 2)) ∨ h.style = none := by
    rintro h ⟨s, hs, c, hc⟩
    obtain rfl := List.mem_singleton.1 hs
    simp only [fitRows, List.mem_cons, Prod.mk.injEq, List.not_mem_nil, or_false] at hc
    rcases hc with ⟨_, rfl⟩ | ⟨_, rfl⟩
    · exact .inl ⟨rfl, rfl⟩
    · exact .inr rfl
  refine ⟨⟨?_, ?_⟩, ⟨?_, ?_⟩, ⟨_, _, _, _, rfl, rfl⟩, rowDemo_ok, bits_ok, ?_, ?_, ⟨?_⟩, fun o => ⟨?_, ?_, ?_⟩, by decide +kernel⟩
  · intro h n h1 h2
    rcases hh h h1 with ⟨h3, _⟩ | h3
    · rw [h3] at h2
      injection h2 with h2
      rw [← h2]
      exact ⟨demoCol, rfl, co1_kept, fun _ => by decide +kernel⟩
    · rw [h3] at h2; cases h2
  · intro h h' n h1 h1' h2 h2'
    rcases hh h h1 with ⟨_, h3⟩ | h3
    · rcases hh h' h1' with ⟨_, h3'⟩ | h3'
      · rw [h3, h3']
      · rw [h3'] at h2'; cases h2'
    · rw [h3] at h2; cases h2
  · intro h n h1 h2
    rcases hr h h1 with ⟨h3, _⟩ | h3
    · rw [h3] at h2
      injection h2 with h2
      rw [← h2]
      exact ⟨demoRow, rfl, ⟨by decide, .inr rfl⟩, fun _ => by decide +kernel⟩
    · rw [h3] at h2; cases h2
  · intro h h' n h1 h1' h2 h2'
    rcases hr h h1 with ⟨_, h3⟩ | h3
    · rcases hr h' h1' with ⟨_, h3'⟩ | h3'
      · rw [h3, h3']
      · rw [h3'] at h2'; cases h2'
    · rw [h3] at h2; cases h2
  · exact ⟨by unfold Sorted; decide, by unfold RowOK; decide, by decide, by unfold CellData.SpansOK; decide⟩
  · exact ⟨by unfold Sorted; decide, by decide, by decide⟩
  · intro r h
    rcases fit_data r h with rfl | rfl | rfl <;> decide
  · intro _ _ r h1 h2 h3
    have h6 := fit_in _ h3
    have h5 := fit_empty (r + 1) h2 h3
    have : r = 4 := by
      rcases h5 with h5 | h5
      · exfalso
        have : r = 3 := by omega
        subst this
        exact h1 1 ⟨⟨0, _, rfl⟩, by omega, by decide⟩
      · omega
    subst this
    exact ⟨by decide, fun h => absurd h (by decide)⟩
  · intro r h1 _ h3 h4
    exfalso
    refine h4 ?_
    rcases fit_data r h1 with rfl | rfl | rfl
    · exact .inr (by decide)
    · exact .inl (by decide)
    · have := fit_in _ h3
      have : fitRows.repeatOf 6 = 1 := by decide
      omega
  · intro r _ h
    have := fit_in _ h
    omega

end Verif.Width
