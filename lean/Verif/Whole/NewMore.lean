import Verif.Whole.NewExample

/-!
# C100: what a new workbook has from the start

The settings of a new workbook, and the styles that cells without a style get.
-/

set_option autoImplicit false

namespace Verif.Whole

open Xml Codec Spec

/-- The settings every new workbook has: the names that lead to them, and their values. -/
def newSettings : List (List String × List (String × Config.CValue)) := [
  (["ooo:view-settings"], [
      ("VisibleAreaTop", .int 0), ("VisibleAreaLeft", .int 0), ("VisibleAreaWidth", .int 2540),
      ("VisibleAreaHeight", .int 1270)]),
  (["ooo:view-settings", "Views", "0"], [
      ("ViewId", .string "view1".toList), ("ActiveTable", .string "".toList), ("HorizontalScrollbarWidth", .int 702),
      ("ZoomType", .short 0), ("ZoomValue", .int 100), ("PageViewZoomValue", .int 60),
      ("ShowPageBreakPreview", .boolean false), ("ShowZeroValues", .boolean true), ("ShowNotes", .boolean true),
      ("ShowGrid", .boolean true), ("GridColor", .int 12632256), ("ShowPageBreaks", .boolean false),
      ("HasColumnRowHeaders", .boolean true), ("HasSheetTabs", .boolean true), ("IsOutlineSymbolsSet", .boolean true),
      ("IsValueHighlightingEnabled", .boolean false), ("IsSnapToRaster", .boolean false),
      ("RasterIsVisible", .boolean false), ("RasterResolutionX", .int 1000), ("RasterResolutionY", .int 1000),
      ("RasterSubdivisionX", .int 1), ("RasterSubdivisionY", .int 1), ("IsRasterAxisSynchronized", .boolean true),
      ("AnchoredTextOverflowLegacy", .boolean false)]),
  (["ooo:configuration-settings"], [
      ("HasSheetTabs", .boolean true), ("ShowNotes", .boolean true), ("EmbedComplexScriptFonts", .boolean true),
      ("ShowZeroValues", .boolean true), ("ShowGrid", .boolean true), ("GridColor", .int 12632256),
      ("ShowPageBreaks", .boolean false), ("IsKernAsianPunctuation", .boolean false), ("LinkUpdateMode", .short 3),
      ("HasColumnRowHeaders", .boolean true), ("EmbedLatinScriptFonts", .boolean true),
      ("IsOutlineSymbolsSet", .boolean true), ("IsSnapToRaster", .boolean false), ("RasterIsVisible", .boolean false),
      ("RasterResolutionX", .int 1000), ("RasterResolutionY", .int 1000), ("RasterSubdivisionX", .int 1),
      ("RasterSubdivisionY", .int 1), ("IsRasterAxisSynchronized", .boolean true), ("AutoCalculate", .boolean true),
      ("ApplyUserData", .boolean true), ("PrinterName", .string "".toList), ("PrinterSetup", .base64 []),
      ("SaveThumbnail", .boolean true), ("CharacterCompressionType", .short 0),
      ("SaveVersionOnClose", .boolean false), ("UpdateFromTemplate", .boolean true),
      ("AllowPrintJobCancel", .boolean true), ("LoadReadonly", .boolean false), ("IsDocumentShared", .boolean false),
      ("EmbedFonts", .boolean false), ("EmbedOnlyUsedFonts", .boolean false),
      ("EmbedAsianScriptFonts", .boolean true), ("SyntaxStringRef", .short 7)])]

/-- **C100, settings of a new workbook.** Whatever the locale is, each of these settings is there with its value. -/
theorem C100_new_settings (ft : Fmt.Features) (l : Fmt.Locale) (b : Workbook) (h : Workbook.new ft l = some b) :
    ∀ g ∈ newSettings, ∀ x ∈ g.2,
      Config.getValueRec (g.1.map String.toList ++ [x.1.toList]) (.node .set b.config) = some x.2 := by
  obtain ⟨b0, e0, hi, _⟩ := new_inv Meta.asBits false ft l
  cases h.symm.trans e0
  rw [hi.config]
  decide +kernel

/-! ## Default styles -/

/-- The style that a locale gives to cells without a style, by the type of their value; `none` for the types it says
nothing about. -/
def localeStyle : ValueType → Option Str
  | .boolean => some "default-bool".toList
  | .number => some "default-num".toList
  | .percentage => some "default-percent".toList
  | .currency => some "default-currency".toList
  | .dateTime => some "default-date".toList
  | .timeDuration => some "default-interval".toList
  | .text | .textXml | .empty => none

/-- The default style of a type of value, as the calls ask for it: the last of `add_def_style` for the type and of
`locale_settings` counts, other calls say nothing. -/
def defWish (t : ValueType) : Option Str → List BookCall → Option Str
  | s, [] => s
  | s, .addDefStyle u n :: cs => defWish t (if u = t then some n else s) cs
  | s, .localeSettings _ _ :: cs => defWish t ((localeStyle t).or s) cs
  | s, _ :: cs => defWish t s cs

theorem locale_def (ft : Fmt.Features) (l : Fmt.Locale) (b b' : Fmt.LBook) (h : Fmt.localeSettings ft l b = .ok b')
    (t : ValueType) : b'.defStyle t = (localeStyle t).or (b.defStyle t) := by
  obtain ⟨h1, h2, h3, h4, h5, h6, h7, h8, h9⟩ := Fmt.C85_defs ft l b b' h
  cases t <;> first | assumption | (rw [localeStyle, Option.none_or]; assumption)

theorem defs_run (t : ValueType) (calls : List BookCall) : ∀ b b' : Workbook, b.run calls = some b' →
    b'.styles.defStyle t = defWish t (b.styles.defStyle t) calls := by
  induction calls with
  | nil => intro b b' h; cases h; rfl
  | cons c cs ih =>
    intro b b' h
    rw [Workbook.run] at h
    cases hc : b.call c with
    | none => rw [hc] at h; cases h
    | some b1 =>
      rw [hc] at h
      have e := ih b1 b' h
      rw [e]
      have same : b1.styles.defs = b.styles.defs →
          defWish t (b1.styles.defStyle t) cs = defWish t (b.styles.defStyle t) cs := by
        intro e; unfold Fmt.LBook.defStyle; rw [e]
      cases c with
      | addDefStyle u n =>
        cases hc
        have : (b.styles.addDef u n).defStyle t = if u = t then some n else b.styles.defStyle t := by
          show (b.styles.defs.insert u n).get? t = _
          rw [Book.HMap.get?_insert]
          rfl
        show defWish t ((b.styles.addDef u n).defStyle t) cs = _
        rw [this, defWish]
      | localeSettings ft l =>
        unfold Workbook.call at hc
        simp only at hc
        cases hl : Fmt.localeSettings ft l b.styles with
        | error x => rw [hl] at hc; cases hc
        | ok s =>
          rw [hl] at hc
          cases hc
          show defWish t (s.defStyle t) cs = _
          rw [locale_def ft l b.styles s hl t, defWish]
      | _ =>
        refine same ?_
        unfold Workbook.call at hc
        simp only at hc
        repeat' split at hc
        all_goals first | (cases hc; rfl) | cases hc

/-- **C100, default styles.** A workbook is made with any locale and changed by any calls.  A cell without a style is
written with the style that the last call of `add_def_style` for the type of its value asked for, or that of the locale if
that came later, or no style if there was neither: `C100_package_partial` and `C100_flat_partial` load each cell with this
`defStyle`. -/
theorem C100_default_styles (ft : Fmt.Features) (l : Fmt.Locale) (b0 b : Workbook) (calls : List BookCall)
    (hnew : Workbook.new ft l = some b0) (hrun : b0.run calls = some b) (t : ValueType) :
    b.defStyle t = (defWish t (localeStyle t) calls).map String.ofList := by
  unfold Workbook.defStyle
  rw [defs_run t calls b0 b hrun]
  congr 2
  have h := defs_run t [.localeSettings ft l] Workbook.newEmpty b0 (by
    unfold Workbook.new at hnew
    rw [Workbook.run, Workbook.call, hnew]; rfl)
  rw [h]
  cases t <;> rfl

/-- A workbook in which numbers get another style, and then those of a locale again. -/
theorem C100_default_meets : ∃ b0 b, Workbook.new ⟨false, false, false⟩ ⟨"en".toList, none, none, []⟩ = some b0
    ∧ b0.run [.addDefStyle .number "mine".toList, .addDefStyle .text "words".toList] = some b
    ∧ b.defStyle .number = some "mine" ∧ b.defStyle .text = some "words" ∧ b.defStyle .boolean = some "default-bool"
    ∧ b0.defStyle .text = none := by
  obtain ⟨b0, e0, _⟩ := new_inv Meta.asBits false ⟨false, false, false⟩ ⟨"en".toList, none, none, []⟩
  refine ⟨b0, _, e0, rfl, ?_, ?_, ?_, ?_⟩
  · rw [C100_default_styles _ _ b0 _ [.addDefStyle .number "mine".toList, .addDefStyle .text "words".toList] e0 rfl]; decide +kernel
  · rw [C100_default_styles _ _ b0 _ [.addDefStyle .number "mine".toList, .addDefStyle .text "words".toList] e0 rfl]; decide +kernel
  · rw [C100_default_styles _ _ b0 _ [.addDefStyle .number "mine".toList, .addDefStyle .text "words".toList] e0 rfl]; decide +kernel
  · rw [C100_default_styles _ _ b0 b0 [] e0 rfl]; rfl

end Verif.Whole
