import Verif.Style.FormatProps

/-!
# Concrete cases for the theorems about styles, and cases in which the properties do not hold
-/

set_option autoImplicit false

namespace Verif.Style

open Xml Xml.Spec Codec Book Refs.Spec Spec

/-- Integers as in the crate. -/
def ints : Refs.Ints := ⟨maxU32, true⟩

/-! ## A workbook that meets the hypotheses -/

def demoMap : StyleMap := ⟨"cell-content()>3".toList, "other".toList, none⟩

def demoCell : Style Body where
  name := "big & bold".toList
  body :=
    { origin := .styles
      use := .named
      attr := [("style:parent-style-name".toList, "Default".toList)]
      main := [("fo:background-color".toList, "#ff0000".toList)]
      text := [("fo:font-weight".toList, "bold".toList)]
      maps := some [demoMap] }

def demoDefault : Style Body where
  name := "ignored".toList
  body := { origin := .styles, use := .default, text := [("fo:font-size".toList, "10pt".toList)] }

def demoCol : Style Body :=
  ⟨"co1".toList, { main := [("style:column-width".toList, "2cm".toList)] }⟩

def part1 : Part := { type := .text, content := some "about <".toList }

def part2 : Part :=
  { type := .number
    attr := [("number:decimal-places".toList, "2".toList)]
    position := some 1
    content := some "x".toList }

def part3 : Part := { type := .fraction }

def demoFormat : Style Format := ⟨"val_number1".toList, { parts := [part1, part2, part3] }⟩

def demoPage : Style Page := ⟨"page1".toList, { usage := some "all".toList, header := [("fo:min-height".toList, "1cm".toList)] }⟩

def demoFont : Font := ⟨"Arial".toList, .content, [("svg:font-family".toList, "Arial".toList)]⟩

def demo : SBook where
  styles := ⟨[], fun k => if k = .cell then [(demoCell.name, demoCell), (demoDefault.name, demoDefault)]
    else if k = .col then [(demoCol.name, demoCol)] else []⟩
  formats := ⟨[], fun k => if k = .fmtNumber then [(demoFormat.name, demoFormat)] else []⟩
  pages := ⟨[], fun k => if k = .page then [(demoPage.name, demoPage)] else []⟩
  fonts := [(demoFont.name, demoFont)]

instance (m : Attrs) : Decidable (KeysOk m) := by unfold KeysOk; infer_instance
instance (m : Attrs) : Decidable (NoName m) := by unfold NoName; infer_instance
instance {V : Type} (m : HMap Str V) : Decidable (HMap.Distinct m) := by unfold HMap.Distinct; infer_instance

theorem demo_ok : BookOk demo := by
  have bc : BodyOk .cell demoCell.body := by
    refine ⟨⟨by decide, by decide, by decide, by decide, by decide, by decide⟩, by decide +kernel, by decide +kernel,
      by decide +kernel, by decide +kernel, ?_, (by intro l h; cases h)⟩
    intro l h sm hsm r hr
    have h : some [demoMap] = some l := h
    cases h
    rcases List.mem_cons.1 hsm with rfl | hsm
    · cases hr
    · cases hsm
  have bd : BodyOk .cell demoDefault.body :=
    ⟨⟨by decide, by decide, by decide, by decide, by decide, by decide⟩, by decide +kernel, by decide +kernel,
      by decide +kernel, by decide +kernel, (by intro l h; cases h), (by intro l h; cases h)⟩
  have bo : BodyOk .col demoCol.body :=
    ⟨⟨by decide, by decide, by decide, by decide, by decide, by decide⟩, by decide +kernel, by decide +kernel,
      by decide +kernel, by decide +kernel, (by intro l h; cases h), (by intro l h; cases h)⟩
  have bf : FormatOk .fmtNumber demoFormat.body := by
    refine ⟨by decide, by decide +kernel, by decide +kernel, by decide +kernel, ?_⟩
    intro p hp
    have hp : p ∈ [part1, part2, part3] := hp
    simp only [List.mem_cons, List.not_mem_nil, or_false] at hp
    rcases hp with rfl | rfl | rfl
    · exact ⟨by decide +kernel, (by intro z h; cases h)⟩
    · exact ⟨by decide +kernel, (by
        intro z h
        have h : some 1 = some z := h
        cases h; decide)⟩
    · exact ⟨by decide +kernel, (by intro z h; cases h)⟩
  have sc : ∀ k, ∀ e ∈ demo.styles.store k, (e.1 = e.2.name ∧ e.2.name ≠ []) ∧ BodyOk k e.2.body := by
    intro k e he
    simp only [demo] at he
    split at he
    · rename_i hk
      subst hk
      simp only [List.mem_cons, List.not_mem_nil, or_false] at he
      rcases he with rfl | rfl
      · exact ⟨⟨rfl, by decide⟩, bc⟩
      · exact ⟨⟨rfl, by decide⟩, bd⟩
    · split at he
      · rename_i hk
        subst hk
        simp only [List.mem_cons, List.not_mem_nil, or_false] at he
        subst he
        exact ⟨⟨rfl, by decide⟩, bo⟩
      · cases he
  have fc : ∀ k, ∀ e ∈ demo.formats.store k, (e.1 = e.2.name ∧ e.2.name ≠ []) ∧ FormatOk k e.2.body := by
    intro k e he
    simp only [demo] at he
    split at he
    · rename_i hk
      subst hk
      simp only [List.mem_cons, List.not_mem_nil, or_false] at he
      subst he
      exact ⟨⟨rfl, by decide⟩, bf⟩
    · cases he
  refine ⟨fun k e he => (sc k e he).1, fun k e he => (sc k e he).2, ?_, fun k e he => (fc k e he).1,
    fun k e he => (fc k e he).2, ?_, ?_, ?_, by decide +kernel, ?_, ?_, by decide +kernel⟩
  · intro k; cases k <;> decide +kernel
  · intro k; cases k <;> decide +kernel
  · decide +kernel
  · intro e he
    simp only [demo, if_true, List.mem_cons, List.not_mem_nil, or_false] at he
    subst he
    exact ⟨by decide +kernel, by decide +kernel, by decide +kernel⟩
  · decide +kernel
  · intro e he
    simp only [demo, List.mem_cons, List.not_mem_nil, or_false] at he
    subst he
    exact ⟨by decide +kernel, by decide +kernel⟩

/-- The hypotheses of the theorems about packages and flat files are met. -/
theorem demo_meets : BookOk demo ∧ demo.count < 4294967296 ∧ AttrsOk [(true, "office:version".toList, "1.3".toList)]
    ∧ demo.count = 3 ∧ ∀ p ∈ demoFormat.body.parts, TextsKept p := by
  refine ⟨demo_ok, by decide +kernel, ?_, by decide +kernel, ?_⟩
  · exact attrsOk_cons _ _ (by show Name _; simp only; decide +kernel) (by intro h; cases h) attrsOk_nil
  · intro p hp
    have hp : p ∈ [part1, part2, part3] := hp
    simp only [List.mem_cons, List.not_mem_nil, or_false] at hp
    rcases hp with rfl | rfl | rfl
    · exact ⟨rfl, by decide⟩
    · intro s hs; cases hs; decide
    · exact ⟨rfl, rfl⟩

/-- What is found in a package. -/
def pkg (b : SBook) : Except Fault SBook :=
  readPackage ints (output false (writeStylesFile [] b)) (output false (writeContentFile [] b))

def found {α : Type} (r : Except Fault SBook) (f : SBook → α) : Option α :=
  match r with
  | .ok b => some (f b)
  | .error _ => none

/-- One style in a store. -/
def one (k : Kind) (s : Style Body) : SBook where
  styles := ⟨[], fun k' => if k' = k then [(s.name, s)] else []⟩

/-- One format in a store. -/
def oneF (k : Kind) (s : Style Format) : SBook where
  formats := ⟨[], fun k' => if k' = k then [(s.name, s)] else []⟩

/-! ## Where C51 does not hold -/

/-- A named style with the origin `Content`: it is in no file of the package. -/
theorem C51_content_counterexample :
    found (pkg (one .cell ⟨"a".toList, { origin := .content, use := .named }⟩))
      (fun b => (b.styles.get? .cell "a".toList).isNone) = some true := by decide +kernel

/-- A flat file converts the workbook: saved as a flat file and then as a package, its named styles are lost. -/
theorem C51_flat_then_package_counterexample :
    found (pkg (writeFlat [] (one .cell ⟨"a".toList, { origin := .styles, use := .named }⟩)).2)
      (fun b => (b.styles.get? .cell "a".toList).isNone) = some true := by decide +kernel

/-- A flat file that is read and written as a package: its named styles are lost. -/
theorem C51_from_flat_counterexample :
    found (readFlat ints (writeFlat [] (one .cell ⟨"a".toList, { origin := .styles, use := .named }⟩)).1)
      (fun b => ((b.styles.get? .cell "a".toList).isSome, found (pkg b) (fun b => (b.styles.get? .cell "a".toList).isNone)))
      = some (true, some true) := by decide +kernel

/-- The second font of `styles.xml` gets the origin `Content`. -/
theorem C51_font_counterexample :
    found (pkg { fonts := [("a".toList, ⟨"a".toList, .styles, []⟩), ("b".toList, ⟨"b".toList, .styles, []⟩)] })
      (fun b => ((b.fonts.get? "a".toList).map Font.origin, (b.fonts.get? "b".toList).map Font.origin))
      = some (some .styles, some .content) := by decide +kernel

/-- Fonts with the origin `Styles` are not in a flat file. -/
theorem C51_flat_font_counterexample :
    found (readFlat ints (writeFlat [] { fonts := [("a".toList, ⟨"a".toList, .styles, []⟩)] }).1)
      (fun b => (b.fonts.get? "a".toList).isNone) = some true := by decide +kernel

/-- Tab stops without other properties of the paragraph are lost. -/
theorem C51_tabs_counterexample :
    found (pkg (one .paragraph ⟨"a".toList, { tabs := some [[("style:position".toList, "2cm".toList)]] }⟩))
      (fun b => (b.styles.get? .paragraph "a".toList).map fun s => s.body.tabs.isNone) = some (some true) := by decide +kernel

/-- A format with the use `Default` is read as `Named`. -/
theorem C51_format_counterexample :
    found (pkg (oneF .fmtNumber ⟨"a".toList, { origin := .styles, use := .default }⟩))
      (fun b => (b.formats.get? .fmtNumber "a".toList).map fun s => s.body.use) = some (some .named) := by decide +kernel

/-! ## Where C52 does not hold -/

/-- A default style, and an automatic style with the first generated name: the default style is lost. -/
theorem C52_counterexample :
    found (readFile ints .styles {} (output false (.dtd "UTF-8".toList :: docCalls (styleFile tDocStyles []
        [(.cell, ⟨[], { origin := .styles, use := .default, text := [("fo:font-size".toList, "10pt".toList)] }⟩)]
        [(.cell, ⟨"ce0".toList, { origin := .styles, use := .automatic }⟩)]))))
      (fun b => (b.styles.store .cell).map fun e => (e.1, e.2.body.use)) = some [("ce0".toList, .automatic)] := by
  decide +kernel

/-- The case is one of a file as in `C52_named` and `C52_unnamed_partial`, but for the names. -/
theorem C52_meets : FileOk .styles
    [(.cell, ⟨[], { origin := .styles, use := .default, text := [("fo:font-size".toList, "10pt".toList)] }⟩)]
    [(.cell, ⟨"head".toList, { origin := .styles, use := .automatic }⟩)] := by
  refine ⟨?_, by decide, by decide, by decide⟩
  intro p hp
  simp only [List.cons_append, List.nil_append, List.mem_cons, List.not_mem_nil, or_false] at hp
  rcases hp with rfl | rfl
  · exact ⟨⟨by decide, by decide, by decide, by decide, by decide, by decide⟩, by decide +kernel, by decide +kernel,
      by decide +kernel, by decide +kernel, (by intro l h; cases h), (by intro l h; cases h)⟩
  · exact ⟨⟨by decide, by decide, by decide, by decide, by decide, by decide⟩, by decide +kernel, by decide +kernel,
      by decide +kernel, by decide +kernel, (by intro l h; cases h), (by intro l h; cases h)⟩

/-! ## Where C53 does not hold -/

def partsBack (r : Except Fault SBook) : Option (Option (List Part)) :=
  found r fun b => (b.formats.get? .fmtNumber "a".toList).map fun s => s.body.parts

/-- A text within a number with a character that is escaped: only the end is read. -/
theorem C53_embedded_counterexample :
    partsBack (pkg (oneF .fmtNumber ⟨"a".toList, { parts := [{ type := .number, position := some 1, content := some "a&b".toList }] }⟩))
      = some (some [{ type := .number, position := some 1, content := some "b".toList }]) := by decide +kernel

/-- In a flat file a line break takes the place of a text within a number. -/
theorem C53_flat_counterexample :
    partsBack (readFlat ints (writeFlat []
        (oneF .fmtNumber ⟨"a".toList, { parts := [{ type := .number, position := some 1, content := some "x".toList }] }⟩)).1)
      = some (some [{ type := .number, position := some 1, content := some "\n".toList }]) := by decide +kernel

/-- The content of a number without position is lost. -/
theorem C53_number_counterexample :
    partsBack (pkg (oneF .fmtNumber ⟨"a".toList, { parts := [{ type := .number, content := some "x".toList }] }⟩))
      = some (some [{ type := .number }]) := by decide +kernel

end Verif.Style
