import Verif.Style.OtherFound
import Verif.Whole.OtherFile

/-!
# C111: the styles of other programs
-/

set_option autoImplicit false

namespace Verif.Style

open Xml Xml.Spec Codec Book
open Verif.Whole (FileText file_events)

/-- **C111** (exact): a file of another program is read as the definitions it has.  However the file is laid out and
written down, reading it adds its fonts, styles, formats and page layouts to the workbook, one after the other as they
stand in the file, and each with all its attributes, properties, conditions, tab stops and parts. -/
theorem C111_file (m : Refs.Ints) (o : Origin) (bk : SBook) (c : List El) (text : Str) (ht : FileText c text)
    (h : StylesFineIn m c) : readFile m o bk text = bk.applyAll (stylesSaidIn m o c) := by
  obtain ⟨ts, h1, h2⟩ := file_events ht
  unfold readFile
  rw [h1]
  simp only
  rw [h2, file_elIn m o c h bk]
  cases bk.applyAll (stylesSaidIn m o c) <;> rfl

/-- **C111**: the styles of a package are found as `styles.xml` and `content.xml` define them, of several with the same
name the last one; and no others are found. -/
theorem C111_package (m : Refs.Ints) (s c : List El) (st ct : Str) (hs : FileText s st) (hc : FileText c ct)
    (h1 : StylesFineIn m s) (h2 : StylesFineIn m c)
    (hl : (stylesSaidIn m .styles s).length + (stylesSaidIn m .content c).length < 4294967296) :
    ∃ bk, readPackage m st ct = .ok bk ∧ Found bk (stylesSaidIn m .styles s ++ stylesSaidIn m .content c) := by
  obtain ⟨bk, k1, k2⟩ := applyAll_found (stylesSaidIn m .styles s ++ stylesSaidIn m .content c)
    (by rw [List.length_append]; exact hl)
  refine ⟨bk, ?_, k2⟩
  rw [applyAll_append] at k1
  unfold readPackage
  rw [C111_file m .styles {} s st hs h1]
  cases ha : SBook.applyAll {} (stylesSaidIn m .styles s) with
  | error e => rw [ha] at k1; cases k1
  | ok b1 =>
    rw [ha] at k1
    simp only
    rw [C111_file m .content b1 c ct hc h2]
    exact k1

/-- The same for a flat file. -/
theorem C111_flat (m : Refs.Ints) (c : List El) (text : Str) (hc : FileText c text) (h : StylesFineIn m c)
    (hl : (stylesSaidIn m .content c).length < 4294967296) :
    ∃ bk, readFlat m text = .ok bk ∧ Found bk (stylesSaidIn m .content c) := by
  obtain ⟨bk, k1, k2⟩ := applyAll_found (stylesSaidIn m .content c) hl
  refine ⟨bk, ?_, k2⟩
  unfold readFlat
  rw [C111_file m .content {} c text hc h]
  exact k1

/-! ## A file as other programs write it -/

def n (s : String) : Str := s.toList

/-- A list of attributes. -/
def atts (l : List (String × String)) : List (Str × Str) := l.map fun a => (a.1.toList, a.2.toList)

/-- `<style:header-style>` and an empty element for the footer. -/
def officePage : List El :=
  [.void tPageProps (atts [("style:writing-mode", "lr-tb")]),
   .elem tHeaderStyle []
     [.text [' '], .elem tHFProps (atts [("fo:min-height", "0.75cm"), ("fo:margin-left", "0cm")])
       [.void (n "style:background-image") []]],
   .elem tFooterStyle [] []]

/-- A cell style with a paragraph, an unknown element and a condition. -/
def officeCell : List El :=
  [.text [' '],
   .elem tParaProps (atts [("fo:text-align", "center")]) [.void (n "style:tab-stops") []],
   .elem (n "loext:extra") [] [.void tTextProps (atts [("fo:font-weight", "bold")])],
   .void tMap (atts [("style:condition", "cell-content()&lt;0"), ("style:apply-style-name", "Bad")])]

/-- `#,##0.00 €` with the symbol in an element of its own. -/
def officeCurrency : List El :=
  [.void (n "number:number") (atts [("number:decimal-places", "2"), ("number:grouping", "true")]),
   .elem (n "number:text") [] [.text [' ']],
   .elem (n "number:currency-symbol") (atts [("number:language", "de"), ("number:country", "DE")]) [.ref (n "#8364")]]

def officeStyles : List El :=
  [.elem (n "office:document-styles") (atts [("office:version", "1.3")])
    [.elem tFonts []
      [.void tFont (atts [("style:name", "Sans"), ("svg:font-family", "'Liberation Sans'")]),
       .text [' '],
       .void tFont (atts [("style:name", "Serif")])],
     .elem tOffice []
      [.elem (n "number:currency-style") (atts [("style:name", "N104")]) officeCurrency,
       .elem tStyle (atts [("style:display-name", "Some &amp; other"), ("style:family", "table-cell"), ("style:name", "Some")])
         officeCell,
       .void tStyle (atts [("style:name", "Bad"), ("style:family", "table-cell"), ("style:parent-style-name", "Some")])],
     .elem tAuto []
      [.elem tPage (atts [("style:name", "Mpm1")]) officePage],
     .elem (n "office:master-styles") [] []]]

def officeStylesText : Str := '<' :: '?' :: (n "xml version='1.0'?" ++ '>' :: spellIn officeStyles)

theorem officeStyles_text : FileText officeStyles officeStylesText :=
  .declared _ _ _ (by decide +kernel) (spell_ok _ (by decide +kernel))

theorem attrsFine (as : List (Str × Str)) (h : (as.map Prod.fst).Nodup) (h' : (unescapeAttrs as).isSome = true) :
    AttrsFine as := ⟨h, h'⟩

theorem officePage_fine : PageFine officePage := by
  refine ⟨⟨(by decide +kernel : (unescapeAttrs _).isSome = true), ⟨(by decide +kernel : (unescapeAttrs _).isSome = true),
    trivial, ⟨(by decide +kernel : (unescapeAttrs _).isSome = true), (by decide +kernel : (unescapeAttrs _).isSome = true),
    trivial⟩, trivial⟩, ⟨(by decide +kernel : (unescapeAttrs _).isSome = true), trivial⟩, trivial⟩, ?_, ?_⟩
  · exact ⟨trivial, ⟨by decide +kernel, trivial, ⟨by decide +kernel, trivial, trivial⟩, trivial⟩,
      ⟨by decide +kernel, trivial⟩, trivial⟩
  · refine ⟨⟨by decide +kernel, by decide +kernel⟩, ⟨fun _ => rfl, fun _ => rfl, ?_⟩, ⟨fun _ => rfl, fun _ => rfl, trivial⟩, trivial⟩
    refine ⟨trivial, ⟨fun h => absurd h (by decide +kernel), fun h => absurd h (by decide +kernel), ?_⟩, trivial⟩
    exact ⟨⟨by decide +kernel, by decide +kernel⟩, trivial⟩

theorem officeCell_fine : StyleFine Refs.checked .cell tStyle officeCell := by
  have e : ∀ l : List (Str × Str), (unescapeAttrs l).isSome = true → Escaped l := fun _ h => h
  refine ⟨⟨trivial, ⟨e _ (by decide +kernel), e _ (by decide +kernel), trivial⟩, ⟨e _ (by decide +kernel), e _ (by decide +kernel), trivial⟩,
    e _ (by decide +kernel), trivial⟩, ⟨trivial, ⟨by decide +kernel, trivial, trivial⟩, ⟨by decide +kernel, trivial, trivial⟩, trivial, trivial⟩, ?_⟩
  intro _ as ha
  have : named tMap (elTagsIn officeCell)
      = [atts [("style:condition", "cell-content()&lt;0"), ("style:apply-style-name", "Bad")]] := by decide +kernel
  rw [this, List.mem_singleton] at ha
  subst ha
  refine ⟨by decide +kernel, e _ (by decide +kernel), ?_⟩
  intro v hv
  rw [show attrOf (atts [("style:condition", "cell-content()&lt;0"), ("style:apply-style-name", "Bad")]) aBaseCell = none by
    decide +kernel] at hv
  cases hv

theorem officeCurrency_fine : FormatFine (n "number:currency-style") officeCurrency := by
  have e : ∀ l : List (Str × Str), (unescapeAttrs l).isSome = true → Escaped l := fun _ h => h
  refine ⟨⟨e _ (by decide +kernel), ⟨e _ (by decide +kernel), ?_⟩, ⟨e _ (by decide +kernel), ?_⟩, trivial⟩,
    ⟨trivial, ⟨by decide +kernel, trivial, trivial⟩, ⟨by decide +kernel, trivial, trivial⟩, trivial⟩, ?_⟩
  · rw [show Spec.partNames.lookup (n "number:text") = some .text by decide +kernel]
    exact ⟨⟨trivial, trivial⟩, fun h => by cases h⟩
  · rw [show Spec.partNames.lookup (n "number:currency-symbol") = some .currencySymbol by decide +kernel]
    exact ⟨⟨trivial, trivial⟩, fun h => by cases h⟩
  · rw [show named tMap (outerTagsIn officeCurrency) = [] by decide +kernel]
    intro as ha
    cases ha

theorem officeStyles_fine : StylesFineIn Refs.checked officeStyles := by
  have e : ∀ l : List (Str × Str), (unescapeAttrs l).isSome = true → Escaped l := fun _ h => h
  refine ⟨?_, trivial⟩
  rw [StylesFine, if_neg (by decide +kernel), if_neg (by decide +kernel), if_neg (by decide +kernel)]
  refine ⟨?_, ?_, ?_, ?_, trivial⟩
  · rw [StylesFine, if_pos rfl]
    refine ⟨⟨trivial, trivial, trivial, trivial⟩, ?_⟩
    intro as ha
    rw [show named tFont (elTagsIn [.void tFont (atts [("style:name", "Sans"), ("svg:font-family", "'Liberation Sans'")]),
       .text [' '], .void tFont (atts [("style:name", "Serif")])])
      = [atts [("style:name", "Sans"), ("svg:font-family", "'Liberation Sans'")], atts [("style:name", "Serif")]] by decide +kernel] at ha
    rcases List.mem_cons.1 ha with rfl | ha
    · exact ⟨by decide +kernel, e _ (by decide +kernel)⟩
    · rw [List.mem_singleton] at ha
      subst ha
      exact ⟨by decide +kernel, e _ (by decide +kernel)⟩
  · rw [StylesFine, if_neg (by decide +kernel), if_pos rfl]
    refine ⟨?_, ?_, ?_, trivial⟩
    · rw [SectFine, show itemSaid .office (n "number:currency-style") (atts [("style:name", "N104")]) = some (.format .fmtCurrency) by
        decide +kernel]
      exact ⟨by decide +kernel, ⟨by decide +kernel, e _ (by decide +kernel)⟩, officeCurrency_fine⟩
    · rw [SectFine, show itemSaid .office tStyle (atts [("style:display-name", "Some &amp; other"), ("style:family", "table-cell"),
        ("style:name", "Some")]) = some (.style .named .cell) by decide +kernel]
      exact ⟨by decide +kernel, ⟨by decide +kernel, e _ (by decide +kernel)⟩, officeCell_fine⟩
    · rw [SectFine, show itemSaid .office tStyle (atts [("style:name", "Bad"), ("style:family", "table-cell"),
        ("style:parent-style-name", "Some")]) = some (.style .named .cell) by decide +kernel]
      exact ⟨by decide +kernel, e _ (by decide +kernel)⟩
  · rw [StylesFine, if_neg (by decide +kernel), if_neg (by decide +kernel), if_pos rfl]
    refine ⟨?_, trivial⟩
    rw [SectFine, show itemSaid .auto tPage (atts [("style:name", "Mpm1")]) = some .page by decide +kernel]
    exact ⟨by decide +kernel, ⟨by decide +kernel, e _ (by decide +kernel)⟩, officePage_fine⟩
  · rw [StylesFine, if_neg (by decide +kernel), if_neg (by decide +kernel), if_neg (by decide +kernel)]
    trivial

deriving instance DecidableEq for Book.Style
deriving instance DecidableEq for Op

/-- The style of cells in this file. -/
def cellRead : Body :=
  { origin := .content
    use := .named
    attr := atts [("style:display-name", "Some & other"), ("style:family", "table-cell")]
    main := []
    para := atts [("fo:text-align", "center")]
    text := atts [("fo:font-weight", "bold")]
    maps := some [⟨n "cell-content()<0", n "Bad", none⟩]
    tabs := none }

def currencyRead : Format :=
  { origin := .content
    use := .named
    attr := []
    text := []
    parts := [⟨.number, atts [("number:decimal-places", "2"), ("number:grouping", "true")], none, none⟩,
      ⟨.text, [], none, some [' ']⟩,
      ⟨.currencySymbol, atts [("number:language", "de"), ("number:country", "DE")], none, some ['€']⟩]
    maps := none }

def pageRead : Page :=
  { usage := none
    style := atts [("style:writing-mode", "lr-tb")]
    header := atts [("fo:min-height", "0.75cm"), ("fo:margin-left", "0cm")]
    footer := [] }

def badRead : Body :=
  { use := .named, attr := atts [("style:family", "table-cell"), ("style:parent-style-name", "Some")] }

/-- What `stylesSaidIn` says of this file. -/
theorem officeStyles_said : stylesSaidIn Refs.checked .content officeStyles =
    [.font ⟨n "Sans", .content, atts [("svg:font-family", "'Liberation Sans'")]⟩, .font ⟨n "Serif", .content, []⟩,
     .format .fmtCurrency ⟨n "N104", currencyRead⟩, .style .cell ⟨n "Some", cellRead⟩, .style .cell ⟨n "Bad", badRead⟩,
     .page ⟨n "Mpm1", pageRead⟩] := by decide +kernel

/-- `C111_flat` says what is found of it. -/
theorem C111_meets : ∃ bk, readFlat Refs.checked officeStylesText = .ok bk
    ∧ bk.styles.get? .cell (n "Some") = some ⟨n "Some", cellRead⟩
    ∧ bk.formats.get? .fmtCurrency (n "N104") = some ⟨n "N104", currencyRead⟩
    ∧ bk.pages.get? .page (n "Mpm1") = some ⟨n "Mpm1", pageRead⟩ := by
  obtain ⟨bk, h1, h2⟩ := C111_flat Refs.checked officeStyles officeStylesText officeStyles_text officeStyles_fine
    (by rw [officeStyles_said]; decide)
  rw [officeStyles_said] at h2
  refine ⟨bk, h1, ?_, ?_, ?_⟩
  · refine h2.style [_, _, _] .cell ⟨n "Some", cellRead⟩ [_, _] rfl (by decide +kernel) ?_
    intro y hy
    simp only [List.mem_cons, List.not_mem_nil, or_false] at hy
    rcases hy with hy | hy
    · cases hy; decide +kernel
    · cases hy
  · refine h2.format [_, _] .fmtCurrency ⟨n "N104", currencyRead⟩ [_, _, _] rfl (by decide +kernel) ?_
    intro y hy
    simp only [List.mem_cons, List.not_mem_nil, or_false] at hy
    rcases hy with hy | hy | hy <;> cases hy
  · refine h2.page [_, _, _, _, _] ⟨n "Mpm1", pageRead⟩ [] rfl (by decide +kernel) ?_
    intro y hy
    cases hy

/-! ## What is read wrongly -/

/-- A page layout whose header has no style of its own, as an empty tag. -/
def emptyHeader : List El :=
  [.elem (n "office:document-styles") []
    [.elem tAuto []
      [.elem tPage (atts [("style:name", "Mpm1")])
        [.void tHeaderStyle [], .elem tFooterStyle [] [.void tHFProps (atts [("fo:min-height", "0.75cm")])]]]]]

/-- The style of a header that is an empty tag is not left: the properties of the footer become properties of the
header too.  The file gives the header none. -/
theorem C111_header_counterexample : ∃ text, FileText emptyHeader text
    ∧ (∃ bk p, readFlat Refs.checked text = .ok bk ∧ bk.pages.get? .page (n "Mpm1") = some p
      ∧ p.body.header = atts [("fo:min-height", "0.75cm")] ∧ p.body.footer = atts [("fo:min-height", "0.75cm")])
    ∧ ∀ p, .page p ∈ stylesSaidIn Refs.checked .content emptyHeader → p.body.header = [] := by
  refine ⟨spellIn emptyHeader, .plain _ _ (spell_ok _ (by decide +kernel)), ?_, ?_⟩
  · have h : (readFlat Refs.checked (spellIn emptyHeader)).toOption.bind (fun bk => bk.pages.get? .page (n "Mpm1"))
        = some ⟨n "Mpm1", { header := atts [("fo:min-height", "0.75cm")], footer := atts [("fo:min-height", "0.75cm")] }⟩ := by
      decide +kernel
    cases hr : readFlat Refs.checked (spellIn emptyHeader) with
    | error e => rw [hr] at h; cases h
    | ok bk =>
      rw [hr] at h
      exact ⟨bk, _, rfl, h, rfl, rfl⟩
  · rw [show stylesSaidIn Refs.checked .content emptyHeader
      = [.page ⟨n "Mpm1", { footer := atts [("fo:min-height", "0.75cm")] }⟩] by decide +kernel]
    intro p hp
    rw [List.mem_singleton] at hp
    cases hp
    rfl

/-- A format without parts as an empty tag, and a style behind it. -/
def emptyFormat : List El :=
  [.elem (n "office:document-styles") []
    [.elem tOffice []
      [.void (n "number:text-style") (atts [("style:name", "N1")]),
       .elem tStyle (atts [("style:name", "Some"), ("style:family", "table-cell")])
         [.void tTextProps (atts [("fo:font-weight", "bold")])]]]]

def someRead : Body :=
  { use := .named
    attr := atts [("style:family", "table-cell")]
    text := atts [("fo:font-weight", "bold")] }

/-- A format that is an empty tag is not left either: the styles behind it are lost, and their properties become
properties of the format. -/
theorem C111_empty_counterexample : ∃ text, FileText emptyFormat text
    ∧ (∃ bk f, readFlat Refs.checked text = .ok bk ∧ bk.styles.get? .cell (n "Some") = none
      ∧ bk.formats.get? .fmtText (n "N1") = some f ∧ f.body.text = atts [("fo:font-weight", "bold")])
    ∧ ∃ x, .style .cell x ∈ stylesSaidIn Refs.checked .content emptyFormat ∧ x.name = n "Some"
      ∧ x.body.text = atts [("fo:font-weight", "bold")] := by
  refine ⟨spellIn emptyFormat, .plain _ _ (spell_ok _ (by decide +kernel)), ?_, ?_⟩
  · have h : (readFlat Refs.checked (spellIn emptyFormat)).toOption.map
          (fun bk => (bk.styles.get? .cell (n "Some"), bk.formats.get? .fmtText (n "N1")))
        = some (none, some ⟨n "N1", { use := .named, text := atts [("fo:font-weight", "bold")] }⟩) := by
      decide +kernel
    cases hr : readFlat Refs.checked (spellIn emptyFormat) with
    | error e => rw [hr] at h; cases h
    | ok bk =>
      rw [hr] at h
      have h := Option.some.inj h
      exact ⟨bk, _, rfl, (Prod.mk.inj h).1, (Prod.mk.inj h).2, rfl⟩
  · rw [show stylesSaidIn Refs.checked .content emptyFormat
      = [.style .cell ⟨n "Some", someRead⟩] by decide +kernel]
    exact ⟨_, List.mem_singleton.2 rfl, rfl, rfl⟩

end Verif.Style
