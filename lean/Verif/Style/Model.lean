import Verif.Book.Names
import Verif.Codec.Cell
import Verif.Refs.Parse
import Verif.Xml.Doc

/-!
# Styles: what is written (src/io/write.rs) for the styles in src/style and the formats in src/format

Attribute maps (`AttrMap2`) are lists of names and values here; that they are is proved in `Verif.Book`.
-/

set_option autoImplicit false

namespace Verif.Style

open Xml Xml.Spec Codec Book

/-- `AttrMap2`, src/attrmap2.rs:14-17, in the order of `iter`. -/
abbrev Attrs := List (Str × Str)

/-- `StyleOrigin`, src/style/mod.rs:143-151. -/
inductive Origin where
  | content | styles
  deriving DecidableEq

/-- `StyleUse`, src/style/mod.rs:153-177. -/
inductive Use where
  | default | named | automatic
  deriving DecidableEq

/-- `StyleMap`, src/style/stylemap.rs:16-20. -/
structure StyleMap where
  condition : Str := []
  applied : Str := []
  baseCell : Option CellRef := none
  deriving DecidableEq

/-- `TableStyle`, `RowStyle`, `ColStyle`, `CellStyle`, `ParagraphStyle`, `TextStyle`, `RubyStyle` and `GraphicStyle`
without the name, e.g. src/style/colstyle.rs:19-31: `main` is the map of properties of the kind, `para` and `text` are
`paragraphstyle` and `textstyle` of the kinds that have them; for a text style `text` is all there is. -/
structure Body where
  origin : Origin := .content
  use : Use := .automatic
  attr : Attrs := []
  main : Attrs := []
  para : Attrs := []
  text : Attrs := []
  maps : Option (List StyleMap) := none
  tabs : Option (List Attrs) := none
  deriving DecidableEq

/-! ## Names of elements and attributes -/

def tStyle : Str := "style:style".toList
def tDefault : Str := "style:default-style".toList
def aName : Str := "style:name".toList
def aFamily : Str := "style:family".toList
def tTableProps : Str := "style:table-properties".toList
def tRowProps : Str := "style:table-row-properties".toList
def tColProps : Str := "style:table-column-properties".toList
def tCellProps : Str := "style:table-cell-properties".toList
def tParaProps : Str := "style:paragraph-properties".toList
def tTextProps : Str := "style:text-properties".toList
def tRubyProps : Str := "style:ruby-properties".toList
def tGraphicProps : Str := "style:graphic-properties".toList
def tMap : Str := "style:map".toList
def aCondition : Str := "style:condition".toList
def aApply : Str := "style:apply-style-name".toList
def aBaseCell : Str := "style:base-cell-address".toList
def tTabStops : Str := "style:tab-stops".toList
def tTabStop : Str := "style:tab-stop".toList

/-- The families that are written, src/io/write.rs:2509, 2544, 2579, 2617, 2677, 2736, 2771, 2811. -/
def family : Kind → Str
  | .table => "table".toList
  | .row => "table-row".toList
  | .col => "table-column".toList
  | .cell => "table-cell".toList
  | .paragraph => "paragraph".toList
  | .text => "text".toList
  | .ruby => "ruby".toList
  | .graphic => "graphic".toList
  | _ => []

/-! ## Styles -/

/-- The attributes of a map, e.g. src/io/write.rs:2511-2519. -/
def escAttrs (m : Attrs) : List Call := m.map fun a => .attrEsc a.1 a.2

/-- The attributes that are not written apart, e.g. src/io/write.rs:2511-2519. -/
def ownAttrs (m : Attrs) : Attrs := m.filter fun a => !(a.1 == aName || a.1 == aFamily)

/-- Properties, e.g. src/io/write.rs:2521-2526. -/
def props (tag : Str) (m : Attrs) : List Call := if m = [] then [] else .empty tag :: escAttrs m

/-- A style map, src/io/write.rs:2649-2656. -/
def writeMap (sm : StyleMap) : List Call :=
  [.empty tMap, .attrEsc aCondition sm.condition, .attrEsc aApply sm.applied]
    ++ (match sm.baseCell with | none => [] | some r => [.attrEsc aBaseCell (Refs.fmtCellRef r)])

/-- `style:tab-stop`, src/io/write.rs:2702-2707. -/
def writeTab (m : Attrs) : List Call := .empty tTabStop :: escAttrs m

/-- The properties of a paragraph, src/io/write.rs:2688-2713. -/
def writePara (b : Body) : List Call :=
  if b.para = [] then []
  else
    match b.tabs with
    | none => .empty tParaProps :: escAttrs b.para
    | some ts =>
      .elem tParaProps :: escAttrs b.para
        ++ (.elem tTabStops :: ts.flatMap writeTab ++ [.endElem tTabStops, .endElem tParaProps])

/-- The content of a style, src/io/write.rs:2521-2526, 2556-2561, 2591-2596, 2629-2657, 2688-2719, 2748-2753,
2783-2788, 2823-2840. -/
def writeProps : Kind → Body → List Call
  | .table, b => props tTableProps b.main
  | .row, b => props tRowProps b.main
  | .col, b => props tColProps b.main
  | .cell, b =>
    props tCellProps b.main ++ props tParaProps b.para ++ props tTextProps b.text
      ++ (match b.maps with | none => [] | some l => l.flatMap writeMap)
  | .paragraph, b => writePara b ++ props tTextProps b.text
  | .text, b => props tTextProps b.text
  | .ruby, b => props tRubyProps b.main
  | .graphic, b => props tGraphicProps b.main ++ props tParaProps b.para ++ props tTextProps b.text
  | _, _ => []

/-- `is_empty`, src/io/write.rs:2501, 2536, 2571, 2606-2609, 2669, 2728, 2763, 2801-2803. -/
def isEmpty : Kind → Body → Bool
  | .table, b => b.main.isEmpty
  | .row, b => b.main.isEmpty
  | .col, b => b.main.isEmpty
  | .cell, b => b.main.isEmpty && b.para.isEmpty && b.text.isEmpty && b.maps.isNone
  | .paragraph, b => b.para.isEmpty && b.text.isEmpty
  | .text, b => b.text.isEmpty
  | .ruby, b => b.main.isEmpty
  | .graphic, b => b.main.isEmpty && b.para.isEmpty && b.text.isEmpty
  | _, _ => true

/-- The tag. -/
def styleTag (u : Use) : Str := if u = .default then tDefault else tStyle

/-- `write_tablestyle`, `write_rowstyle`, `write_colstyle`, `write_cellstyle`, `write_paragraphstyle`, `write_textstyle`,
`write_rubystyle`, `write_graphicstyle`, src/io/write.rs:2500-2848: the same code up to the properties. -/
def writeStyle (k : Kind) (s : Style Body) : List Call :=
  .elemIf (!isEmpty k s.body) (styleTag s.body.use)
    :: ((if s.body.use = .default then [] else [.attrEsc aName s.name])
      ++ (.attr aFamily (family k) :: escAttrs (ownAttrs s.body.attr))
      ++ writeProps k s.body
      ++ [.endElemIf (!isEmpty k s.body) (styleTag s.body.use)])

/-! ## Value formats -/

/-- `FormatPartType`, src/format/mod.rs:256-276. -/
inductive PartType where
  | number | fillCharacter | scientificNumber | fraction | currencySymbol | day | month | year | era
  | dayOfWeek | weekOfYear | quarter | hours | minutes | seconds | amPm | boolean | text | textContent
  deriving DecidableEq

/-- `FormatPart`, src/format/mod.rs:280-296. -/
structure Part where
  type : PartType
  attr : Attrs := []
  position : Option Int := none
  content : Option Str := none
  deriving DecidableEq

/-- `ValueStyleMap`, src/format/stylemap.rs:9-13. -/
structure ValueMap where
  condition : Str := []
  applied : Str := []
  deriving DecidableEq

/-- `ValueFormatBoolean` and the other formats without the name, src/macro_format.rs (`valueformat!`). -/
structure Format where
  origin : Origin := .content
  use : Use := .automatic
  attr : Attrs := []
  text : Attrs := []
  parts : List Part := []
  maps : Option (List ValueMap) := none
  deriving DecidableEq

/-- The tags of the formats, src/io/write.rs:2876-2886. -/
def formatTag : Kind → Str
  | .fmtBoolean => "number:boolean-style".toList
  | .fmtNumber => "number:number-style".toList
  | .fmtText => "number:text-style".toList
  | .fmtTimeDuration => "number:time-style".toList
  | .fmtPercentage => "number:percentage-style".toList
  | .fmtCurrency => "number:currency-style".toList
  | .fmtDateTime => "number:date-style".toList
  | _ => []

/-- The tags of the parts, src/io/write.rs:2902-2922. -/
def partTag : PartType → Str
  | .boolean => "number:boolean".toList
  | .number => "number:number".toList
  | .scientificNumber => "number:scientific-number".toList
  | .currencySymbol => "number:currency-symbol".toList
  | .day => "number:day".toList
  | .month => "number:month".toList
  | .year => "number:year".toList
  | .era => "number:era".toList
  | .dayOfWeek => "number:day-of-week".toList
  | .weekOfYear => "number:week-of-year".toList
  | .quarter => "number:quarter".toList
  | .hours => "number:hours".toList
  | .minutes => "number:minutes".toList
  | .seconds => "number:seconds".toList
  | .fraction => "number:fraction".toList
  | .amPm => "number:am-pm".toList
  | .text => "number:text".toList
  | .textContent => "number:text-content".toList
  | .fillCharacter => "number:fill-character".toList

def tEmbedded : Str := "number:embedded-text".toList
def aPosition : Str := "number:position".toList

/-- `part.content().filter(|v| !v.is_empty())`, src/io/write.rs:2928. -/
def shown (c : Option Str) : Option Str := c.filter fun s => !s.isEmpty

/-- A part, src/io/write.rs:2924-2968. -/
def writePart (p : Part) : List Call :=
  match p.type with
  | .text | .currencySymbol | .fillCharacter =>
    .elemIf (shown p.content).isSome (partTag p.type) :: escAttrs p.attr
      ++ (match shown p.content with | none => [] | some s => [.textEsc s])
      ++ [.endElemIf (shown p.content).isSome (partTag p.type)]
  | .number =>
    match p.position with
    | some pos =>
      .elem (partTag p.type) :: escAttrs p.attr
        ++ (match p.content with
            | some s => [.elem tEmbedded, .attrEsc aPosition (decInt pos), .textEsc s, .endElem tEmbedded]
            | none => [.empty tEmbedded, .attrEsc aPosition (decInt pos)])
        ++ [.endElem (partTag p.type)]
    | none => .empty (partTag p.type) :: escAttrs p.attr
  | _ => .empty (partTag p.type) :: escAttrs p.attr

/-- A style map of a format, src/io/write.rs:2971-2977. -/
def writeValueMap (sm : ValueMap) : List Call :=
  [.empty tMap, .attrEsc aCondition sm.condition, .attrEsc aApply sm.applied]

/-- `write_valuestyle` for one format, src/io/write.rs:2872-2980. -/
def writeFormat (k : Kind) (s : Style Format) : List Call :=
  .elem (formatTag k) :: .attrEsc aName s.name :: escAttrs s.body.attr
    ++ props tTextProps s.body.text
    ++ s.body.parts.flatMap writePart
    ++ (match s.body.maps with | none => [] | some l => l.flatMap writeValueMap)
    ++ [.endElem (formatTag k)]

/-! ## Page layouts and fonts -/

/-- `PageStyle` without the name, src/style/pagestyle.rs:23-32. -/
structure Page where
  usage : Option Str := none
  style : Attrs := []
  header : Attrs := []
  footer : Attrs := []
  deriving DecidableEq

def tPage : Str := "style:page-layout".toList
def aUsage : Str := "style:page-usage".toList
def tPageProps : Str := "style:page-layout-properties".toList
def tHeaderStyle : Str := "style:header-style".toList
def tFooterStyle : Str := "style:footer-style".toList
def tHFProps : Str := "style:header-footer-properties".toList

/-- `write_pagestyles` for one page layout, src/io/write.rs:2988-3021. -/
def writePage (s : Style Page) : List Call :=
  .elem tPage :: .attrEsc aName s.name
    :: ((match s.body.usage with | none => [] | some u => [.attrEsc aUsage u])
      ++ props tPageProps s.body.style
      ++ (.elem tHeaderStyle :: .empty tHFProps :: escAttrs s.body.header ++ [.endElem tHeaderStyle])
      ++ (.elem tFooterStyle :: .empty tHFProps :: escAttrs s.body.footer ++ [.endElem tFooterStyle])
      ++ [.endElem tPage])

/-- `FontFaceDecl`, src/style/fontface.rs:29-36. -/
structure Font where
  name : Str := []
  origin : Origin := .content
  attr : Attrs := []
  deriving DecidableEq

def tFonts : Str := "office:font-face-decls".toList
def tFont : Str := "style:font-face".toList

/-- One font of `write_style_font_face`, src/io/write.rs:2394-2400. -/
def writeFont (f : Font) : List Call := .empty tFont :: .attrEsc aName f.name :: escAttrs f.attr

/-! ## The sections -/

/-- The styles of a workbook. The stores have one table of counters in the code; the prefixes of the kinds
differ, so that the tables do not meet. -/
structure SBook where
  styles : Stores Body := {}
  formats : Stores Format := {}
  pages : Stores Page := {}
  fonts : HMap Str Font := []

/-- The order of the stores in `write_styles`, src/io/write.rs:2447-2486. -/
def styleKinds : List Kind := [.col, .row, .table, .cell, .paragraph, .text, .ruby, .graphic]

/-- The order of the stores in `write_valuestyles`, src/io/write.rs:2856-2862. -/
def formatKinds : List Kind :=
  [.fmtBoolean, .fmtCurrency, .fmtDateTime, .fmtNumber, .fmtPercentage, .fmtText, .fmtTimeDuration]

/-- The styles of a store with an origin and a use, e.g. src/io/write.rs:2447-2451. -/
def chosen (m : HMap Str (Style Body)) (o : Origin) (u : Use) : List (Style Body) :=
  (m.map Prod.snd).filter fun s => s.body.origin = o ∧ s.body.use = u

/-- The formats of a store with an origin and a use, src/io/write.rs:2872-2875. -/
def chosenFormats (m : HMap Str (Style Format)) (o : Origin) (u : Use) : List (Style Format) :=
  (m.map Prod.snd).filter fun s => s.body.origin = o ∧ s.body.use = u

/-- `write_styles`, src/io/write.rs:2441-2498. -/
def writeStyles (b : SBook) (o : Origin) (u : Use) : List Call :=
  styleKinds.flatMap fun k => (chosen (b.styles.store k) o u).flatMap (writeStyle k)

/-- `write_valuestyles`, src/io/write.rs:2850-2864. -/
def writeFormats (b : SBook) (o : Origin) (u : Use) : List Call :=
  formatKinds.flatMap fun k => (chosenFormats (b.formats.store k) o u).flatMap (writeFormat k)

/-- `write_pagestyles`, src/io/write.rs:2984-3024. -/
def writePages (b : SBook) : List Call := ((b.pages.store .page).map Prod.snd).flatMap writePage

def tOffice : Str := "office:styles".toList
def tAuto : Str := "office:automatic-styles".toList

/-- `write_office_font_face_decls`, src/io/write.rs:2378-2402. -/
def writeFonts (b : SBook) (o : Origin) : List Call :=
  .elemIf (!b.fonts.isEmpty) tFonts
    :: (((b.fonts.map Prod.snd).filter fun f => f.origin = o).flatMap writeFont
      ++ [.endElemIf (!b.fonts.isEmpty) tFonts])

/-- `write_office_styles`, src/io/write.rs:2404-2416. -/
def writeOffice (b : SBook) (o : Origin) : List Call :=
  .elem tOffice :: (writeStyles b o .default ++ writeStyles b o .named ++ writeFormats b o .named
    ++ writeFormats b o .default ++ [.endElem tOffice])

/-- `write_office_automatic_styles`, src/io/write.rs:2418-2429. -/
def writeAuto (b : SBook) (o : Origin) : List Call :=
  .elem tAuto :: (writePages b ++ writeStyles b o .automatic ++ writeFormats b o .automatic ++ [.endElem tAuto])

def tDocStyles : Str := "office:document-styles".toList
def tDocContent : Str := "office:document-content".toList

/-- The attributes of the element around a document. -/
def rootCalls (as : List (Bool × Str × Str)) : List Call := as.map attrCall

/-- `write_ods_styles`, src/io/write.rs:1141-1246; `as` are the namespaces and the version. Simplification: the
master pages, which come last, are left out. -/
def writeStylesFile (as : List (Bool × Str × Str)) (b : SBook) : List Call :=
  .dtd "UTF-8".toList :: .elem tDocStyles :: (rootCalls as ++ writeFonts b .styles ++ writeOffice b .styles
    ++ writeAuto b .styles ++ [.endElem tDocStyles])

/-- `write_ods_content`, src/io/write.rs:1248-1361. Simplification: the scripts before and the body after the
styles are left out. -/
def writeContentFile (as : List (Bool × Str × Str)) (b : SBook) : List Call :=
  .dtd "UTF-8".toList :: .elem tDocContent :: (rootCalls as ++ writeFonts b .content ++ writeAuto b .content
    ++ [.endElem tDocContent])

/-- `convert`, src/io/write.rs:166-215: before a flat file is written all styles and formats of the workbook
get the origin `Content`, and keep it. -/
def SBook.convert (b : SBook) : SBook :=
  { b with
    styles := ⟨b.styles.autonum, fun k =>
      (b.styles.store k).map fun e => (e.1, { e.2 with body := { e.2.body with origin := .content } })⟩
    formats := ⟨b.formats.autonum, fun k =>
      (b.formats.store k).map fun e => (e.1, { e.2 with body := { e.2.body with origin := .content } })⟩ }

def tDocFlat : Str := "office:document".toList

/-- `write_fods_content`, src/io/write.rs:217-341. Simplification: the metadata, settings and scripts before, and
the master pages and the body after the styles are left out. -/
def writeFlatContent (as : List (Bool × Str × Str)) (b : SBook) : List Call :=
  .dtd "UTF-8".toList :: .elem tDocFlat :: (rootCalls as ++ writeFonts b .content ++ writeOffice b .content
    ++ writeAuto b .content ++ [.endElem tDocFlat])

/-- `write_fods_impl`, src/io/write.rs:154-164: the text, and the workbook after it. -/
def writeFlat (as : List (Bool × Str × Str)) (b : SBook) : Str × SBook :=
  (output true (writeFlatContent as b.convert), b.convert)

end Verif.Style
