import Verif.Style.Model

/-!
# Styles: what is read (src/io/read.rs)

The reader is a set of loops over the events of a document, each called from the one around it.  Here it is one
function of an event and of a state: the loop the reader is in with its variables, and the workbook.
-/

set_option autoImplicit false

namespace Verif.Style

open Xml Xml.Spec Codec Book

/-- `copy_attr2`, src/io/read.rs:3614-3629. -/
def copyAttrs : Attrs → List (Str × Str) → Except Fault Attrs
  | m, [] => .ok m
  | m, (k, v) :: as =>
    match unescape v with
    | none => .error .badAttr
    | some v => copyAttrs (m ++ [(k, v)]) as

/-- The loop of `copy_style_attr`, src/io/read.rs:3596-3609. -/
def copyStyleAttrs : Attrs → Str → List (Str × Str) → Except Fault (Attrs × Str)
  | m, n, [] => .ok (m, n)
  | m, n, (k, v) :: as =>
    match unescape v with
    | none => .error .badAttr
    | some v => if k = aName then copyStyleAttrs m v as else copyStyleAttrs (m ++ [(k, v)]) n as

/-- `copy_style_attr`, src/io/read.rs:3588-3612. -/
def copyStyleAttr (as : List (Str × Str)) : Except Fault (Attrs × Str) := copyStyleAttrs [] [] as

/-- The attributes of a style map. -/
inductive MapKey where
  | condition | apply | baseCell
  deriving DecidableEq

def mapKey (k : Str) : Option MapKey :=
  if k = aCondition then some .condition
  else if k = aApply then some .apply
  else if k = aBaseCell then some .baseCell
  else none

/-- `read_stylemap`, src/io/read.rs:3564-3590. -/
def readMap (m : Refs.Ints) (sm : StyleMap) : List (Str × Str) → Except Fault StyleMap
  | [] => .ok sm
  | (k, v) :: as =>
    match mapKey k with
    | none => readMap m sm as
    | some key =>
      match unescape v with
      | none => .error .badAttr
      | some v =>
        match key with
        | .condition => readMap m { sm with condition := v } as
        | .apply => readMap m { sm with applied := v } as
        | .baseCell =>
          match Refs.parseCellRef m v with
          | .ok r => readMap m { sm with baseCell := some r } as
          | .error .panic => .error .panic
          | .error _ => .error .parse

/-- `read_value_stylemap`, src/io/read.rs:3540-3562. -/
def readValueMap (sm : ValueMap) : List (Str × Str) → Except Fault ValueMap
  | [] => .ok sm
  | (k, v) :: as =>
    match mapKey k with
    | some .condition =>
      match unescape v with
      | none => .error .badAttr
      | some v => readValueMap { sm with condition := v } as
    | some .apply =>
      match unescape v with
      | none => .error .badAttr
      | some v => readValueMap { sm with applied := v } as
    | _ => readValueMap sm as

/-- The families, src/io/read.rs:3022-3046. -/
def readFamily (v : Str) : Option Kind :=
  if v = "table".toList then some .table
  else if v = "table-column".toList then some .col
  else if v = "table-row".toList then some .row
  else if v = "table-cell".toList then some .cell
  else if v = "graphic".toList then some .graphic
  else if v = "paragraph".toList then some .paragraph
  else if v = "text".toList then some .text
  else if v = "ruby".toList then some .ruby
  else none

/-- The elements within styles. -/
inductive PropTag where
  | table | row | col | cell | para | text | ruby | graphic | map | tabStops | tabStop
  deriving DecidableEq

def propTag (n : Str) : Option PropTag :=
  if n = tTableProps then some .table
  else if n = tRowProps then some .row
  else if n = tColProps then some .col
  else if n = tCellProps then some .cell
  else if n = tParaProps then some .para
  else if n = tTextProps then some .text
  else if n = tRubyProps then some .ruby
  else if n = tGraphicProps then some .graphic
  else if n = tMap then some .map
  else if n = tTabStops then some .tabStops
  else if n = tTabStop then some .tabStop
  else none

/-- `push_stylemap`, src/style/cellstyle.rs:156-158. -/
def pushMap (b : Body) (sm : StyleMap) : Body := { b with maps := some (b.maps.getD [] ++ [sm]) }

/-- `add_tabstop`, src/style/paragraphstyle.rs:111-114. -/
def pushTab (b : Body) (ts : Attrs) : Body := { b with tabs := some (b.tabs.getD [] ++ [ts]) }

/-- A start or empty tag in the loops of `read_tablestyle`, ..., `read_graphicstyle`, src/io/read.rs:3088-3094,
3144-3152, 3201-3209, 3258-3293, 3337-3367, 3408-3412, 3458-3462, 3508-3522. -/
def readProp (m : Refs.Ints) (k : Kind) (b : Body) (n : Str) (as : List (Str × Str)) : Except Fault Body :=
  match k, propTag n with
  | .table, some .table => (copyAttrs b.main as).map fun a => { b with main := a }
  | .row, some .row => (copyAttrs b.main as).map fun a => { b with main := a }
  | .col, some .col => (copyAttrs b.main as).map fun a => { b with main := a }
  | .cell, some .cell => (copyAttrs b.main as).map fun a => { b with main := a }
  | .cell, some .text => (copyAttrs b.text as).map fun a => { b with text := a }
  | .cell, some .para => (copyAttrs b.para as).map fun a => { b with para := a }
  | .cell, some .map => (readMap m {} as).map fun sm => pushMap b sm
  | .paragraph, some .text => (copyAttrs b.text as).map fun a => { b with text := a }
  | .paragraph, some .para => (copyAttrs b.para as).map fun a => { b with para := a }
  | .paragraph, some .tabStop => (copyAttrs [] as).map fun a => pushTab b a
  | .text, some .text => (copyAttrs b.text as).map fun a => { b with text := a }
  | .ruby, some .ruby => (copyAttrs b.main as).map fun a => { b with main := a }
  | .graphic, some .graphic => (copyAttrs b.main as).map fun a => { b with main := a }
  | .graphic, some .para => (copyAttrs b.para as).map fun a => { b with para := a }
  | .graphic, some .text => (copyAttrs b.text as).map fun a => { b with text := a }
  | _, _ => .ok b

/-! ## Formats -/

/-- The tags of formats, src/io/read.rs:2472-2481, 2524-2533, 2563-2598. -/
def readFormatTag (n : Str) : Option Kind :=
  if n = "number:boolean-style".toList then some .fmtBoolean
  else if n = "number:date-style".toList then some .fmtDateTime
  else if n = "number:time-style".toList then some .fmtTimeDuration
  else if n = "number:number-style".toList then some .fmtNumber
  else if n = "number:currency-style".toList then some .fmtCurrency
  else if n = "number:percentage-style".toList then some .fmtPercentage
  else if n = "number:text-style".toList then some .fmtText
  else none

/-- The tags of parts, src/io/read.rs:2636-2851. -/
def readPartTag (n : Str) : Option PartType :=
  if n = "number:boolean".toList then some .boolean
  else if n = "number:number".toList then some .number
  else if n = "number:fraction".toList then some .fraction
  else if n = "number:scientific-number".toList then some .scientificNumber
  else if n = "number:text".toList then some .text
  else if n = "loext:text".toList then some .text
  else if n = "number:am-pm".toList then some .amPm
  else if n = "number:day".toList then some .day
  else if n = "number:day-of-week".toList then some .dayOfWeek
  else if n = "number:era".toList then some .era
  else if n = "number:hours".toList then some .hours
  else if n = "number:minutes".toList then some .minutes
  else if n = "number:month".toList then some .month
  else if n = "number:quarter".toList then some .quarter
  else if n = "number:seconds".toList then some .seconds
  else if n = "number:week-of-year".toList then some .weekOfYear
  else if n = "number:year".toList then some .year
  else if n = "number:currency-symbol".toList then some .currencySymbol
  else if n = "number:fill-character".toList then some .fillCharacter
  else if n = "loext:fill-character".toList then some .fillCharacter
  else if n = "number:text-content".toList then some .textContent
  else none

/-- Which of `read_part`, `read_part_text` and `read_part_number` reads a part, src/io/read.rs:2636-2851. -/
inductive How where
  | plain | text | number
  deriving DecidableEq

def PartType.how : PartType → How
  | .number => .number
  | .text => .text
  | .currencySymbol => .text
  | .fillCharacter => .text
  | _ => .plain

/-- `append_content`, src/format/mod.rs:406-416. -/
def Part.append (p : Part) (s : Str) : Part := { p with content := some (p.content.getD [] ++ s) }

/-- The attributes of `number:embedded-text`, src/io/read.rs:2976-2990; the value is not unescaped. -/
def readPosition (p : Part) : List (Str × Str) → Except Fault Part
  | [] => .ok p
  | (k, v) :: as =>
    if k = aPosition then
      match parseInt 32 v with
      | none => .error .parse
      | some i => readPosition { p with position := some i } as
    else readPosition p as

/-! ## The states -/

/-- The section around a style. -/
inductive Section where
  | office | auto
  deriving DecidableEq

/-- The loops. -/
inductive Mode where
  /-- `read_ods_styles`, `read_ods_content` -/
  | doc
  /-- `read_office_font_face_decls`, with the origin of the next font -/
  | fonts (next : Origin)
  /-- `read_office_styles`, `read_office_automatic_styles` -/
  | sect (s : Section)
  /-- `read_tablestyle`, ... -/
  | style (s : Section) (tag : Str) (k : Kind) (name : Str) (b : Body)
  /-- `read_value_format_parts` -/
  | format (s : Section) (tag : Str) (k : Kind) (name : Str) (f : Format)
  /-- `read_part`, `read_part_text`, `read_part_number` -/
  | part (s : Section) (tag : Str) (k : Kind) (name : Str) (f : Format) (ptag : Str) (h : How) (p : Part)
  /-- `read_page_style` -/
  | page (name : Str) (p : Page) (header footer : Bool)

/-- The state. -/
structure State where
  mode : Mode := .doc
  book : SBook := {}

/-- The call of an `add_*` function. -/
def liftAdd {β γ : Type} (r : Except NameFail (Stores β × Str)) (f : Stores β → γ) : Except Fault γ :=
  match r with
  | .ok (b, _) => .ok (f b)
  | .error _ => .error .panic

/-- `add_tablestyle`, ...: src/workbook_.rs:535-760. -/
def SBook.addStyle (b : SBook) (k : Kind) (s : Style Body) : Except Fault SBook :=
  liftAdd (b.styles.add k s) fun st => { b with styles := st }

/-- `add_boolean_format`, ...: src/workbook_.rs:792-1030. -/
def SBook.addFormat (b : SBook) (k : Kind) (s : Style Format) : Except Fault SBook :=
  liftAdd (b.formats.add k s) fun st => { b with formats := st }

/-- `add_pagestyle`. -/
def SBook.addPage (b : SBook) (s : Style Page) : Except Fault SBook :=
  liftAdd (b.pages.add .page s) fun st => { b with pages := st }

/-- `add_font`. -/
def SBook.addFont (b : SBook) (f : Font) : SBook := { b with fonts := b.fonts.insert f.name f }

/-- The use of a style in a section, src/io/read.rs:2463, 2468, 2520, and of a format, 2481, 2533. -/
def Section.use : Section → Use
  | .office => .named
  | .auto => .automatic

def Section.tag : Section → Str
  | .office => tOffice
  | .auto => tAuto

/-- `style:family` of a style; the value is not unescaped, src/io/read.rs:3020-3055. Simplification: only the
first of several such attributes is looked at. -/
def familyOf : List (Str × Str) → Option Str
  | [] => none
  | (k, v) :: as => if k = aFamily then some v else familyOf as

/-- `read_style_style`, src/io/read.rs:3012-3058, up to the first event of the loop. -/
def startStyle (o : Origin) (s : Section) (use : Use) (st : State) (n : Str) (as : List (Str × Str)) (emptyTag : Bool) :
    Except Fault State :=
  match familyOf as with
  | none => .ok st
  | some v =>
    match readFamily v with
    | none => .error .parse
    | some k =>
      match copyStyleAttr as with
      | .error e => .error e
      | .ok (a, name) =>
        let b : Body := { origin := o, use := use, attr := a }
        if emptyTag then (st.book.addStyle k ⟨name, b⟩).map fun bk => { st with book := bk }
        else .ok { st with mode := .style s n k name b }

/-- The attributes of `style:page-layout`, src/io/read.rs:1975-1989. -/
def pageAttrs : Str → Page → List (Str × Str) → Except Fault (Str × Page)
  | n, p, [] => .ok (n, p)
  | n, p, (k, v) :: as =>
    if k = aName then
      match unescape v with
      | none => .error .badAttr
      | some v => pageAttrs v p as
    else if k = aUsage then
      match unescape v with
      | none => .error .badAttr
      | some v => pageAttrs n { p with usage := some v } as
    else pageAttrs n p as

/-- The elements of a section. -/
inductive SectTag where
  | style | default | format (k : Kind) | page
  deriving DecidableEq

def sectTag (n : Str) : Option SectTag :=
  if n = tStyle then some .style
  else if n = tDefault then some .default
  else if n = tPage then some .page
  else (readFormatTag n).map .format

/-- A start or empty tag in a section, src/io/read.rs:2462-2482 (`office:styles`), 2516-2541
(`office:automatic-styles`). -/
def startInSection (o : Origin) (s : Section) (st : State) (n : Str) (as : List (Str × Str)) (emptyTag : Bool) :
    Except Fault State :=
  match sectTag n with
  | some .style => startStyle o s s.use st n as emptyTag
  | some .default =>
    match s with
    | .office => startStyle o s .default st n as emptyTag
    | .auto => .ok st
  | some (.format k) =>
    match copyStyleAttr as with
    | .error e => .error e
    | .ok (a, name) => .ok { st with mode := .format s n k name { origin := o, use := s.use, attr := a } }
  | some .page =>
    match s with
    | .office => .ok st
    | .auto =>
      match pageAttrs [] {} as with
      | .error e => .error e
      | .ok (name, p) => .ok { st with mode := .page name p false false }
  | none => .ok st

/-- A start or empty tag in a format, src/io/read.rs:2636-2862. -/
def startInFormat (s : Section) (tag : Str) (k : Kind) (name : Str) (f : Format) (st : State) (n : Str)
    (as : List (Str × Str)) (emptyTag : Bool) : Except Fault State :=
  match readPartTag n with
  | some t =>
    match copyAttrs [] as with
    | .error e => .error e
    | .ok a =>
      if emptyTag then .ok { st with mode := .format s tag k name { f with parts := f.parts ++ [{ type := t, attr := a }] } }
      else .ok { st with mode := .part s tag k name f n t.how { type := t, attr := a } }
  | none =>
    match propTag n with
    | some .map =>
      (readValueMap {} as).map fun sm =>
        { st with mode := .format s tag k name { f with maps := some (f.maps.getD [] ++ [sm]) } }
    | some .text => (copyAttrs f.text as).map fun a => { st with mode := .format s tag k name { f with text := a } }
    | _ => .ok st

/-- The elements of a page layout. -/
inductive PageTag where
  | props | header | footer | hf
  deriving DecidableEq

def pageTag (n : Str) : Option PageTag :=
  if n = tPageProps then some .props
  else if n = tHeaderStyle then some .header
  else if n = tFooterStyle then some .footer
  else if n = tHFProps then some .hf
  else none

/-- A start or empty tag in a page layout, src/io/read.rs:2001-2045. -/
def startInPage (name : Str) (p : Page) (header footer : Bool) (st : State) (n : Str) (as : List (Str × Str)) :
    Except Fault State :=
  match pageTag n with
  | some .props => (copyAttrs p.style as).map fun a => { st with mode := .page name { p with style := a } header footer }
  | some .header => .ok { st with mode := .page name p true footer }
  | some .footer => .ok { st with mode := .page name p header true }
  | some .hf =>
    match (if header then copyAttrs p.header as else .ok p.header) with
    | .error e => .error e
    | .ok h =>
      match (if footer then copyAttrs p.footer as else .ok p.footer) with
      | .error e => .error e
      | .ok f => .ok { st with mode := .page name { p with header := h, footer := f } header footer }
  | none => .ok st

/-- A font, src/io/read.rs:1939-1948. -/
def startInFonts (next : Origin) (st : State) (n : Str) (as : List (Str × Str)) : Except Fault State :=
  if n = tFont then
    match copyStyleAttr as with
    | .error e => .error e
    | .ok (a, name) => .ok { mode := .fonts .content, book := st.book.addFont ⟨name, next, a⟩ }
  else .ok st

/-- A start tag or an empty tag in any loop. Of the document only start tags matter, src/io/read.rs:756-772,
3649-3660. -/
def onTag (m : Refs.Ints) (o : Origin) (st : State) (n : Str) (as : List (Str × Str)) (emptyTag : Bool) : Except Fault State :=
  match st.mode with
  | .doc =>
    if emptyTag then .ok st
    else if n = tFonts then .ok { st with mode := .fonts o }
    else if n = tOffice then .ok { st with mode := .sect .office }
    else if n = tAuto then .ok { st with mode := .sect .auto }
    else .ok st
  | .fonts next => startInFonts next st n as
  | .sect s => startInSection o s st n as emptyTag
  | .style s tag k name b => (readProp m k b n as).map fun b => { st with mode := .style s tag k name b }
  | .format s tag k name f => startInFormat s tag k name f st n as emptyTag
  | .part s tag k name f ptag h p =>
    if h = .number ∧ n = tEmbedded then
      (readPosition p as).map fun p => { st with mode := .part s tag k name f ptag h p }
    else .ok st
  | .page name p header footer => startInPage name p header footer st n as

/-- An end tag in any loop, src/io/read.rs:1949, 2024, 2031, 2047, 2483, 2542, 2863, 2893, 2936, 2998, 3096, 3154,
3211, 3294, 3368, 3413, 3463, 3523. -/
def onEnd (st : State) (n : Str) : Except Fault State :=
  match st.mode with
  | .doc => .ok st
  | .fonts _ => if n = tFonts then .ok { st with mode := .doc } else .ok st
  | .sect s => if n = s.tag then .ok { st with mode := .doc } else .ok st
  | .style s tag k name b =>
    if n = tag then (st.book.addStyle k ⟨name, b⟩).map fun bk => ⟨.sect s, bk⟩ else .ok st
  | .format s tag k name f =>
    if n = tag then (st.book.addFormat k ⟨name, f⟩).map fun bk => ⟨.sect s, bk⟩ else .ok st
  | .part s tag k name f ptag _ p =>
    if n = ptag then .ok { st with mode := .format s tag k name { f with parts := f.parts ++ [p] } } else .ok st
  | .page name p header footer =>
    if n = tHeaderStyle then .ok { st with mode := .page name p false footer }
    else if n = tFooterStyle then .ok { st with mode := .page name p header false }
    else if n = tPage then (st.book.addPage ⟨name, p⟩).map fun bk => ⟨.sect .auto, bk⟩
    else .ok st

/-- A text, src/io/read.rs:2933-2935, 2995-2997; ignored everywhere else. -/
def onText (st : State) (s : Str) : State :=
  match st.mode with
  | .part sc tag k name f ptag .text p => { st with mode := .part sc tag k name f ptag .text (p.append s) }
  | .part sc tag k name f ptag .number p => { st with mode := .part sc tag k name f ptag .number { p with content := some s } }
  | _ => st

/-- A reference, src/io/read.rs:2930-2932; ignored everywhere else. -/
def onRef (st : State) (r : Str) : State :=
  match st.mode with
  | .part sc tag k name f ptag .text p => { st with mode := .part sc tag k name f ptag .text (p.append (entity r)) }
  | _ => st

/-- One event. -/
def step (m : Refs.Ints) (o : Origin) (st : State) : Event → Except Fault State
  | .start n as => onTag m o st n as false
  | .empty n as => onTag m o st n as true
  | .end n => onEnd st n
  | .text s => .ok (onText st s)
  | .ref r => .ok (onRef st r)

/-- All events. -/
def run (m : Refs.Ints) (o : Origin) : State → List Event → Except Fault State
  | st, [] => .ok st
  | st, e :: es =>
    match step m o st e with
    | .error e => .error e
    | .ok st => run m o st es

/-- The end of the file: the loops are left; formats and page layouts are stored after their loops,
src/io/read.rs:2566-2598, 2059, other styles only at their end tags. -/
def atEof (st : State) : Except Fault SBook :=
  match st.mode with
  | .format _ _ k name f => st.book.addFormat k ⟨name, f⟩
  | .part _ _ k name f _ _ p => st.book.addFormat k ⟨name, { f with parts := f.parts ++ [p] }⟩
  | .page name p _ _ => st.book.addPage ⟨name, p⟩
  | _ => .ok st.book

/-- `read_ods_styles` and `read_ods_content`, src/io/read.rs:3631-3673, 736-788: the styles of one file. -/
def readFile (m : Refs.Ints) (o : Origin) (b : SBook) (s : Str) : Except Fault SBook :=
  match tokenize s with
  | none => .error .malformed
  | some ts =>
    match run m o ⟨.doc, b⟩ (events ts) with
    | .error e => .error e
    | .ok st => atEof st

/-- `read_ods_impl`, src/io/read.rs:390-402: `styles.xml` and then `content.xml`. -/
def readPackage (m : Refs.Ints) (stylesXml contentXml : Str) : Except Fault SBook :=
  match readFile m .styles {} stylesXml with
  | .error e => .error e
  | .ok b => readFile m .content b contentXml

/-- `read_fods_impl`, src/io/read.rs:260-323: the styles of a flat file. -/
def readFlat (m : Refs.Ints) (xml : Str) : Except Fault SBook := readFile m .content {} xml

end Verif.Style
