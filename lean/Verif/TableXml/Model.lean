import Verif.Grid.Model
import Verif.Codec.CellItems
import Verif.Enum.Params
import Verif.Refs.Parse

/-!
# The text of a table (src/io/write.rs, src/io/read.rs)

`Verif.Grid` treats the body of a table as a list of tags with typed attributes.  Here these tags become
calls of the XML writer, and the reader works on the events of the XML reader: the attributes are parsed,
cells are read with `Verif.Codec`, and the attributes of the table itself and its foreign elements are
included.
-/

set_option autoImplicit false

namespace Verif.TableXml

open Xml Xml.Spec Codec
open Verif.Enum (visibilityText parseVisibility)

/-- The fields of `Sheet` (src/sheet_.rs:106-126) that are written with the start tag of the table, and the
foreign elements. -/
structure Head where
  name : Str := []
  style : Option Str := none
  ranges : Option (List CellRange) := none
  print : Bool := true
  display : Bool := true
  extra : List Node := []
  deriving DecidableEq

def tTable : Str := "table:table".toList
def tRow : Str := "table:table-row".toList
def tColumn : Str := "table:table-column".toList
def tRowGroup : Str := "table:table-row-group".toList
def tColGroup : Str := "table:table-column-group".toList
def tHeaderRows : Str := "table:table-header-rows".toList
def tHeaderCols : Str := "table:table-header-columns".toList

/-! ## Writing -/

/-- The foreign elements in front of the columns, src/io/write.rs:1597-1603 and src/io/read.rs:950-956. -/
def preludeNames : List Str :=
  ["table:title".toList, "table:desc".toList, "table:table-source".toList, "office:dde-source".toList,
   "table:scenario".toList, "office:forms".toList, "table:shapes".toList]

/-- The foreign elements behind the rows, src/io/write.rs:1803 and src/io/read.rs:971-972. -/
def epilogueNames : List Str := ["table:named-expressions".toList, "calcext:conditional-formats".toList]

/-- The name of an element; a text has none. -/
def nodeName : Node → Str
  | .tag n _ _ => n
  | .text _ => []

/-- An attribute whose value needs no escaping, if `b`. -/
def flagA (b : Bool) (k v : Str) : List (Bool × Str × Str) := if b then [(false, k, v)] else []

/-- The attributes of the table, src/io/write.rs:1581-1593. -/
def tableAtts (h : Head) : List (Bool × Str × Str) :=
  (true, "table:name".toList, h.name)
    :: optA "table:style-name".toList h.style
    ++ optA "table:print-ranges".toList (h.ranges.map Refs.fmtCellRanges)
    ++ flagA (!h.print) "table:print".toList "false".toList
    ++ flagA (!h.display) "table:display".toList "false".toList

/-- A number, src/io/write.rs:1870-1872 for example. -/
def numA (k : Str) (o : Option Nat) : List (Bool × Str × Str) := optA k (o.map decNat)

/-- The attributes of a row, src/io/write.rs:1867-1882 and 2021-2033.  The number is written with `attr` for
an empty row and with `attr_esc` for a row with cells, which is the same for digits. -/
def rowAtts (t : RowTag) : List (Bool × Str × Str) :=
  numA "table:number-rows-repeated".toList t.repeated
    ++ optA "table:style-name".toList (t.style.map String.toList)
    ++ optA "table:default-cell-style-name".toList (t.cellstyle.map String.toList)
    ++ optA "table:visibility".toList (t.visibility.map visibilityText)

/-- The attributes of a column, src/io/write.rs:2081-2093. -/
def colAtts (t : ColTag) : List (Bool × Str × Str) :=
  numA "table:number-columns-repeated".toList t.repeated
    ++ optA "table:style-name".toList (t.style.map String.toList)
    ++ optA "table:default-cell-style-name".toList (t.cellstyle.map String.toList)
    ++ optA "table:visibility".toList (t.visibility.map visibilityText)

/-- The attribute of a group, src/io/write.rs:1841-1843, 1984-1986, 2067-2069. -/
def groupAtts (d : Option Bool) : List (Bool × Str × Str) :=
  match d with
  | none => []
  | some b => [(false, "table:display".toList, fmtBool b)]

/-- The calls for one tag of the body, src/io/write.rs:1730-2117. -/
def tagCalls (fl : Floats) (defStyle : ValueType → Option String) : TEv → List Call
  | .groupStart d => .elem tRowGroup :: (groupAtts d).map attrCall
  | .groupEnd => [.endElem tRowGroup]
  | .headerStart => [.elem tHeaderRows]
  | .headerEnd => [.endElem tHeaderRows]
  | .rowStart t => .elem tRow :: (rowAtts t).map attrCall
  | .rowEnd => [.endElem tRow]
  | .cell covered rep none =>
    .empty (cellTag covered) :: (numA "table:number-columns-repeated".toList rep).map attrCall
  | .cell covered rep (some d) => writeCell fl defStyle d covered (rep.getD 1)
  | .colGroupStart d => .elem tColGroup :: (groupAtts d).map attrCall
  | .colGroupEnd => [.endElem tColGroup]
  | .colHeaderStart => [.elem tHeaderCols]
  | .colHeaderEnd => [.endElem tHeaderCols]
  | .column t => .empty tColumn :: (colAtts t).map attrCall

/-- `write_sheet`, src/io/write.rs:1575-1808, with the tags of the body. -/
def tableCalls (fl : Floats) (defStyle : ValueType → Option String) (h : Head) (evs : List TEv) : List Call :=
  .elem tTable :: (tableAtts h).map attrCall
    ++ (h.extra.filter (fun t => decide (nodeName t ∈ preludeNames))).flatMap writeNode
    ++ evs.flatMap (tagCalls fl defStyle)
    ++ [.endElem tTable]
    ++ (h.extra.filter (fun t => decide (nodeName t ∈ epilogueNames))).flatMap writeNode

/-! ## Reading -/

/-- `read_table_attr`, src/io/read.rs:1098-1128: one attribute. -/
def tableAttr (m : Refs.Ints) (h : Head) (k v : Str) : Except Fault Head :=
  if k = "table:name".toList then (orFail .badAttr (unescape v)).map fun n => { h with name := n }
  else if k = "table:style-name".toList then
    (orFail .badAttr (unescape v)).map fun n => { h with style := some n }
  else if k = "table:print".toList then (orFail .parse (parseBool v)).map fun b => { h with print := b }
  else if k = "table:display".toList then (orFail .parse (parseBool v)).map fun b => { h with display := b }
  else if k = "table:print-ranges".toList then
    match unescape v with
    | none => .error .badAttr
    | some v =>
      match Refs.parseCellRanges m v with
      | .ok r => .ok { h with ranges := r }
      | .error .panic => .error .panic
      | .error _ => .error .parse
  else .ok h

/-- The loop over the attributes. -/
def foldAttrs {α : Type} (f : α → Str → Str → Except Fault α) : α → List (Str × Str) → Except Fault α
  | a, [] => .ok a
  | a, (k, v) :: as =>
    match f a k v with
    | .error e => .error e
    | .ok a => foldAttrs f a as

/-- `read_table_row_attr`, src/io/read.rs:1131-1172: one attribute. -/
def rowAttr (t : RowTag) (k v : Str) : Except Fault RowTag :=
  if k = "table:number-rows-repeated".toList then
    (orFail .parse (parseU32 v)).map fun n => { t with repeated := some n }
  else if k = "table:style-name".toList then
    (orFail .badAttr (unescape v)).map fun n => { t with style := some (String.ofList n) }
  else if k = "table:default-cell-style-name".toList then
    (orFail .badAttr (unescape v)).map fun n => { t with cellstyle := some (String.ofList n) }
  else if k = "table:visibility".toList then
    (orFail .parse (parseVisibility v)).map fun n => { t with visibility := some n }
  else .ok t

/-- `read_table_col_attr`, src/io/read.rs:1230-1272: one attribute. -/
def colAttr (t : ColTag) (k v : Str) : Except Fault ColTag :=
  if k = "table:number-columns-repeated".toList then
    (orFail .parse (parseU32 v)).map fun n => { t with repeated := some n }
  else if k = "table:style-name".toList then
    (orFail .badAttr (unescape v)).map fun n => { t with style := some (String.ofList n) }
  else if k = "table:default-cell-style-name".toList then
    (orFail .badAttr (unescape v)).map fun n => { t with cellstyle := some (String.ofList n) }
  else if k = "table:visibility".toList then
    (orFail .parse (parseVisibility v)).map fun n => { t with visibility := some n }
  else .ok t

/-- `read_table_column_group_attr` and `read_table_row_group_attr`, src/io/read.rs:1175-1227: one
attribute. -/
def groupAttr (d : Option Bool) (k v : Str) : Except Fault (Option Bool) :=
  if k = "table:display".toList then (orFail .parse (parseBool v)).map some else .ok d

/-- What a start tag means, src/io/read.rs:980-1060; `none`: it is passed over. -/
def startTag (n : Str) (as : List (Str × Str)) : Except Fault (Option TEv) :=
  if n = tColGroup then (foldAttrs groupAttr none as).map fun d => some (.colGroupStart d)
  else if n = tHeaderCols then .ok (some .colHeaderStart)
  else if n = tRowGroup then (foldAttrs groupAttr none as).map fun d => some (.groupStart d)
  else if n = tHeaderRows then .ok (some .headerStart)
  else if n = tRow then (foldAttrs rowAttr {} as).map fun t => some (.rowStart t)
  else .ok none

/-- What an end tag means, src/io/read.rs:984-1072. -/
def endTag (n : Str) : Option TEv :=
  if n = tColGroup then some .colGroupEnd
  else if n = tHeaderCols then some .colHeaderEnd
  else if n = tRowGroup then some .groupEnd
  else if n = tHeaderRows then some .headerEnd
  else if n = tRow then some .rowEnd
  else none

/-- Options of the reader that matter here. -/
structure Opts where
  ignoreEmpty : Bool := false
  useRepeat : Bool := false

/-- The state of `read_table`, and the open elements inside of the table, innermost first: `quick-xml` keeps
them to check the end tags. -/
structure XSt where
  head : Head := {}
  names : List Str := []
  st : RState := {}

/-- Storing a cell that was read, src/io/read.rs:1477-1489. -/
def putCell (data : Cells) (k : Nat × Nat) : Option CellData → Cells
  | none => data
  | some c => data.insert k c

/-- A cell: `read_table_cell` and what is done with its result, src/io/read.rs:1077-1087. -/
def stepCell (fl : Floats) (o : Opts) (x : XSt) (n : Str) (as : List (Str × Str)) (emptyTag : Bool)
    (es : List Event) : Except Fault (Bool × XSt × List Event) :=
  match readTableCell fl o.ignoreEmpty (x.st.sheet.colHeader.colCellstyle x.st.col) n as emptyTag es with
  | .error e => .error e
  | .ok (r, es) =>
    .ok (false, { x with st := { x.st with
      sheet := { x.st.sheet with data := putCell x.st.sheet.data (x.st.row, x.st.col) r.cell }
      col := x.st.col + r.repeat
      colData := x.st.colData || r.cell.isSome } }, es)

/-- A foreign element, src/io/read.rs:948-976. -/
def stepExtra (x : XSt) (n : Str) (as : List (Str × Str)) (emptyTag : Bool) (es : List Event) :
    Except Fault (Bool × XSt × List Event) :=
  match readXml n as emptyTag es with
  | .error e => .error e
  | .ok (t, es) => .ok (false, { x with head := { x.head with extra := x.head.extra ++ [t] } }, es)

/-- A tag of the body: the work of `Verif.readStep`; `none` there is a panic. -/
def stepTag (x : XSt) (e : TEv) (es : List Event) : Except Fault (Bool × XSt × List Event) :=
  match readStep {} x.st e with
  | none => .error .panic
  | some st => .ok (false, { x with st := st }, es)

/-- One turn of the loop in `read_table`, src/io/read.rs:938-1093; the flag says whether the loop ends.
There is no arm for the end of the document: the reader would go on forever. -/
def xstep (fl : Floats) (o : Opts) (x : XSt) : List Event → Except Fault (Bool × XSt × List Event)
  | [] => .error .endless
  | .text _ :: es => .ok (false, x, es)
  | .ref _ :: es => .ok (false, x, es)
  | .start n as :: es =>
    if n ∈ preludeNames ∨ n ∈ epilogueNames then stepExtra x n as false es
    else if n = cellTag false ∨ n = cellTag true then stepCell fl o x n as false es
    else
      match startTag n as with
      | .error e => .error e
      | .ok none => .ok (false, { x with names := n :: x.names }, es)
      | .ok (some e) => stepTag { x with names := n :: x.names } e es
  | .empty n as :: es =>
    if n ∈ preludeNames ∨ n ∈ epilogueNames then stepExtra x n as true es
    else if n = cellTag false ∨ n = cellTag true then stepCell fl o x n as true es
    else if n = tColumn then
      match foldAttrs colAttr {} as with
      | .error e => .error e
      | .ok t => stepTag x (.column t) es
    else .ok (false, x, es)
  | .end n :: es =>
    if n ≠ x.names.headD tTable then .error .mismatchedEnd
    else if n = tTable then .ok (true, x, es)
    else
      match endTag n with
      | none => .ok (false, { x with names := x.names.tail }, es)
      | some e => stepTag { x with names := x.names.tail } e es

/-- The loop of `read_table`.  The first argument bounds the number of turns, there are no more than
events. -/
def xloop (fl : Floats) (o : Opts) : Nat → XSt → List Event → Except Fault (XSt × List Event)
  | 0, _, _ => .error .endless
  | k + 1, x, es =>
    match xstep fl o x es with
    | .error e => .error e
    | .ok (true, x, es) => .ok (x, es)
    | .ok (false, x, es) => xloop fl o k x es

/-- `calculations` for a sheet, src/io/read.rs:499-510. -/
def finish (o : Opts) (s : TSheet) : TSheet :=
  let s := { s with colHeader := s.colHeader.dedup }
  if o.useRepeat then calcRepeat s else calcCloned s

/-- `read_table`, src/io/read.rs:914-1095, at its start tag, and the calculations for the sheet. -/
def readTableXml (fl : Floats) (m : Refs.Ints) (o : Opts) : List Event →
    Except Fault ((Head × TSheet) × List Event)
  | .start _ as :: es =>
    match foldAttrs (tableAttr m) {} as with
    | .error e => .error e
    | .ok h =>
      match xloop fl o (es.length + 1) { head := h } es with
      | .error e => .error e
      | .ok (x, es) => .ok ((x.head, finish o x.st.sheet), es)
  | _ => .error .malformed

end Verif.TableXml
