import Verif.Codec.Note

/-!
# Writing and reading a cell (src/io/write.rs, src/io/read.rs)

The printing and parsing of doubles is not modelled: `Floats` stands for `f64`'s `Display` and for
`parse_f64`.
-/

set_option autoImplicit false

namespace Verif.Codec

open Xml

/-- `Display for f64` and `parse_f64`, src/io/parse.rs:168-171. -/
structure Floats where
  fmt : F64 → Str
  parse : Str → Option F64

/-- `Value::value_type`, src/value_.rs:62-74. -/
def Value.valueType : Value → ValueType
  | .empty => .empty
  | .boolean _ => .boolean
  | .number _ => .number
  | .percentage _ => .percentage
  | .currency _ _ => .currency
  | .text _ => .text
  | .textXml _ => .textXml
  | .dateTime _ => .dateTime
  | .timeDuration _ => .timeDuration

/-! ## Writing -/

/-- `str::split('\n')`: the lines of a text; there is always at least one. -/
def splitLines : Str → List Str
  | [] => [[]]
  | c :: s =>
    if c = '\n' then [] :: splitLines s
    else
      match splitLines s with
      | [] => [[c]]
      | l :: ls => (c :: l) :: ls

/-- The name of the element of a paragraph. -/
def pName : Str := "text:p".toList

/-- The calls for a paragraph with a text that is not escaped, e.g. src/io/write.rs:2199-2201. -/
def writeP (s : Str) : List Call := [.elem pName, .text s, .endElem pName]

/-- The value, src/io/write.rs:2182-2244. -/
def writeValue (fl : Floats) : Value → List Call
  | .empty => []
  | .text s =>
    .attr "office:value-type".toList "string".toList
      :: (splitLines s).map (fun l => Call.elemTextEsc pName l)
  | .textXml t =>
    .attr "office:value-type".toList "string".toList :: writeNodes t
  | .dateTime d =>
    .attr "office:value-type".toList "date".toList
      :: .attr "office:date-value".toList (fmtDateTime d) :: writeP (fmtDateTime d)
  | .timeDuration d =>
    .attr "office:value-type".toList "time".toList
      :: .attr "office:time-value".toList (fmtDuration d) :: writeP (fmtDuration d)
  | .boolean b =>
    .attr "office:value-type".toList "boolean".toList
      :: .attr "office:boolean-value".toList (fmtBool b) :: writeP (fmtBool b)
  | .currency v c =>
    [.attr "office:value-type".toList "currency".toList,
     .attrEsc "office:currency".toList c, .attr "office:value".toList (fl.fmt v),
     .elem pName, .textEsc c, .text " ".toList, .text (fl.fmt v), .endElem pName]
  | .number v =>
    .attr "office:value-type".toList "float".toList
      :: .attr "office:value".toList (fl.fmt v) :: writeP (fl.fmt v)
  | .percentage v =>
    .attr "office:value-type".toList "percentage".toList
      :: .attr "office:value".toList (fl.fmt v) :: writeP (fl.fmt v)

/-- One attribute, if there is something to write. -/
def optAttr (k : Str) : Option Str → List Call
  | none => []
  | some v => [.attrEsc k v]

/-- A number is written if it is greater than 1. -/
def optNat (k : Str) (n : Nat) : List Call := if 1 < n then [.attrEsc k (decNat n)] else []

/-- The style: that of the cell, or the default style of the value type (`book.def_style`),
src/io/write.rs:2143-2148. -/
def outStyle (defStyle : ValueType → Option String) (c : CellData) : Option String :=
  match c.style with
  | some s => some s
  | none => defStyle (Value.valueType c.value)

/-- The names of the elements, src/io/write.rs:2125-2129. -/
def cellTag (hidden : Bool) : Str :=
  if hidden then "table:covered-table-cell".toList else "table:table-cell".toList

/-- Does the cell have content? src/io/write.rs:2131. -/
def hasSubs (c : CellData) : Bool :=
  decide (c.value ≠ .empty) || (c.extra.getD {}).annotation.isSome
    || !(c.extra.getD {}).drawFrames.isEmpty

/-- The annotation and the draw frames, src/io/write.rs:2246-2254. -/
def writeNotes (c : CellData) : List Call :=
  (match (c.extra.getD {}).annotation with
    | none => []
    | some a => writeAnnotation a)
  ++ (c.extra.getD {}).drawFrames.flatMap writeFrame

/-- `write_cell`, src/io/write.rs:2117-2259. -/
def writeCell (fl : Floats) (defStyle : ValueType → Option String) (c : CellData) (hidden : Bool)
    (rep : Nat) : List Call :=
  .elemIf (hasSubs c) (cellTag hidden)
    :: optAttr "table:formula".toList c.formula
    ++ optNat "table:number-columns-repeated".toList rep
    ++ optAttr "table:style-name".toList ((outStyle defStyle c).map String.toList)
    ++ optAttr "table:content-validation-name".toList ((c.extra.bind (·.validation)).map String.toList)
    ++ optNat "table:number-rows-spanned".toList ((c.extra.map (·.span.rowSpan)).getD 1)
    ++ optNat "table:number-columns-spanned".toList ((c.extra.map (·.span.colSpan)).getD 1)
    ++ optNat "table:number-matrix-rows-spanned".toList ((c.extra.map (·.matrixSpan.rowSpan)).getD 1)
    ++ optNat "table:number-matrix-columns-spanned".toList ((c.extra.map (·.matrixSpan.colSpan)).getD 1)
    ++ writeValue fl c.value ++ writeNotes c ++ [.endElemIf (hasSubs c) (cellTag hidden)]

/-! ## Reading -/

/-- `enum TextContent`, src/io/read.rs:1274-1279. -/
inductive TextContent where
  | empty
  | text (s : Str)
  | xml (f : Frame)
  | xmlVec (l : List Node)

/-- `create_toplevel`, src/io/read.rs:4796-4804. -/
def createTop (name : Str) (raw : List (Str × Str)) (t : Option Str) : Except Fault Frame :=
  match unescapeAttrs raw with
  | none => .error .badAttr
  | some as =>
    match t with
    | none => .ok ⟨name, as, []⟩
    | some t => .ok ⟨name, as, [.text t]⟩

/-- The element that is open when a tag is found, src/io/read.rs:4814-4827, 4835-4848. -/
def parentOf (name : Str) (raw : List (Str × Str)) : TextContent → Except Fault Frame
  | .empty => createTop name raw none
  | .text t => createTop name raw (some t)
  | .xml f => .ok f
  | .xmlVec _ => .error .panic

/-- A piece of text, src/io/read.rs:4864-4903. -/
def TextContent.addPiece (v : Str) : TextContent → Except Fault TextContent
  | .empty => .ok (.text v)
  | .text t => .ok (.text (t ++ v))
  | .xml f => .ok (.xml (f.add (.text v)))
  | .xmlVec _ => .error .panic

/-- The name of the innermost open element; `quick-xml` refuses any other end tag. -/
def openName (name : Str) : TextContent → Str
  | .xml f => f.name
  | _ => name

/-- The loop of `read_text_or_tag`, src/io/read.rs:4806-4945; the stack is that of the open elements
around the current one. -/
def readTextLoop (name : Str) (raw : List (Str × Str)) :
    TextContent → List Frame → List Event → Except Fault (TextContent × List Event)
  | c, _, [] => .ok (c, [])
  | c, st, .start n as :: es =>
    match parentOf name raw c with
    | .error e => .error e
    | .ok p =>
      match unescapeAttrs as with
      | none => .error .badAttr
      | some as => readTextLoop name raw (.xml ⟨n, as, []⟩) (p :: st) es
  | c, st, .empty n as :: es =>
    match parentOf name raw c with
    | .error e => .error e
    | .ok p =>
      match unescapeAttrs as with
      | none => .error .badAttr
      | some as => readTextLoop name raw (.xml (p.add (.tag n as []))) st es
  | c, st, .ref n :: es =>
    match c.addPiece (entity n) with
    | .error e => .error e
    | .ok c => readTextLoop name raw c st es
  | c, st, .text s :: es =>
    match c.addPiece s with
    | .error e => .error e
    | .ok c => readTextLoop name raw c st es
  | c, st, .end n :: es =>
    if n ≠ openName name c then .error .mismatchedEnd
    else if n = name then
      if st.isEmpty then .ok (c, es) else .error .corrupted
    else
      match c with
      | .xml f =>
        match st with
        | p :: st => readTextLoop name raw (.xml (p.add f.node)) st es
        | [] => .error .corrupted
      | .xmlVec _ => .error .panic
      | _ => .error .corrupted

/-- `read_text_or_tag`, src/io/read.rs:4783-4950, for a start tag. -/
def readText (name : Str) (raw : List (Str × Str)) (es : List Event) :
    Except Fault (TextContent × List Event) := readTextLoop name raw .empty [] es

/-- `TextP::new().text(txt).into_xmltag()`, src/text.rs:113, src/xmltree.rs. -/
def textP (t : Str) : Node := .tag pName [] [.text t]

/-- The inner match of `append_text`, e.g. src/io/read.rs:1522-1535. -/
def pushContent (l : List Node) : TextContent → Except Fault (List Node)
  | .empty => .ok l
  | .text t => .ok (l ++ [textP t])
  | .xml f => .ok (l ++ [f.node])
  | .xmlVec _ => .error .panic

/-- `append_text`, src/io/read.rs:1512-1573. -/
def appendText (new : TextContent) : TextContent → Except Fault TextContent
  | .empty => .ok new
  | .text t => (pushContent [textP t] new).map .xmlVec
  | .xml f => (pushContent [f.node] new).map .xmlVec
  | .xmlVec l => (pushContent l new).map .xmlVec

/-- The attributes of a cell that are read, src/io/read.rs:1324-1429. -/
inductive CellKey where
  | repeated | rowsSpanned | colsSpanned | matrixRows | matrixCols | validation | valueType
  | dateValue | timeValue | value | boolValue | stringValue | currency | formula | style
  deriving DecidableEq

/-- The names of the attributes, src/io/read.rs:1326-1424; all others are skipped. -/
def cellKey (k : Str) : Option CellKey :=
  if k = "table:number-columns-repeated".toList then some .repeated
  else if k = "table:number-rows-spanned".toList then some .rowsSpanned
  else if k = "table:number-columns-spanned".toList then some .colsSpanned
  else if k = "table:number-matrix-rows-spanned".toList then some .matrixRows
  else if k = "table:number-matrix-columns-spanned".toList then some .matrixCols
  else if k = "table:content-validation-name".toList then some .validation
  else if k = "office:value-type".toList then some .valueType
  else if k = "office:date-value".toList then some .dateValue
  else if k = "office:time-value".toList then some .timeValue
  else if k = "office:value".toList then some .value
  else if k = "office:boolean-value".toList then some .boolValue
  else if k = "office:string-value".toList then some .stringValue
  else if k = "office:currency".toList then some .currency
  else if k = "table:formula".toList then some .formula
  else if k = "table:style-name".toList then some .style
  else none

/-- The value types, src/io/read.rs:1376-1390. -/
def readValueType (v : Str) : Option ValueType :=
  if v = "string".toList then some .text
  else if v = "float".toList then some .number
  else if v = "percentage".toList then some .percentage
  else if v = "date".toList then some .dateTime
  else if v = "time".toList then some .timeDuration
  else if v = "boolean".toList then some .boolean
  else if v = "currency".toList then some .currency
  else none

/-- The state of `read_table_cell`: `cell` and `repeat`, src/io/read.rs:1303-1304, and the fields of
`ReadTableCell`, src/io/read.rs:1282-1292, except for the content. -/
structure CellState where
  cell : Option CellData := none
  «repeat» : Nat := 1
  valType : ValueType := .empty
  valDateTime : Option DateTime := none
  valDuration : Option Int := none
  valFloat : Option F64 := none
  valBool : Option Bool := none
  valString : Option Str := none
  valCurrency : Option Str := none
  deriving DecidableEq

/-- `cell.get_or_insert_with(CellData::default)` with a change. -/
def CellState.update (s : CellState) (f : CellData → CellData) : CellState :=
  { s with cell := some (f (s.cell.getD {})) }

/-- The same with `.extra_mut()`, src/cell_.rs:189-194. -/
def CellState.updateExt (s : CellState) (f : CellDataExt → CellDataExt) : CellState :=
  s.update fun c => { c with extra := some (f (c.extra.getD {})) }

/-- A span: it is parsed, and stored if it is greater than 1. -/
def CellState.span (s : CellState) (v : Str) (f : Nat → CellDataExt → CellDataExt) :
    Except Fault CellState :=
  match parseU32 v with
  | none => .error .parse
  | some n => .ok (if 1 < n then s.updateExt (f n) else s)

/-- A duration as a value; a panic stays a panic. -/
def readDuration (v : Str) : Except Fault Int :=
  match parseDuration v with
  | .ok n => .ok n
  | .error .err => .error .parse
  | .error .panic => .error .panic

/-- One attribute, src/io/read.rs:1325-1428.  `v` is the text of the attribute; only the names and the
formula and the string value are unescaped. -/
def cellAttr (fl : Floats) (s : CellState) (k v : Str) : Except Fault CellState :=
  match cellKey k with
  | some .repeated => (orFail .parse (parseU32 v)).map fun n => { s with «repeat» := n }
  | some .rowsSpanned => s.span v fun n e => { e with span := { e.span with rowSpan := n } }
  | some .colsSpanned => s.span v fun n e => { e with span := { e.span with colSpan := n } }
  | some .matrixRows => s.span v fun n e => { e with matrixSpan := { e.matrixSpan with rowSpan := n } }
  | some .matrixCols => s.span v fun n e => { e with matrixSpan := { e.matrixSpan with colSpan := n } }
  | some .validation =>
    (orFail .badAttr (unescape v)).map fun n =>
      s.updateExt fun e => { e with validation := some (String.ofList n) }
  | some .valueType =>
    (orFail .parse (readValueType v)).map fun t => { s.update id with valType := t }
  | some .dateValue =>
    (orFail .parse (parseDateTime v)).map fun d => { s.update id with valDateTime := some d }
  | some .timeValue => (readDuration v).map fun d => { s.update id with valDuration := some d }
  | some .value => (orFail .parse (fl.parse v)).map fun d => { s.update id with valFloat := some d }
  | some .boolValue => (orFail .parse (parseBool v)).map fun d => { s.update id with valBool := some d }
  | some .stringValue =>
    (orFail .badAttr (unescape v)).map fun d => { s.update id with valString := some d }
  | some .currency => .ok { s.update id with valCurrency := some v }
  | some .formula =>
    (orFail .badAttr (unescape v)).map fun f => s.update fun c => { c with formula := some f }
  | some .style =>
    (orFail .badAttr (unescape v)).map fun f =>
      s.update fun c => { c with style := some (String.ofList f) }
  | none => .ok s

/-- All attributes. -/
def cellAttrs (fl : Floats) : CellState → List (Str × Str) → Except Fault CellState
  | s, [] => .ok s
  | s, (k, v) :: as =>
    match cellAttr fl s k v with
    | .error e => .error e
    | .ok s => cellAttrs fl s as

/-- The state of the loop over the content: the cell, and `tc.content`. -/
structure CellBody where
  st : CellState
  text : TextContent

/-- The elements in a cell, src/io/read.rs:1438-1460.  An empty tag is read only for a paragraph. -/
def cellChild : Child CellBody := fun b n as emptyTag es =>
  if n = pName then
    if emptyTag then (appendText (.text []) b.text).map fun c => some ({ b with text := c }, es)
    else
      match readText pName as es with
      | .error e => .error e
      | .ok (t, es) => (appendText t b.text).map fun c => some ({ b with text := c }, es)
  else if n = tAnnotation ∧ emptyTag = false then
    (readAnnotation as es).map fun x =>
      some ({ b with st := b.st.updateExt fun e => { e with annotation := some x.1 } }, x.2)
  else if n = tFrame ∧ emptyTag = false then
    (readFrame as es).map fun x =>
      some ({ b with st := b.st.updateExt fun e => { e with drawFrames := e.drawFrames ++ [x.1] } }, x.2)
  else .ok none

/-- The loop over the content, src/io/read.rs:1431-1475. -/
def cellLoop (tag : Str) (k : Nat) (b : CellBody) (names : List Str) (es : List Event) :
    Except Fault (CellBody × List Event) := subLoop tag cellChild k b names es

/-- `set_value`, src/io/read.rs:1576-1653: the value, or `none` to leave it as it is. -/
def setValue (s : CellState) (c : TextContent) : Except Fault (Option Value) :=
  match s.valType with
  | .empty => .ok none
  | .boolean => (orFail .parse s.valBool).map fun v => some (.boolean v)
  | .number => (orFail .parse s.valFloat).map fun v => some (.number v)
  | .percentage => (orFail .parse s.valFloat).map fun v => some (.percentage v)
  | .currency => (orFail .parse s.valFloat).map fun v => some (.currency v (s.valCurrency.getD []))
  | .text =>
    match s.valString with
    | some v => .ok (some (.text v))
    | none =>
      match c with
      | .empty => .ok none
      | .text t => .ok (some (.text t))
      | .xml f => .ok (some (.textXml [f.node]))
      | .xmlVec l => .ok (some (.textXml l))
  | .textXml => .error .panic
  | .dateTime => (orFail .parse s.valDateTime).map fun v => some (.dateTime v)
  | .timeDuration => (orFail .parse s.valDuration).map fun v => some (.timeDuration v)

/-- `ignore_cell`, src/io/read.rs:1498-1510. -/
def ignoreCell (ignoreEmpty : Bool) (colStyle : Option String) (c : CellData) : Bool :=
  c.isVoid colStyle || (ignoreEmpty && c.isEmpty)

/-- The end of `read_table_cell`, src/io/read.rs:1477-1494: the cell that is stored. -/
def finishCell (ignoreEmpty : Bool) (colStyle : Option String) (s : CellState) (t : TextContent) :
    Except Fault (Option CellData) :=
  match s.cell with
  | none => .ok none
  | some c =>
    match setValue s t with
    | .error e => .error e
    | .ok v =>
      let c := { c with value := v.getD c.value }
      .ok (if ignoreCell ignoreEmpty colStyle c then none else some { c with «repeat» := s.repeat })

/-- What is read for a cell: the number of columns, and the cell that is stored, if any. -/
structure CellResult where
  «repeat» : Nat
  cell : Option CellData
  deriving DecidableEq

/-- `read_table_cell`, src/io/read.rs:1294-1494. -/
def readTableCell (fl : Floats) (ignoreEmpty : Bool) (colStyle : Option String) (tag : Str)
    (as : List (Str × Str)) (emptyTag : Bool) (es : List Event) :
    Except Fault (CellResult × List Event) :=
  match cellAttrs fl {} as with
  | .error e => .error e
  | .ok s =>
    match (if emptyTag then .ok (⟨s, .empty⟩, es) else cellLoop tag (es.length + 1) ⟨s, .empty⟩ [] es) with
    | .error e => .error e
    | .ok (b, es) =>
      match finishCell ignoreEmpty colStyle b.st b.text with
      | .error e => .error e
      | .ok c => .ok (⟨b.st.repeat, c⟩, es)

/-- Reads the cell at the next event, src/io/read.rs:1070-1079. -/
def readCellNext (fl : Floats) (ignoreEmpty : Bool) (colStyle : Option String) :
    List Event → Except Fault (CellResult × List Event)
  | .start n as :: es => readTableCell fl ignoreEmpty colStyle n as false es
  | .empty n as :: es => readTableCell fl ignoreEmpty colStyle n as true es
  | _ => .error .malformed

end Verif.Codec
