import Verif.Book.Names
import Verif.Codec.Cell
import Verif.Refs.Parse

/-!
# Content validations (src/validation.rs, and their writer and reader)
-/

set_option autoImplicit false

namespace Verif.Valid

open Xml Codec Book

/-- `ValidationDisplay`, src/validation.rs:17-27. -/
inductive Display where
  | noDisplay | unsorted | sortAscending
  deriving DecidableEq

/-- The texts that are written, src/io/write.rs:1433-1437. -/
def Display.text : Display → Str
  | .noDisplay => "no".toList
  | .unsorted => "unsorted".toList
  | .sortAscending => "sort-ascending".toList

/-- `TryFrom<&[u8]>`, src/validation.rs:44-58. -/
def Display.parse (s : Str) : Option Display :=
  if s = "unsorted".toList then some .unsorted
  else if s = "sort-ascending".toList then some .sortAscending
  else if s = "none".toList then some .noDisplay
  else none

/-- `MessageType`, src/validation.rs:117-125. -/
inductive MessageType where
  | error | warning | info
  deriving DecidableEq

/-- `Display` for `MessageType`, src/validation.rs:132-140. -/
def MessageType.text : MessageType → Str
  | .error => "stop".toList
  | .warning => "warning".toList
  | .info => "information".toList

/-- The texts that are read, src/io/read.rs:2173-2183. -/
def MessageType.parse (s : Str) : Option MessageType :=
  if s = "stop".toList then some .error
  else if s = "warning".toList then some .warning
  else if s = "information".toList then some .info
  else none

/-- `ValidationError`, src/validation.rs:144-149, with the values of `new`, 159-166. `TextTag` is an element. -/
structure VError where
  display : Bool := true
  msgType : MessageType := .error
  title : Option Str := none
  text : Option Frame := none

/-- `ValidationHelp`, src/validation.rs:61-66, with the values of `new`, 76-82. -/
structure VHelp where
  display : Bool := true
  title : Option Str := none
  text : Option Frame := none

/-- `Validation`, src/validation.rs:214-223, without the name, and with the values of `new`, 232-247. -/
structure Body where
  condition : Str := []
  baseCell : CellRef := { row := { row := 0 }, col := { col := 0 } }
  allowEmpty : Bool := true
  displayList : Display := .unsorted
  err : Option VError := some {}
  help : Option VHelp := none

/-- A validation: the name is apart, as in the stores. -/
abbrev Validation := Style Body

/-- `Validation::new`, src/validation.rs:232-247. -/
def Validation.new : Validation := ⟨[], {}⟩

def tAll : Str := "table:content-validations".toList
def tOne : Str := "table:content-validation".toList
def tErr : Str := "table:error-message".toList
def tHelp : Str := "table:help-message".toList
def aName : Str := "table:name".toList
def aCond : Str := "table:condition".toList
def aEmpty : Str := "table:allow-empty-cell".toList
def aList : Str := "table:display-list".toList
def aBase : Str := "table:base-cell-address".toList
def aDisplay : Str := "table:display".toList
def aType : Str := "table:message-type".toList
def aTitle : Str := "table:title".toList

/-- `if let Some(title) = err.title() { .. }`, src/io/write.rs:1445-1447. -/
def titleCalls : Option Str → List Call
  | none => []
  | some t => [.attrEsc aTitle t]

/-- `if let Some(text) = err.text() { write_xmltag(text, xml_out)?; }`, src/io/write.rs:1448-1450. -/
def textCalls : Option Frame → List Call
  | none => []
  | some f => writeNode f.node

/-- The error message, src/io/write.rs:1442-1451. -/
def writeError (e : VError) : List Call :=
  .elemIf e.text.isSome tErr :: .attr aDisplay (fmtBool e.display) :: .attr aType e.msgType.text
    :: (titleCalls e.title ++ (textCalls e.text ++ [.endElemIf e.text.isSome tErr]))

/-- The help message, src/io/write.rs:1453-1463. -/
def writeHelp (e : VHelp) : List Call :=
  .elemIf e.text.isSome tHelp :: .attr aDisplay (fmtBool e.display)
    :: (titleCalls e.title ++ (textCalls e.text ++ [.endElemIf e.text.isSome tHelp]))

/-- `format_validation_condition`, src/io/format.rs:24-34. -/
def condText (c : Str) : Str := "of:".toList ++ c

/-- One validation, src/io/write.rs:1422-1466. -/
def writeOne (v : Validation) : List Call :=
  [.elem tOne, .attrEsc aName v.name, .attrEsc aCond (condText v.body.condition),
    .attr aEmpty (fmtBool v.body.allowEmpty), .attr aList v.body.displayList.text,
    .attrEsc aBase (Refs.fmtCellRef v.body.baseCell)]
  ++ ((match v.body.err with | none => [] | some e => writeError e)
  ++ ((match v.body.help with | none => [] | some e => writeHelp e) ++ [.endElem tOne]))

/-- `write_content_validations`, src/io/write.rs:1414-1471. The validations are in a `HashMap`: the order of
the list is any. -/
def writeAll (vs : List Validation) : List Call :=
  if vs.isEmpty then [] else .elem tAll :: (vs.flatMap writeOne ++ [.endElem tAll])

/-! ## Reading -/

/-- `v.split_at(3).1`, src/io/read.rs:2228: `none` if the text is too short or if there is no boundary of
characters after three bytes, a panic. -/
def splitBytes : Str → Nat → Option Str
  | [], n => if n = 0 then some [] else none
  | c :: s, n => if n = 0 then some (c :: s) else if c.utf8Size ≤ n then splitBytes s (n - c.utf8Size) else none

/-- The attributes of a validation, src/io/read.rs:2222, 2225, 2230, 2233, 2237. -/
inductive VKey where
  | name | condition | allowEmpty | baseCell | displayList
  deriving DecidableEq

def vKey (k : Str) : Option VKey :=
  if k = aName then some .name
  else if k = aCond then some .condition
  else if k = aEmpty then some .allowEmpty
  else if k = aBase then some .baseCell
  else if k = aList then some .displayList
  else none

/-- One attribute, src/io/read.rs:2221-2243. -/
def readAttr (m : Refs.Ints) (v : Validation) (k raw : Str) : Except Fault Validation :=
  match vKey k with
  | some .name =>
    match unescape raw with
    | none => .error .badAttr
    | some s => .ok { v with name := s }
  | some .condition =>
    match unescape raw with
    | none => .error .badAttr
    | some s =>
      match splitBytes s 3 with
      | none => .error .panic
      | some c => .ok { v with body := { v.body with condition := c } }
  | some .allowEmpty =>
    match parseBool raw with
    | none => .error .parse
    | some b => .ok { v with body := { v.body with allowEmpty := b } }
  | some .baseCell =>
    match unescape raw with
    | none => .error .badAttr
    | some s =>
      match Refs.parseCellRef m s with
      | .error .panic => .error .panic
      | .error _ => .error .parse
      | .ok r => .ok { v with body := { v.body with baseCell := r } }
  | some .displayList =>
    match Display.parse raw with
    | none => .error .parse
    | some d => .ok { v with body := { v.body with displayList := d } }
  | none => .ok v

/-- `read_validation`, src/io/read.rs:2215-2246. -/
def readAttrs (m : Refs.Ints) : Validation → List (Str × Str) → Except Fault Validation
  | v, [] => .ok v
  | v, (k, raw) :: as =>
    match readAttr m v k raw with
    | .error e => .error e
    | .ok v => readAttrs m v as

/-- The attributes of messages, src/io/read.rs:2169, 2172, 2186, and 2127, 2130. -/
inductive MKey where
  | display | msgType | title
  deriving DecidableEq

def mKey (k : Str) : Option MKey :=
  if k = aDisplay then some .display
  else if k = aType then some .msgType
  else if k = aTitle then some .title
  else none

/-- The attributes of an error message, src/io/read.rs:2167-2195. -/
def errAttrs : VError → List (Str × Str) → Except Fault VError
  | e, [] => .ok e
  | e, (k, raw) :: as =>
    match mKey k with
    | some .display =>
      match parseBool raw with
      | none => .error .parse
      | some b => errAttrs { e with display := b } as
    | some .msgType =>
      match MessageType.parse raw with
      | none => .error .parse
      | some t => errAttrs { e with msgType := t } as
    | some .title =>
      match unescape raw with
      | none => .error .badAttr
      | some t => errAttrs { e with title := some t } as
    | none => errAttrs e as

/-- The attributes of a help message, src/io/read.rs:2125-2139. -/
def helpAttrs : VHelp → List (Str × Str) → Except Fault VHelp
  | e, [] => .ok e
  | e, (k, raw) :: as =>
    match mKey k with
    | some .display =>
      match parseBool raw with
      | none => .error .parse
      | some b => helpAttrs { e with display := b } as
    | some .title =>
      match unescape raw with
      | none => .error .badAttr
      | some t => helpAttrs { e with title := some t } as
    | _ => helpAttrs e as

/-- The text of a message, src/io/read.rs:2196-2208 and 2140-2152: only an element is accepted. -/
def msgText (n : Str) (as : List (Str × Str)) (emptyTag : Bool) (es : List Event) :
    Except Fault (Option Frame × List Event) :=
  if emptyTag then .ok (none, es)
  else
    match readText n as es with
    | .error e => .error e
    | .ok (.empty, es) => .ok (none, es)
    | .ok (.xml f, es) => .ok (some f, es)
    | .ok (_, _) => .error .corrupted

/-- `read_validation_error`, src/io/read.rs:2158-2213. -/
def readError (v : Validation) (as : List (Str × Str)) (emptyTag : Bool) (es : List Event) :
    Except Fault (Validation × List Event) :=
  match errAttrs {} as with
  | .error e => .error e
  | .ok e =>
    match msgText tErr as emptyTag es with
    | .error e => .error e
    | .ok (none, es) => .ok ({ v with body := { v.body with err := some e } }, es)
    | .ok (some f, es) => .ok ({ v with body := { v.body with err := some { e with text := some f } } }, es)

/-- `read_validation_help`, src/io/read.rs:2116-2156. -/
def readHelp (v : Validation) (as : List (Str × Str)) (emptyTag : Bool) (es : List Event) :
    Except Fault (Validation × List Event) :=
  match helpAttrs {} as with
  | .error e => .error e
  | .ok e =>
    match msgText tHelp as emptyTag es with
    | .error e => .error e
    | .ok (none, es) => .ok ({ v with body := { v.body with help := some e } }, es)
    | .ok (some f, es) => .ok ({ v with body := { v.body with help := some { e with text := some f } } }, es)

/-- `add_validation`, src/workbook_.rs:1112-1123; the reference is not used. -/
def addValid (b : Stores Body) (v : Validation) : Except Fault (Stores Body) :=
  match b.add .validation v with
  | .ok (b, _) => .ok b
  | .error _ => .error .panic

/-- The loop of `read_validations`, src/io/read.rs:2068-2110, with enough fuel. The second arm for the start
tag (line 2080) is never reached: the validation is stored when its start tag is read. -/
def readLoop (m : Refs.Ints) : Nat → Validation → Stores Body → List Event → Except Fault (Stores Body × List Event)
  | 0, _, _, _ => .error .panic
  | _ + 1, _, b, [] => .ok (b, [])
  | k + 1, v, b, .start n as :: es =>
    if n = tOne then
      match readAttrs m v as with
      | .error e => .error e
      | .ok v =>
        match addValid b v with
        | .error e => .error e
        | .ok b => readLoop m k Validation.new b es
    else if n = tErr then
      match readError v as false es with
      | .error e => .error e
      | .ok (v, es) => readLoop m k v b es
    else if n = tHelp then
      match readHelp v as false es with
      | .error e => .error e
      | .ok (v, es) => readLoop m k v b es
    else readLoop m k v b es
  | k + 1, v, b, .empty n as :: es =>
    if n = tErr then
      match readError v as true es with
      | .error e => .error e
      | .ok (v, es) => readLoop m k v b es
    else if n = tHelp then
      match readHelp v as true es with
      | .error e => .error e
      | .ok (v, es) => readLoop m k v b es
    else readLoop m k v b es
  | k + 1, v, b, .end n :: es =>
    if n = tOne then
      match addValid b v with
      | .error e => .error e
      | .ok b => readLoop m k Validation.new b es
    else if n = tAll then .ok (b, es)
    else readLoop m k v b es
  | k + 1, v, b, _ :: es => readLoop m k v b es

/-- `read_validations`, src/io/read.rs:2064-2114, after its start tag. -/
def readValidations (m : Refs.Ints) (b : Stores Body) (es : List Event) : Except Fault (Stores Body × List Event) :=
  readLoop m (es.length + 1) Validation.new b es

end Verif.Valid
