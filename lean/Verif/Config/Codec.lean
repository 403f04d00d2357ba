import Verif.Config.Tree
import Verif.Codec.Cell
import Verif.Xml.Spec

/-!
# Writing and reading the configuration (src/io/write.rs, src/io/read.rs)
-/

set_option autoImplicit false

namespace Verif.Config

open Xml Codec

/-! ## Writing -/

/-- `config:config-item` -/
def tItem : Str := "config:config-item".toList

/-- The elements of the maps, src/io/write.rs:973, 998, 1035, 1064. -/
def tagOf : Kind → Str
  | .set => "config:config-item-set".toList
  | .vec => "config:config-item-map-indexed".toList
  | .map => "config:config-item-map-named".toList
  | .entry => "config:config-item-map-entry".toList

/-- `config:name` -/
def aName : Str := "config:name".toList

/-- `config:type` -/
def aType : Str := "config:type".toList

/-- `office:settings` -/
def tSettings : Str := "office:settings".toList

/-- `office:document-settings` -/
def tDocument : Str := "office:document-settings".toList

/-- The types of values, `ConfigValueType`, src/io/read.rs:4574-4584. -/
inductive VType where
  | base64 | boolean | dateTime | double | int | long | short | string
  deriving DecidableEq

/-- The value of `config:type`, src/io/write.rs:1101-1134. -/
def VType.name : VType → Str
  | .base64 => "base64Binary".toList
  | .boolean => "boolean".toList
  | .dateTime => "datetime".toList
  | .double => "double".toList
  | .int => "int".toList
  | .long => "long".toList
  | .short => "short".toList
  | .string => "string".toList

/-- The type of a value, src/io/write.rs:1101-1134. -/
def CValue.vtype : CValue → VType
  | .base64 _ => .base64
  | .boolean _ => .boolean
  | .dateTime _ => .dateTime
  | .double _ => .double
  | .int _ => .int
  | .long _ => .long
  | .short _ => .short
  | .string _ => .string

/-- The text of a value, src/io/write.rs:1101-1134, and whether it is escaped. -/
def textOf (fl : Floats) : CValue → Bool × Str
  | .base64 s => (false, s)
  | .boolean b => (false, fmtBool b)
  | .dateTime d => (false, fmtDateTime d)
  | .double f => (false, fl.fmt f)
  | .int z => (false, decInt z)
  | .long z => (false, decInt z)
  | .short z => (false, decInt z)
  | .string s => (true, s)

/-- `is_empty`, src/io/write.rs:1091-1095. -/
def CValue.isEmpty : CValue → Bool
  | .base64 s => s.isEmpty
  | .string s => s.isEmpty
  | _ => false

/-- The call that writes a text. -/
def textCall : Bool × Str → Call
  | (true, s) => .textEsc s
  | (false, s) => .text s

/-- `write_config_item`, src/io/write.rs:1086-1137. -/
def writeValue (fl : Floats) (n : Str) (v : CValue) : List Call :=
  [.elemIf (!v.isEmpty) tItem, .attrEsc aName n, .attr aType v.vtype.name, textCall (textOf fl v),
   .endElemIf (!v.isEmpty) tItem]

/-- An item on its way to the file: its kind, and the calls that write it under a name; `none` is a
panic. -/
structure Rendered where
  ty : IType
  calls : Option Str → Option (List Call)

/-- The loop in `write_config_item_map_indexed`, src/io/write.rs:1001-1023.  The first argument bounds the
number of steps, there are no more than entries. -/
def vecLoop (n : Option Str) (rs : List (Str × Rendered)) : Nat → Nat → Option (List Call)
  | 0, _ => none
  | f + 1, i =>
    match lookup rs (decNat i) with
    | none => some []
    | some r =>
      match (match r.ty with
        | none => r.calls n
        | some .entry => r.calls none
        | _ => none) with
      | none => none
      | some c => (vecLoop n rs f (i + 1)).map (c ++ ·)

/-- The content of a set and of an entry, src/io/write.rs:976-986, 1069-1079. -/
def setLoop : List (Str × Rendered) → Option (List Call)
  | [] => some []
  | (n, r) :: rs =>
    match (if r.ty = some .entry then none else r.calls (some n)) with
    | none => none
    | some c => (setLoop rs).map (c ++ ·)

/-- The content of a map, src/io/write.rs:1038-1052. -/
def mapLoop : List (Str × Rendered) → Option (List Call)
  | [] => some []
  | (n, r) :: rs =>
    match (if r.ty = none ∨ r.ty = some .entry then r.calls (some n) else none) with
    | none => none
    | some c => (mapLoop rs).map (c ++ ·)

/-- The content of a map-like item with the name `n`. -/
def writeKids (n : Option Str) (rs : List (Str × Rendered)) : Kind → Option (List Call)
  | .set => setLoop rs
  | .entry => setLoop rs
  | .map => mapLoop rs
  | .vec => vecLoop n rs (rs.length + 1) 0

mutual
/-- `write_config_item_set`, `_map_indexed`, `_map_named`, `_map_entry`, src/io/write.rs:968-1084. -/
def render (fl : Floats) : CItem → Rendered
  | .value v => ⟨none, fun n => some (writeValue fl (n.getD []) v)⟩
  | .node k m => ⟨some k, fun n =>
      (writeKids n (renderAll fl m) k).map fun body =>
        .elem (tagOf k) :: optAttr aName n ++ body ++ [.endElem (tagOf k)]⟩
/-- The same for each entry of a map. -/
def renderAll (fl : Floats) : List (Str × CItem) → List (Str × Rendered)
  | [] => []
  | (n, x) :: m => (n, render fl x) :: renderAll fl m
end

/-- The loop of `write_office_settings`, src/io/write.rs:946-961. -/
def rootLoop : List (Str × Rendered) → Option (List Call)
  | [] => some []
  | (n, r) :: rs =>
    match (if r.ty = some .set then r.calls (some n) else none) with
    | none => none
    | some c => (rootLoop rs).map (c ++ ·)

/-- `write_office_settings`, src/io/write.rs:943-966; `none` is a panic. -/
def writeSettings (fl : Floats) (m : List (Str × CItem)) : Option (List Call) :=
  (rootLoop (renderAll fl m)).map fun body => .elem tSettings :: body ++ [.endElem tSettings]

/-- `write_ods_settings`, src/io/write.rs:912-941: the file, `atts` are the namespaces and the version. -/
def writeSettingsDoc (fl : Floats) (atts : List (Bool × Str × Str)) (m : List (Str × CItem)) : Option (List Call) :=
  (writeSettings fl m).map fun body =>
    .dtd "UTF-8".toList :: .elem tDocument :: atts.map Xml.Spec.attrCall ++ body ++ [.endElem tDocument]

/-! ## Reading -/

/-- A function of the reader that is at work: `read_office_settings`, src/io/read.rs:4267-4298;
`read_config_item_set`, `_map_indexed`, `_map_named`, `_map_entry`, 4301-4566; `read_config_item`,
4569-4698. -/
inductive Frame where
  | settings (m : List (Str × CItem))
  | node (k : Kind) (name : Option Str) (m : List (Str × CItem)) (index : Nat)
  | value (name : Str) (type : VType) (text : Str)

/-- The end tag at which it ends. -/
def Frame.tag : Frame → Str
  | .settings _ => tSettings
  | .node k _ _ _ => tagOf k
  | .value _ _ _ => tItem

/-- The reader: the elements that are open (`quick-xml` checks the names of the end tags), the functions
at work, innermost first, and the configuration of the workbook. -/
structure State where
  opened : List Str := []
  frames : List Frame := []
  config : List (Str × CItem) := []

/-- `config:name`, e.g. src/io/read.rs:4309-4318; the last one counts. -/
def readName : Option Str → List (Str × Str) → Except Fault (Option Str)
  | n, [] => .ok n
  | n, (k, v) :: as =>
    if k = aName then
      match unescape v with
      | none => .error .badAttr
      | some v => readName (some v) as
    else readName n as

/-- The types that are known, src/io/read.rs:4597-4612. -/
def findType (s : Str) : Option VType :=
  if s = "base64Binary".toList then some .base64
  else if s = "boolean".toList then some .boolean
  else if s = "datetime".toList then some .dateTime
  else if s = "double".toList then some .double
  else if s = "int".toList then some .int
  else if s = "long".toList then some .long
  else if s = "short".toList then some .short
  else if s = "string".toList then some .string
  else none

/-- `config:type`, src/io/read.rs:4596-4613; the last one counts. -/
def readType : Option VType → List (Str × Str) → Except Fault (Option VType)
  | t, [] => .ok t
  | t, (k, v) :: as =>
    if k = aType then
      match findType v with
      | some t => readType (some t) as
      | none => .error .parse
    else readType t as

/-- The value of a text, src/io/read.rs:4645-4677. -/
def parseValue (fl : Floats) (s : Str) : VType → Except Fault CValue
  | .base64 => .ok (.base64 s)
  | .boolean => orFail .parse ((parseBool s).map .boolean)
  | .dateTime => orFail .parse ((parseDateTime s).map .dateTime)
  | .double => orFail .parse ((fl.parse s).map .double)
  | .int => orFail .parse ((parseInt 32 s).map .int)
  | .long => orFail .parse ((parseInt 64 s).map .long)
  | .short => orFail .parse ((parseInt 16 s).map .short)
  | .string => .ok (.string s)

/-- What a function does at a start tag: the kind of item it reads, `none` for an element it skips. -/
inductive Opens where
  | settings
  | node (k : Kind)
  | value

/-- The start tags a function knows: src/io/read.rs:4247, 4277, 4333-4351, 4409, 4469, 4529-4550. -/
def opens (top : Option Frame) (n : Str) : Option Opens :=
  match top with
  | none => if n = tSettings then some .settings else none
  | some (.settings _) => if n = tagOf .set then some (.node .set) else none
  | some (.node .set _ _ _) | some (.node .entry _ _ _) =>
    if n = tItem then some .value
    else if n = tagOf .set then some (.node .set)
    else if n = tagOf .vec then some (.node .vec)
    else if n = tagOf .map then some (.node .map)
    else none
  | some (.node .vec _ _ _) | some (.node .map _ _ _) =>
    if n = tagOf .entry then some (.node .entry) else none
  | some (.value _ _ _) => none

/-- The call of a function: the attributes are read; only an entry needs no name, src/io/read.rs:4306-4324,
4374-4396, 4436-4458, 4504-4522, 4586-4632. -/
def openFrame (as : List (Str × Str)) : Opens → Except Fault Frame
  | .settings => .ok (.settings [])
  | .node k =>
    match readName none as with
    | .error e => .error e
    | .ok n => if k ≠ .entry ∧ n = none then .error .malformed else .ok (.node k n [] 0)
  | .value =>
    match readName none as, readType none as with
    | .ok (some n), .ok (some t) => .ok (.value n t [])
    | .error e, _ => .error e
    | _, .error e => .error e
    | _, _ => .error .malformed

/-- The item that was read is put into the map of the calling function, src/io/read.rs:4278-4279,
4335-4350, 4410-4412, 4470-4480, 4531-4549. -/
def Frame.add (n : Option Str) (x : CItem) : Frame → Except Fault Frame
  | .settings m => match n with | some n => .ok (.settings (put m n x)) | none => .error .malformed
  | .node .vec name m i => .ok (.node .vec name (put m (decNat i) x) (i + 1))
  | .node k name m i => match n with | some n => .ok (.node k name (put m n x) i) | none => .error .malformed
  | .value a b c => .ok (.value a b c)

/-- The end of a function: src/io/read.rs:4296, 4366, 4428, 4496, 4566, 4645-4677. -/
def closeFrame (fl : Floats) (f : Frame) (fs : List Frame) (config : List (Str × CItem)) :
    Except Fault (List Frame × List (Str × CItem)) :=
  match f, fs with
  | .settings m, fs => .ok (fs, m)
  | .node k n m _, g :: fs => (g.add n (.node k m)).map fun g => (g :: fs, config)
  | .value n t s, g :: fs =>
    match parseValue fl s t with
    | .error e => .error e
    | .ok v => (g.add (some n) (.value v)).map fun g => (g :: fs, config)
  | _, [] => .error .panic

/-- A piece of text, src/io/read.rs:4639-4644. -/
def State.text (st : State) (s : Str) : State :=
  match st.frames with
  | .value n t u :: fs => { st with frames := .value n t (u ++ s) :: fs }
  | _ => st

/-- One event. -/
def step (fl : Floats) (st : State) : Event → Except Fault State
  | .empty _ _ => .ok st
  | .text s => .ok (st.text s)
  | .ref n => .ok (st.text (entity n))
  | .start n as =>
    match opens st.frames.head? n with
    | none => .ok { st with opened := n :: st.opened }
    | some o => (openFrame as o).map fun f => { st with opened := n :: st.opened, frames := f :: st.frames }
  | .end n =>
    match st.opened with
    | [] => .error .mismatchedEnd
    | m :: op =>
      if m ≠ n then .error .mismatchedEnd
      else
        match st.frames with
        | [] => .ok { st with opened := op }
        | f :: fs =>
          if n = f.tag then
            (closeFrame fl f fs st.config).map fun r => ⟨op, r.1, r.2⟩
          else .ok { st with opened := op }

/-- All events. -/
def run (fl : Floats) : State → List Event → Except Fault State
  | st, [] => .ok st
  | st, e :: es =>
    match step fl st e with
    | .error x => .error x
    | .ok st => run fl st es

/-- `read_ods_settings`, src/io/read.rs:4230-4264: the configuration of a file.  Simplification: a file that
ends too early is refused here; the code takes what it has. -/
def readSettings (fl : Floats) (es : List Event) : Except Fault (List (Str × CItem)) :=
  match run fl {} es with
  | .error e => .error e
  | .ok st => if st.frames.isEmpty then .ok st.config else .error .malformed

end Verif.Config
