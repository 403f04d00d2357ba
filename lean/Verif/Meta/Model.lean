import Verif.Enum.Params
import Verif.Codec.Cell
import Verif.Codec.Time
import Verif.Xml.Doc

/-!
# Document metadata (src/metadata.rs, and its writer and reader)
-/

set_option autoImplicit false

namespace Verif.Meta

open Xml Codec Enum

/-- `MetaTemplate`, src/metadata.rs:94-106. -/
structure Template where
  date : Option DateTime := none
  actuate : Option Actuate := none
  href : Option Str := none
  title : Option Str := none
  linkType : Option LinkType := none
  deriving DecidableEq

/-- `MetaAutoReload`, src/metadata.rs:131-142. A `Duration` is its nanoseconds. -/
structure AutoReload where
  delay : Option Int := none
  actuate : Option Actuate := none
  href : Option Str := none
  «show» : Option LinkShow := none
  linkType : Option LinkType := none
  deriving DecidableEq

/-- `MetaHyperlinkBehaviour`, src/metadata.rs:166-183. -/
structure Hyperlink where
  target : Option Str := none
  «show» : Option LinkShow := none
  deriving DecidableEq

/-- `MetaDocumentStatistics`, src/metadata.rs:194-203. The numbers are `u32`. -/
structure Statistics where
  cells : Nat := 0
  objects : Nat := 0
  oleObjects : Nat := 0
  tables : Nat := 0
  deriving DecidableEq

/-- `MetaValue`, src/metadata.rs:225-236. -/
inductive MetaValue where
  | boolean (b : Bool) | datetime (d : DateTime) | float (v : F64) | time (d : Int) | string (s : Str)
  deriving DecidableEq

/-- `MetaUserDefined`, src/metadata.rs:207-221, with the values of `default`. -/
structure UserDefined where
  name : Str := []
  value : MetaValue := .string []
  deriving DecidableEq

/-- `Metadata`, src/metadata.rs:9-69. -/
structure Metadata where
  generator : Str := []
  title : Str := []
  description : Str := []
  subject : Str := []
  keyword : Str := []
  initialCreator : Str := []
  creator : Str := []
  printedBy : Str := []
  creationDate : Option DateTime := none
  date : Option DateTime := none
  printDate : Option DateTime := none
  language : Str := []
  editingCycles : Nat := 0
  editingDuration : Int := 0
  template : Template := {}
  autoReload : AutoReload := {}
  hyperlink : Hyperlink := {}
  statistics : Statistics := {}
  userDefined : List UserDefined := []
  deriving DecidableEq

/-! ## Writing -/

/-- The name and version of the library, src/io/write.rs:547 and Cargo.toml:3. -/
def generatorName : Str := "spreadsheet-ods 1.0.4".toList

/-- `calc_metadata`, src/io/write.rs:544-556. The numbers of the cells of each sheet; `as u32` and the sum wrap (in a
debug build the sum would panic instead). -/
def calcMetadata (m : Metadata) (sheets : List Nat) : Metadata :=
  { m with
    generator := generatorName
    statistics := { m.statistics with tables := sheets.length % 4294967296, cells := sheets.sum % 4294967296 } }

/-- `elem_text_esc` for a text that is not empty, src/io/write.rs:774-794, 804-806. -/
def textDoc (tag s : Str) : List Doc := if s = [] then [] else [.short true tag s]

/-- `elem_text` for a date, src/io/write.rs:795-803. -/
def dateDoc (tag : Str) : Option DateTime → List Doc
  | none => []
  | some d => [.short false tag (fmtDateTime d)]

/-- An optional attribute, `attr` (`false`) or `attr_esc` (`true`). -/
def optAttr (esc : Bool) (k : Str) : Option Str → List (Bool × Str × Str)
  | none => []
  | some v => [(esc, k, v)]

/-- `meta:template`, src/io/write.rs:817-834. -/
def templateDoc (t : Template) : List Doc :=
  if t = {} then [] else
    [.void false "meta:template".toList
      (optAttr false "meta:date".toList (t.date.map fmtDateTime)
        ++ optAttr false "xlink:actuate".toList (t.actuate.map Actuate.text)
        ++ optAttr true "xlink:href".toList t.href
        ++ optAttr true "xlink:title".toList t.title
        ++ optAttr false "xlink:type".toList (t.linkType.map LinkType.text)) none false]

/-- `meta:auto_reload`, src/io/write.rs:836-853. -/
def reloadDoc (t : AutoReload) : List Doc :=
  if t = {} then [] else
    [.void false "meta:auto_reload".toList
      (optAttr false "meta:delay".toList (t.delay.map fmtDuration)
        ++ optAttr false "xlink:actuate".toList (t.actuate.map Actuate.text)
        ++ optAttr true "xlink:href".toList t.href
        ++ optAttr false "xlink:show".toList (t.show.map LinkShow.text)
        ++ optAttr false "xlink:type".toList (t.linkType.map LinkType.text)) none false]

/-- `meta:hyperlink-behaviour`, src/io/write.rs:855-863. -/
def hyperlinkDoc (t : Hyperlink) : List Doc :=
  if t = {} then [] else
    [.void false "meta:hyperlink-behaviour".toList
      (optAttr true "office:target-frame-name".toList t.target
        ++ optAttr false "xlink:show".toList (t.show.map LinkShow.text)) none false]

/-- `meta:document-statistic`, src/io/write.rs:865-881. -/
def statisticDoc (t : Statistics) : Doc :=
  .void false "meta:document-statistic".toList
    [(false, "meta:table-count".toList, decNat t.tables), (false, "meta:cell-count".toList, decNat t.cells),
     (false, "meta:object-count".toList, decNat t.objects), (false, "meta:ole-object-count".toList, decNat t.oleObjects)]
    none false

/-- The name of the type that is written, src/io/write.rs:886-897. -/
def MetaValue.typeName : MetaValue → Option Str
  | .boolean _ => some "boolean".toList
  | .datetime _ => some "date".toList
  | .float _ => some "float".toList
  | .time _ => some "time".toList
  | .string _ => none

/-- The text of a value, src/io/write.rs:898-904. -/
def MetaValue.text (f : Floats) : MetaValue → Str
  | .boolean b => fmtBool b
  | .datetime d => fmtDateTime d
  | .float v => f.fmt v
  | .time d => fmtDuration d
  | .string s => s

/-- Only strings are escaped, src/io/write.rs:898-904. -/
def MetaValue.escaped : MetaValue → Bool
  | .string _ => true
  | _ => false

/-- `meta:user-defined`, src/io/write.rs:883-906. The name is not escaped. -/
def userDoc (f : Floats) (u : UserDefined) : Doc :=
  .leaf false "meta:user-defined".toList
    ((false, "meta:name".toList, u.name) :: optAttr false "meta:value-type".toList u.value.typeName)
    u.value.escaped (u.value.text f)

/-- `num_seconds() > 0`, src/io/write.rs:810: a whole second. -/
def atLeastSecond (d : Int) : Bool := decide (0 < d.tdiv (10 ^ 9))

/-- The elements of `write_office_meta`, src/io/write.rs:771-908. -/
def metaDocs (f : Floats) (m : Metadata) : List Doc :=
  [.short false "meta:generator".toList m.generator]
    ++ textDoc "dc:title".toList m.title
    ++ textDoc "dc:description".toList m.description
    ++ textDoc "dc:subject".toList m.subject
    ++ textDoc "meta:keyword".toList m.keyword
    ++ textDoc "meta:initial-creator".toList m.initialCreator
    ++ textDoc "dc:creator".toList m.creator
    ++ textDoc "meta:printed-by".toList m.printedBy
    ++ dateDoc "meta:creation-date".toList m.creationDate
    ++ dateDoc "dc:date".toList m.date
    ++ dateDoc "meta:print-date".toList m.printDate
    ++ textDoc "dc:language".toList m.language
    ++ (if 0 < m.editingCycles then [.short false "meta:editing-cycles".toList (decNat m.editingCycles)] else [])
    ++ (if atLeastSecond m.editingDuration then
          [.short false "meta:editing-duration".toList (fmtDuration m.editingDuration)] else [])
    ++ templateDoc m.template
    ++ reloadDoc m.autoReload
    ++ hyperlinkDoc m.hyperlink
    ++ [statisticDoc m.statistics]
    ++ m.userDefined.map (userDoc f)

/-- `write_office_meta`, src/io/write.rs:770-910. -/
def metaDoc (f : Floats) (m : Metadata) : Doc := .elem false "office:meta".toList [] (metaDocs f m)

/-- `write_ods_metadata`, src/io/write.rs:740-768. The attributes are the namespaces and the version. -/
def writeMetaFile (as : List (Bool × Str × Str)) (f : Floats) (m : Metadata) : List Call :=
  .dtd "UTF-8".toList :: docCalls (.elem false "office:document-meta".toList as [metaDoc f m])

/-! ## Reading -/

/-- How reading fails: an error is returned, or the program panics. -/
inductive Fault where
  | err | panic
  deriving DecidableEq

/-- The elements that are read as a text. -/
inductive Field where
  | generator | title | description | subject | keyword | initialCreator | creator | printedBy
  | creationDate | date | printDate | language | editingCycles | editingDuration
  deriving DecidableEq

/-- All of them, in the order of the `match`, src/io/read.rs:3812-3935. -/
def Field.all : List Field :=
  [.generator, .title, .description, .subject, .keyword, .initialCreator, .creator, .printedBy, .creationDate, .date,
   .printDate, .language, .editingCycles, .editingDuration]

/-- The names of the elements, src/io/read.rs:3812-3935. -/
def Field.tag : Field → Str
  | .generator => "meta:generator".toList
  | .title => "dc:title".toList
  | .description => "dc:description".toList
  | .subject => "dc:subject".toList
  | .keyword => "meta:keyword".toList
  | .initialCreator => "meta:initial-creator".toList
  | .creator => "dc:creator".toList
  | .printedBy => "meta:printed-by".toList
  | .creationDate => "meta:creation-date".toList
  | .date => "dc:date".toList
  | .printDate => "meta:print-date".toList
  | .language => "dc:language".toList
  | .editingCycles => "meta:editing-cycles".toList
  | .editingDuration => "meta:editing-duration".toList

/-- The field of an element. -/
def fieldOf (n : Str) : Option Field := Field.all.find? (fun k => k.tag = n)

/-- `parse_datetime` with its error. -/
def dateOf (s : Str) : Except Fault DateTime :=
  match parseDateTime s with
  | some d => .ok d
  | none => .error .err

/-- `parse_duration` with its error. -/
def durationOf (s : Str) : Except Fault Int :=
  match parseDuration s with
  | .ok d => .ok d
  | .error .err => .error .err
  | .error .panic => .error .panic

/-- The end of `read_metadata_value`, src/io/read.rs:4223-4227: an empty text gives the default. -/
def orEmpty {α : Type} (parse : Str → Except Fault α) (dflt : α) (s : Str) : Except Fault α :=
  if s = [] then .ok dflt else parse s

/-- An optional date. -/
def optDate (s : Str) : Except Fault (Option DateTime) := orEmpty (fun s => (dateOf s).map some) none s

/-- The assignment of a text to its field, src/io/read.rs:3812-3935. -/
def Field.set (m : Metadata) (s : Str) : Field → Except Fault Metadata
  | .generator => .ok { m with generator := s }
  | .title => .ok { m with title := s }
  | .description => .ok { m with description := s }
  | .subject => .ok { m with subject := s }
  | .keyword => .ok { m with keyword := s }
  | .initialCreator => .ok { m with initialCreator := s }
  | .creator => .ok { m with creator := s }
  | .printedBy => .ok { m with printedBy := s }
  | .creationDate => (optDate s).map fun d => { m with creationDate := d }
  | .date => (optDate s).map fun d => { m with date := d }
  | .printDate => (optDate s).map fun d => { m with printDate := d }
  | .language => .ok { m with language := s }
  | .editingCycles =>
    (orEmpty (fun s => match parseU32 s with | some n => .ok n | none => .error .err) 0 s).map fun n =>
      { m with editingCycles := n }
  | .editingDuration => (orEmpty durationOf 0 s).map fun n => { m with editingDuration := n }

/-- `decode_and_unescape_value` and a parser. -/
def attrOf {α : Type} (parse : Str → Option α) (v : Str) : Except Fault α :=
  match unescape v with
  | none => .error .err
  | some s =>
    match parse s with
    | none => .error .err
    | some a => .ok a

/-- `decode_and_unescape_value` and `parse_duration`. -/
def attrDuration (v : Str) : Except Fault Int :=
  match unescape v with
  | none => .error .err
  | some s => durationOf s

/-- `read_metadata_template`, src/io/read.rs:3976-4012. -/
def readTemplate : Template → List (Str × Str) → Except Fault Template
  | t, [] => .ok t
  | t, (k, v) :: as => do
    let t ←
      if k = "meta:date".toList then (attrOf parseDateTime v).map fun d => { t with date := some d }
      else if k = "xlink:actuate".toList then (attrOf Actuate.parse v).map fun d => { t with actuate := some d }
      else if k = "xlink:href".toList then (attrOf some v).map fun d => { t with href := some d }
      else if k = "xlink:title".toList then (attrOf some v).map fun d => { t with title := some d }
      else if k = "xlink:type".toList then (attrOf LinkType.parse v).map fun d => { t with linkType := some d }
      else pure t
    readTemplate t as

/-- `read_metadata_auto_reload`, src/io/read.rs:4014-4052. -/
def readReload : AutoReload → List (Str × Str) → Except Fault AutoReload
  | t, [] => .ok t
  | t, (k, v) :: as => do
    let t ←
      if k = "meta:delay".toList then (attrDuration v).map fun d => { t with delay := some d }
      else if k = "xlink:actuate".toList then (attrOf Actuate.parse v).map fun d => { t with actuate := some d }
      else if k = "xlink:href".toList then (attrOf some v).map fun d => { t with href := some d }
      else if k = "xlink:show".toList then (attrOf LinkShow.parse v).map fun d => { t with «show» := some d }
      else if k = "xlink:type".toList then (attrOf LinkType.parse v).map fun d => { t with linkType := some d }
      else pure t
    readReload t as

/-- `read_metadata_hyperlink_behaviour`, src/io/read.rs:4054-4082. -/
def readHyperlink : Hyperlink → List (Str × Str) → Except Fault Hyperlink
  | t, [] => .ok t
  | t, (k, v) :: as => do
    let t ←
      if k = "office:targetframe-name".toList then (attrOf some v).map fun d => { t with target := some d }
      else if k = "xlink:show".toList then (attrOf LinkShow.parse v).map fun d => { t with «show» := some d }
      else pure t
    readHyperlink t as

/-- `read_metadata_document_statistics`, src/io/read.rs:4084-4119. -/
def readStatistics : Statistics → List (Str × Str) → Except Fault Statistics
  | t, [] => .ok t
  | t, (k, v) :: as => do
    let t ←
      if k = "meta:cell-count".toList then (attrOf parseU32 v).map fun d => { t with cells := d }
      else if k = "meta:object-count".toList then (attrOf parseU32 v).map fun d => { t with objects := d }
      else if k = "meta:ole-object-count".toList then (attrOf parseU32 v).map fun d => { t with oleObjects := d }
      else if k = "meta:table-count".toList then (attrOf parseU32 v).map fun d => { t with tables := d }
      else pure t
    readStatistics t as

/-- The types of user-defined values. -/
inductive UType where
  | boolean | date | float | time | string
  deriving DecidableEq

/-- The name of a type, src/io/read.rs:4134-4142. -/
def UType.of (s : Str) : UType :=
  if s = "boolean".toList then .boolean
  else if s = "date".toList then .date
  else if s = "float".toList then .float
  else if s = "time".toList then .time
  else .string

/-- The attributes of `read_metadata_user_defined`, src/io/read.rs:4121-4148. No type is the type of strings. -/
def readUser : UserDefined × UType → List (Str × Str) → Except Fault (UserDefined × UType)
  | t, [] => .ok t
  | t, (k, v) :: as => do
    let t ←
      if k = "meta:name".toList then (attrOf some v).map fun d => ({ t.1 with name := d }, t.2)
      else if k = "meta:value-type".toList then (attrOf some v).map fun d => (t.1, UType.of d)
      else pure t
    readUser t as

/-- The value of a text, src/io/read.rs:4162-4168. -/
def userValue (f : Floats) (s : Str) : UType → Except Fault MetaValue
  | .boolean => match parseBool s with | some b => .ok (.boolean b) | none => .error .err
  | .date => (dateOf s).map .datetime
  | .float => match f.parse s with | some v => .ok (.float v) | none => .error .err
  | .time => (durationOf s).map .time
  | .string => .ok (.string s)

/-- The function the reader is in. -/
inductive Mode where
  /-- `read_ods_metadata`, `read_fods_impl` -/
  | file
  /-- `read_office_meta` -/
  | office
  /-- `read_metadata_value`, and the text so far -/
  | value (k : Field) (s : Str)
  /-- `read_metadata_user_defined` -/
  | user (u : UserDefined) (ty : UType)

/-- The reader. -/
structure St where
  mode : Mode
  m : Metadata

/-- One event.

* `read_ods_metadata`, src/io/read.rs:3765-3799. Simplification: the attributes of `office:document-meta` are not read here.
* `read_office_meta`, src/io/read.rs:3801-3974
* `read_metadata_value`, src/io/read.rs:4186-4228
* `read_metadata_user_defined`, src/io/read.rs:4150-4183 -/
def step (f : Floats) (st : St) (e : Event) : Except Fault St :=
  match st.mode with
  | .file =>
    match e with
    | .start n _ => if n = "office:meta".toList then .ok ⟨.office, st.m⟩ else .ok st
    | _ => .ok st
  | .office =>
    match e with
    | .end n => if n = "office:meta".toList then .ok ⟨.file, st.m⟩ else .ok st
    | .start n as =>
      match fieldOf n with
      | some k => .ok ⟨.value k [], st.m⟩
      | none =>
        if n = "meta:template".toList then (readTemplate {} as).map fun t => ⟨.office, { st.m with template := t }⟩
        else if n = "meta:auto-reload".toList then (readReload {} as).map fun t => ⟨.office, { st.m with autoReload := t }⟩
        else if n = "meta:hyperlink-behaviour".toList then
          (readHyperlink {} as).map fun t => ⟨.office, { st.m with hyperlink := t }⟩
        else if n = "meta:document-statistic".toList then
          (readStatistics {} as).map fun t => ⟨.office, { st.m with statistics := t }⟩
        else if n = "meta:user-defined".toList then (readUser ({}, .string) as).map fun t => ⟨.user t.1 t.2, st.m⟩
        else .ok st
    | _ => .ok st
  | .value k s =>
    match e with
    | .end n => if n = k.tag then (k.set st.m s).map fun m => ⟨.office, m⟩ else .ok st
    | .ref n => .ok ⟨.value k (s ++ entity n), st.m⟩
    | .text t => .ok ⟨.value k (s ++ t), st.m⟩
    | _ => .ok st
  | .user u ty =>
    match e with
    | .end n =>
      if n = "meta:user-defined".toList then .ok ⟨.office, { st.m with userDefined := st.m.userDefined ++ [u] }⟩
      else .ok st
    | .text t => (userValue f t ty).map fun v => ⟨.user { u with value := v } ty, st.m⟩
    | _ => .ok st

/-- All events. -/
def run (f : Floats) : St → List Event → Except Fault St
  | st, [] => .ok st
  | st, e :: es =>
    match step f st e with
    | .error x => .error x
    | .ok st => run f st es

/-- The end of the file, src/io/read.rs:3961-3963, 4170-4172, 4211-4213: the loops end, with the value they have. -/
def atEof (st : St) : Except Fault Metadata :=
  match st.mode with
  | .file => .ok st.m
  | .office => .ok st.m
  | .value k s => k.set st.m s
  | .user u _ => .ok { st.m with userDefined := st.m.userDefined ++ [u] }

/-- The metadata of a file. -/
def readMeta (f : Floats) (s : Str) : Except Fault Metadata :=
  match tokenize s with
  | none => .error .err
  | some ts =>
    match run f ⟨.file, {}⟩ (events ts) with
    | .error e => .error e
    | .ok st => atEof st

end Verif.Meta
