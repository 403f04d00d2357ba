import Verif.Ns.Model
import Verif.Script.Model
import Verif.Style.Read
import Verif.Master.Model
import Verif.TableXml.Body
import Verif.Meta.Model
import Verif.Config.Codec

/-!
# Whole files (src/io/write.rs, src/io/read.rs)

The parts of a workbook are modelled one by one elsewhere.  Here they stand together in the files of a package, and in
a flat file: one loop per file, which hands each section to its reader.
-/

set_option autoImplicit false

namespace Verif.Whole

open Xml Codec
open Verif.Book (Stores HMap)
open Verif.Ns (Part NsBook)

/-- A workbook as the writer sees it.  What is in a `HashMap` is a list here, in the order in which the map is gone
through: namespaces, styles, master pages, listeners, validations. -/
structure Source where
  ns : NsBook := {}
  metadata : Meta.Metadata := {}
  config : List (Str × Config.CItem) := []
  scripts : List Script.Script := []
  listeners : List Script.Listener := []
  styles : Style.SBook := {}
  masters : List (Book.Style Master.Master) := []
  extra : List Node := []
  validations : List Valid.Validation := []
  sheets : List (TableXml.Head × TSheet) := []

/-- A workbook as the reader fills it. -/
structure Target where
  ns : NsBook := {}
  metadata : Meta.Metadata := {}
  config : List (Str × Config.CItem) := []
  scripts : Script.Scripts := {}
  styles : Style.SBook := {}
  masters : Stores Master.Master := {}
  body : TableXml.BookBody := {}

/-! ## Writing -/

/-- The parts that are written: the styles as a package needs them, and the calls of the sections that can fail. -/
structure Parts where
  src : Source
  /-- The configuration, `write_office_settings`. -/
  settings : List Call
  /-- The sheets, `write_sheet`. -/
  tables : List (TableXml.Head × List TEv)

/-- What stands in the root element of a file.

* `write_ods_metadata`, src/io/write.rs:739-771
* `write_ods_settings`, src/io/write.rs:911-942
* `write_ods_styles`, src/io/write.rs:1141-1246
* `write_ods_content`, src/io/write.rs:1248-1361
* `write_fods_content`, src/io/write.rs:217-340 -/
def inner (fl : Floats) (defStyle : ValueType → Option String) (w : Parts) : Part → List Call
  | .metadata => docCalls (Meta.metaDoc fl w.src.metadata)
  | .settings => w.settings
  | .styles =>
    Style.writeFonts w.src.styles .styles ++ (Style.writeOffice w.src.styles .styles
      ++ (Style.writeAuto w.src.styles .styles ++ Master.writeMasters w.src.masters))
  | .content =>
    Script.writeOffice w.src.scripts w.src.listeners ++ (Style.writeFonts w.src.styles .content
      ++ (Style.writeAuto w.src.styles .content
        ++ TableXml.bodyCalls fl defStyle w.src.extra w.src.validations w.tables))
  | .flat =>
    docCalls (Meta.metaDoc fl w.src.metadata) ++ (w.settings
      ++ (Script.writeOffice w.src.scripts w.src.listeners ++ (Style.writeFonts w.src.styles .content
        ++ (Style.writeOffice w.src.styles .content ++ (Style.writeAuto w.src.styles .content
          ++ (Master.writeMasters w.src.masters
            ++ TableXml.bodyCalls fl defStyle w.src.extra w.src.validations w.tables))))))

/-- The text of a file: the declaration, the root element with its namespaces, what stands in it. -/
def fileText (fl : Floats) (defStyle : ValueType → Option String) (lb : Bool) (w : Parts) (p : Part) : Str :=
  output lb (.dtd "UTF-8".toList :: ((Ns.writeRoot p w.src.ns).2 ++ (inner fl defStyle w p ++ [.endElem p.root])))

/-- `calculations`, src/io/write.rs:418-427.  Simplification: of the five steps only `calc_metadata` is here; what
`calc_config` does is in `Verif/Config/View.lean` and `Verif/Width`, and the preparation of the headers is part of
`TableXml.writeSheets`. -/
def Source.calc (s : Source) : Source :=
  { s with metadata := Meta.calcMetadata s.metadata (s.sheets.map fun p => p.2.data.length) }

/-- `sanity_checks`, src/io/write.rs:410-415, then `calculations`; the sections that can fail are written first. -/
def parts (fl : Floats) (s : Source) : Option Parts :=
  if s.sheets.isEmpty then none
  else
    match Config.writeSettings fl s.config, TableXml.writeSheets s.sheets with
    | some c, .ok t => some ⟨s.calc, c, t⟩
    | _, _ => none

/-- The files of a package. -/
structure Package where
  metaXml : Str
  settingsXml : Str
  stylesXml : Str
  contentXml : Str

/-- `write_ods_impl`, src/io/write.rs:345-404: the four files.  Simplification: the namespaces of each file are added
to the workbook as they are written; each file has its own, so that the files are independent. -/
def writePackage (fl : Floats) (defStyle : ValueType → Option String) (s : Source) : Option Package :=
  (parts fl s).map fun w => ⟨fileText fl defStyle false w .metadata, fileText fl defStyle false w .settings,
    fileText fl defStyle false w .styles, fileText fl defStyle false w .content⟩

/-- `write_fods_impl`, src/io/write.rs:154-164. -/
def writeFlat (fl : Floats) (defStyle : ValueType → Option String) (s : Source) : Option Str :=
  (parts fl { s with styles := s.styles.convert }).map fun w => fileText fl defStyle true w .flat

/-! ## Reading -/

/-- The sections that have a reader of their own, and the root element. -/
inductive Sect where
  | root | metadata | settings | scripts | masters | body
  deriving DecidableEq

def tMeta : Str := "office:meta".toList

/-- The start tags a file loop knows, but for those of the fonts and styles, which are in `Style.step`:
src/io/read.rs:3777-3783, 4243-4250, 3641-3659, 746-778, 272-305. -/
def special (p : Part) (n : Str) : Option Sect :=
  if n = p.root then some .root
  else
    match p with
    | .metadata => if n = tMeta then some .metadata else none
    | .settings => if n = Config.tSettings then some .settings else none
    | .styles => if n = Master.tMasters then some .masters else none
    | .content =>
      if n = Script.tScripts then some .scripts
      else if n = Master.tMasters then some .masters
      else if n = TableXml.tBody then some .body
      else none
    | .flat =>
      if n = tMeta then some .metadata
      else if n = Config.tSettings then some .settings
      else if n = Script.tScripts then some .scripts
      else if n = Master.tMasters then some .masters
      else if n = TableXml.tBody then some .body
      else none

/-- The origin the file gives to its styles. -/
def origin : Part → Style.Origin
  | .styles => .styles
  | _ => .content

/-- The files that have styles. -/
def styled : Part → Bool
  | .metadata | .settings => false
  | _ => true

/-- Which loop is at work: that of the file or of its styles, `read_office_meta`, or `read_office_settings`. -/
inductive Mode where
  | style (m : Style.Mode)
  | metadata (m : Meta.Mode)
  | settings (st : Config.State)

/-- The reader. -/
structure State where
  mode : Mode := .style .doc
  book : Target := {}

/-- The readers of the parts. -/
structure Env where
  fl : Floats
  ints : Refs.Ints
  opts : TableXml.Opts

/-- The faults of the reader of the metadata. -/
def ofMeta {α : Type} : Except Meta.Fault α → Except Fault α
  | .ok a => .ok a
  | .error .err => .error .parse
  | .error .panic => .error .panic

/-- `read_office_body` into a workbook. -/
def readBodyInto (e : Env) (b : TableXml.BookBody) (es : List Event) : Except Fault (TableXml.BookBody × List Event) :=
  (TableXml.bloop e.fl e.ints e.opts (es.length + 1) { book := b } es).map fun p => (p.1.book, p.2)

/-- A section, after its start tag. -/
def enter (e : Env) (p : Part) (b : Target) (as : List (Str × Str)) (es : List Event) :
    Sect → Except Fault (State × List Event)
  | .root => (Ns.readRoot p b.ns as).map fun ns => (⟨.style .doc, { b with ns := ns }⟩, es)
  | .metadata => .ok (⟨.metadata .office, b⟩, es)
  | .settings => .ok (⟨.settings ⟨[Config.tSettings], [.settings []], b.config⟩, b⟩, es)
  | .scripts => (Script.readScripts b.scripts es).map fun r => (⟨.style .doc, { b with scripts := r.1 }⟩, r.2)
  | .masters => (Master.readMasters b.masters es).map fun r => (⟨.style .doc, { b with masters := r.1 }⟩, r.2)
  | .body => (readBodyInto e b.body es).map fun r => (⟨.style .doc, { b with body := r.1 }⟩, r.2)

/-- An event that is left to the loop of the file, or of its styles. -/
def plain (e : Env) (p : Part) (md : Style.Mode) (b : Target) (ev : Event) : Except Fault State :=
  if styled p then
    (Style.step e.ints (origin p) ⟨md, b.styles⟩ ev).map fun st => ⟨.style st.mode, { b with styles := st.book }⟩
  else .ok ⟨.style md, b⟩

/-- One event of a file. -/
def step (e : Env) (p : Part) (x : State) (ev : Event) (es : List Event) : Except Fault (State × List Event) :=
  match x.mode with
  | .style .doc =>
    match ev with
    | .start n as =>
      match special p n with
      | some s => enter e p x.book as es s
      | none => (plain e p .doc x.book ev).map fun x => (x, es)
    | _ => (plain e p .doc x.book ev).map fun x => (x, es)
  | .style md => (plain e p md x.book ev).map fun x => (x, es)
  | .metadata md =>
    (ofMeta (Meta.step e.fl ⟨md, x.book.metadata⟩ ev)).map fun st =>
      (⟨match st.mode with | .file => .style .doc | md => .metadata md, { x.book with metadata := st.m }⟩, es)
  | .settings st =>
    (Config.step e.fl st ev).map fun st =>
      (if st.frames.isEmpty then ⟨.style .doc, { x.book with config := st.config }⟩
       else ⟨.settings st, x.book⟩, es)

/-- The end of a file: the loops are left with what they have.  Simplification: a file that ends within its settings
is refused here; the code takes what it has. -/
def atEof (x : State) : Except Fault Target :=
  match x.mode with
  | .style md => (Style.atEof ⟨md, x.book.styles⟩).map fun s => { x.book with styles := s }
  | .metadata md => (ofMeta (Meta.atEof ⟨md, x.book.metadata⟩)).map fun m => { x.book with metadata := m }
  | .settings _ => .error .malformed

/-- The loop of a file.

* `read_ods_metadata`, src/io/read.rs:3768-3799
* `read_ods_settings`, src/io/read.rs:4230-4264
* `read_ods_styles`, src/io/read.rs:3631-3673
* `read_ods_content`, src/io/read.rs:736-788
* `read_fods_impl`, src/io/read.rs:260-323 -/
def loop (e : Env) (p : Part) : Nat → State → List Event → Except Fault Target
  | 0, _, _ => .error .panic
  | _ + 1, x, [] => atEof x
  | k + 1, x, ev :: es =>
    match step e p x ev es with
    | .error f => .error f
    | .ok (x, es) => loop e p k x es

/-- A file is read into a workbook. -/
def readFile (e : Env) (p : Part) (b : Target) (text : Str) : Except Fault Target :=
  match tokenize text with
  | none => .error .malformed
  | some ts => loop e p ((events ts).length + 1) ⟨.style .doc, b⟩ (events ts)

/-- `read_ods_impl`, src/io/read.rs:359-410: the four files in their order; packages without some of
them are in `readOds`, `Verif/Whole/Content.lean`.  The manifest is in `Verif/Archive/Model.lean`.  Simplification: what `calc_derived` does
is not here; `calculations` is part of the reader of a table. -/
def readPackage (e : Env) (z : Package) : Except Fault Target :=
  match readFile e .metadata {} z.metaXml with
  | .error f => .error f
  | .ok b =>
    match readFile e .settings b z.settingsXml with
    | .error f => .error f
    | .ok b =>
      match readFile e .styles b z.stylesXml with
      | .error f => .error f
      | .ok b => readFile e .content b z.contentXml

/-- `read_fods_impl`, src/io/read.rs:260-323. -/
def readFlat (e : Env) (text : Str) : Except Fault Target := readFile e .flat {} text

end Verif.Whole
