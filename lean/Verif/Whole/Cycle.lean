import Verif.Whole.Model
import Verif.Width.Model
import Verif.Sheet.Model

/-!
# A workbook is saved and loaded

The preparations of `calculations` (src/io/write.rs), the files of `Verif/Whole/Model.lean`, and `calc_derived`
(src/io/read.rs), in this order and for all sheets.
-/

set_option autoImplicit false

namespace Verif.Whole

open Xml Codec

/-- A workbook as the program holds it: the sheets with their view settings, the view settings of the workbook, and all
other parts.  The sheets of `rest` are not used. -/
structure Doc where
  rest : Source := {}
  view : Config.BookConfig := {}
  sheets : List Sheets.Sheet := []

/-- The workbook as the writers of the files see it. -/
def Doc.source (d : Doc) : Source := { d.rest with sheets := d.sheets.map fun s => (s.head, s.body) }

/-- `calculations`, src/io/write.rs:418-427: `calc_config`, `calc_row_header_styles` and `calc_col_header_styles`;
`none` is a panic.  Simplification: `calc_metadata` is done by `Source.calc` and `calc_col_headers` by
`TableXml.writeSheets`, when the files are written; they do not depend on the other three. -/
def Doc.calculations (fl : Floats) (d : Doc) : Option Doc :=
  match Config.calcConfig d.view (d.sheets.map fun s => (s.head.name, s.config)) (.node .set d.rest.config) with
  | some (view, .node _ config) =>
    match Width.calcRowSheets fl d.rest.styles.styles (d.sheets.map (·.body)) with
    | .error _ => none
    | .ok (st, bodies) =>
      match Width.calcSheets fl st bodies with
      | .error _ => none
      | .ok (st, bodies) =>
        some { rest := { d.rest with config := config, styles := { d.rest.styles with styles := st } }
               view := view
               sheets := List.zipWith (fun s b => { s with body := b }) d.sheets bodies }
  | _ => none

/-- `write_ods_impl`, src/io/write.rs:345-404: a workbook without sheets is refused, by `writePackage`. -/
def Doc.save (fl : Floats) (defStyle : ValueType → Option String) (d : Doc) : Option Package :=
  match d.calculations fl with
  | none => none
  | some d => writePackage fl defStyle d.source

/-- `write_fods_impl`, src/io/write.rs:154-164. -/
def Doc.saveFlat (fl : Floats) (defStyle : ValueType → Option String) (d : Doc) : Option Str :=
  match d.calculations fl with
  | none => none
  | some d => writeFlat fl defStyle d.source

/-- A workbook that was loaded. -/
structure Loaded where
  file : Target
  view : Config.BookConfig
  sheets : List Sheets.Sheet

/-- A sheet in `calc_derived`, src/io/read.rs:650-727.  The reader makes each sheet with the default view settings. -/
def deriveOne (fl : Floats) (t : Target) (h : TableXml.Head) (b : TSheet) : Except Fault Sheets.Sheet :=
  match Width.deriveCols fl t.styles.styles b.colHeader with
  | none => .error .parse
  | some cols =>
    match Width.deriveRows fl t.styles.styles b.rowHeader with
    | none => .error .parse
    | some rows =>
      match Config.deriveSheet (.node .set t.config) h.name {} with
      | .error f => .error f
      | .ok c => .ok { head := h, body := { b with colHeader := cols, rowHeader := rows }, config := c }

/-- All sheets in `calc_derived`, src/io/read.rs:647-728. -/
def deriveSheets (fl : Floats) (t : Target) : List (TableXml.Head × TSheet) → Except Fault (List Sheets.Sheet)
  | [] => .ok []
  | p :: ps =>
    match deriveOne fl t p.1 p.2 with
    | .error f => .error f
    | .ok s => (deriveSheets fl t ps).map (s :: ·)

/-- `calc_derived`, src/io/read.rs:621-731. -/
def derive (fl : Floats) (t : Target) : Except Fault Loaded :=
  (deriveSheets fl t t.body.sheets).map fun ss => ⟨t, Config.deriveBook (.node .set t.config) {}, ss⟩

/-- `read_ods_impl`, src/io/read.rs:359-410. -/
def load (e : Env) (z : Package) : Except Fault Loaded :=
  match readPackage e z with
  | .error f => .error f
  | .ok t => derive e.fl t

/-- `read_fods_impl`, src/io/read.rs:260-323. -/
def loadFlat (e : Env) (text : Str) : Except Fault Loaded :=
  match readFlat e text with
  | .error f => .error f
  | .ok t => derive e.fl t

end Verif.Whole
