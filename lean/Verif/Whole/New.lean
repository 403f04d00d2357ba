import Verif.Whole.Cycle
import Verif.Fmt.Locale
import Verif.Config.Default
import Verif.Book.Sheets

/-!
# A workbook that a program makes (src/workbook_.rs)

`WorkBook::new`, and the calls that change the workbook.
-/

set_option autoImplicit false

namespace Verif.Whole

open Xml Codec
open Verif.Book (Stores StoreOp HMap)
open Verif.Ns (NsBook)

/-- `WorkBook`, src/workbook_.rs:37-105.  Simplifications: the scripts and event listeners are left out, which are C74;
and the additional files (`manifest`), which are C98; and the foreign elements (`extra`), which come only from a file.
No sheet is detached. -/
structure Workbook where
  ns : NsBook := {}
  metadata : Meta.Metadata := {}
  config : List (Str × Config.CItem) := []
  view : Config.BookConfig := {}
  styles : Fmt.LBook := {}
  masters : Stores Master.Master := {}
  valid : Stores Valid.Body := {}
  sheets : List Sheets.Sheet := []

/-- `WorkBook::new_empty`, src/workbook_.rs:248-282. -/
def Workbook.newEmpty : Workbook := { config := Config.newConfig }

/-- `WorkBook::new`, src/workbook_.rs:291-295. -/
def Workbook.new (ft : Fmt.Features) (l : Fmt.Locale) : Option Workbook :=
  match Fmt.localeSettings ft l Workbook.newEmpty.styles with
  | .ok s => some { Workbook.newEmpty with styles := s }
  | .error _ => none

/-- The calls of a program.  The name of the kind is in the `StoreOp`: `add_tablestyle`, `remove_tablestyle`,
`tablestyle_mut` etc.  `insertSheet` and `pushSheet` are with a sheet that was made by calls. -/
inductive BookCall where
  | style (o : StoreOp Style.Body)
  | format (o : StoreOp Style.Format)
  | page (o : StoreOp Style.Page)
  | master (o : StoreOp Master.Master)
  | validation (o : StoreOp Valid.Body)
  | addFont (f : Style.Font)
  | removeFont (n : Str)
  | changeFont (n : Str) (f : Style.Font → Style.Font)
  | addDefStyle (t : ValueType) (s : Str)
  | localeSettings (ft : Fmt.Features) (l : Fmt.Locale)
  | metadata (f : Meta.Metadata → Meta.Metadata)
  | view (f : Config.BookConfig → Config.BookConfig)
  | pushSheet (n : Str) (cs : List Sheets.Call)
  | insertSheet (i : Nat) (n : Str) (cs : List Sheets.Call)
  | removeSheet (i : Nat)
  | sheet (i : Nat) (c : Sheets.Call)

/-- One call; `none` is a panic.  The styles, formats, page styles, master pages and validations src/workbook_.rs:536-1143;
`add_font` 510-512, `remove_font` 515-517, `font_mut` 530-532, `add_def_style` 500-502, `locale_settings` 303-348,
`metadata_mut` 1176-1178, `config_mut` 367-369, `push_sheet` 440-442, `insert_sheet` 435-437, `remove_sheet` 449-451,
`sheet_mut` 425-427 with a call of the sheet. -/
def Workbook.call (b : Workbook) : BookCall → Option Workbook
  | .style o => match b.styles.book.styles.step o with
    | .ok (s, _) => some { b with styles := { b.styles with book := { b.styles.book with styles := s } } }
    | .error _ => none
  | .format o => match b.styles.book.formats.step o with
    | .ok (s, _) => some { b with styles := { b.styles with book := { b.styles.book with formats := s } } }
    | .error _ => none
  | .page o => match b.styles.book.pages.step o with
    | .ok (s, _) => some { b with styles := { b.styles with book := { b.styles.book with pages := s } } }
    | .error _ => none
  | .master o => match b.masters.step o with
    | .ok (s, _) => some { b with masters := s }
    | .error _ => none
  | .validation o => match b.valid.step o with
    | .ok (s, _) => some { b with valid := s }
    | .error _ => none
  | .addFont f => some { b with styles := { b.styles with book := { b.styles.book with
      fonts := b.styles.book.fonts.insert f.name f } } }
  | .removeFont n => some { b with styles := { b.styles with book := { b.styles.book with
      fonts := b.styles.book.fonts.remove n } } }
  | .changeFont n f => some { b with styles := { b.styles with book := { b.styles.book with
      fonts := b.styles.book.fonts.modify n f } } }
  | .addDefStyle t s => some { b with styles := b.styles.addDef t s }
  | .localeSettings ft l => match Fmt.localeSettings ft l b.styles with
    | .ok s => some { b with styles := s }
    | .error _ => none
  | .metadata f => some { b with metadata := f b.metadata }
  | .view f => some { b with view := f b.view }
  | .pushSheet n cs => match (Sheets.Sheet.new n).run cs with
    | some s => some { b with sheets := b.sheets ++ [s] }
    | none => none
  | .insertSheet i n cs => match (Sheets.Sheet.new n).run cs with
    | some s => match Book.insertAt s i b.sheets with
      | some l => some { b with sheets := l }
      | none => none
    | none => none
  | .removeSheet i => if i < b.sheets.length then some { b with sheets := b.sheets.eraseIdx i } else none
  | .sheet i c => match b.sheets[i]? with
    | some s => match s.call c with
      | some s => some { b with sheets := b.sheets.set i s }
      | none => none
    | none => none

/-- Many calls. -/
def Workbook.run (b : Workbook) : List BookCall → Option Workbook
  | [] => some b
  | c :: cs => match b.call c with
    | some b' => Workbook.run b' cs
    | none => none

/-- The workbook as it is written.  Simplification: the values of a hash map in the order of the model. -/
def Workbook.doc (b : Workbook) : Doc where
  rest := { ns := b.ns, metadata := b.metadata, config := b.config, styles := b.styles.book
            masters := (b.masters.store .masterPage).map Prod.snd
            validations := (b.valid.store .validation).map Prod.snd }
  view := b.view
  sheets := b.sheets

/-- `def_style` as the writer of the cells asks for it, src/io/write.rs:2144-2148. -/
def Workbook.defStyle (b : Workbook) (t : ValueType) : Option String := (b.styles.defStyle t).map String.ofList

/-- `write_ods` and `write_ods_buf`. -/
def Workbook.save (fl : Floats) (b : Workbook) : Option Package := b.doc.save fl b.defStyle

/-- `write_fods` and `write_fods_buf`. -/
def Workbook.saveFlat (fl : Floats) (b : Workbook) : Option Str := b.doc.saveFlat fl b.defStyle

end Verif.Whole
