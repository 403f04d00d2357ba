import Verif.TableXml.Model
import Verif.Header.Spec
import Verif.Config.View

/-!
# A sheet as a whole

All the setters of `Sheet` on one state: cells, columns, rows, groups, header ranges, print ranges, flags, name, style
and view.  The parts are the models of the earlier chapters.
-/

set_option autoImplicit false

namespace Verif.Sheets

open TableXml Config

/-- `struct Sheet`, src/sheet_.rs:106-128.  The cells, headers and groups are in `body`; the fields written with the
start tag of the table and the foreign elements are in `head`. -/
structure Sheet where
  head : Head := {}
  body : TSheet := {}
  config : SheetConfig := {}
  deriving DecidableEq

/-- `Sheet::new`, src/sheet_.rs:540-557, and `new_with_name`, 527-529. -/
def Sheet.new (name : Str) : Sheet := { head := { name := name, print := true, display := true } }

/-- `Sheet::clone_no_data`, src/sheet_.rs:560-577. -/
def Sheet.cloneNoData (s : Sheet) : Sheet :=
  { head := s.head
    body := { s.body with data := [] }
    config := {} }

/-- The calls that change a sheet. -/
inductive Call where
  | setName (n : Str)
  | setStyle (n : Str)
  | setDisplay (b : Bool)
  | setPrint (b : Bool)
  | setHeaderRows (frm to : Nat)
  | clearHeaderRows
  | setHeaderCols (frm to : Nat)
  | clearHeaderCols
  | addPrintRange (r : CellRange)
  | clearPrintRanges
  | setConfig (c : SheetConfig)
  | splitColHeader (col : Nat)
  | splitRowHeader (row : Nat)
  | splitHorizontal (n : Nat)
  | splitVertical (n : Nat)
  | cell (op : CellOp)
  | col (op : ColOp)
  | row (op : RowOp)
  | colGroup (op : GroupOp)
  | rowGroup (op : GroupOp)
  | showColGroup (frm to : Nat) (b : Bool)
  | showRowGroup (frm to : Nat) (b : Bool)

/-- One call; `none` is a panic.  `set_name` src/sheet_.rs:622-624, `set_style` 642-644, `set_display` 1004-1006,
`set_print` 1014-1016, `set_header_rows` 1303-1308, `clear_header_rows` 1311-1313, `set_header_cols` 1323-1328,
`clear_header_cols` 1331-1333, `add_print_range` 1342-1344, `clear_print_ranges` 1347-1349, `config_mut` 637-639 (an
assignment to the whole), the splits 1358-1386; the others are the models of the cells, columns, rows and groups. -/
def Sheet.call (s : Sheet) : Call → Option Sheet
  | .setName n => some { s with head := { s.head with name := n } }
  | .setStyle n => some { s with head := { s.head with style := some n } }
  | .setDisplay b => some { s with head := { s.head with display := b } }
  | .setPrint b => some { s with head := { s.head with print := b } }
  | .setHeaderRows f t => some { s with body := { s.body with headerRows := some ⟨f, t⟩ } }
  | .clearHeaderRows => some { s with body := { s.body with headerRows := none } }
  | .setHeaderCols f t => some { s with body := { s.body with headerCols := some ⟨f, t⟩ } }
  | .clearHeaderCols => some { s with body := { s.body with headerCols := none } }
  | .addPrintRange r => some { s with head := { s.head with ranges := some (s.head.ranges.getD [] ++ [r]) } }
  | .clearPrintRanges => some { s with head := { s.head with ranges := none } }
  | .setConfig c => some { s with config := c }
  | .splitColHeader c => (s.config.splitColHeader c).map fun c => { s with config := c }
  | .splitRowHeader r => (s.config.splitRowHeader r).map fun c => { s with config := c }
  | .splitHorizontal n => some { s with config := s.config.splitHorizontal n }
  | .splitVertical n => some { s with config := s.config.splitVertical n }
  | .cell op => (op.step s.body.data).map fun m => { s with body := { s.body with data := m } }
  | .col op => (s.body.colHeader.step op).map fun m => { s with body := { s.body with colHeader := m } }
  | .row op => (s.body.rowHeader.step op).map fun m => { s with body := { s.body with rowHeader := m } }
  | .colGroup op => (op.step s.body.groupCols).map fun g => { s with body := { s.body with groupCols := g } }
  | .rowGroup op => (op.step s.body.groupRows).map fun g => { s with body := { s.body with groupRows := g } }
  | .showColGroup f t b => (setColGroupDisplayed s.body.groupCols s.body.colHeader f t b).map fun p =>
      { s with body := { s.body with groupCols := p.1, colHeader := p.2 } }
  | .showRowGroup f t b => (setRowGroupDisplayed s.body.groupRows s.body.rowHeader f t b).map fun p =>
      { s with body := { s.body with groupRows := p.1, rowHeader := p.2 } }

/-- A history of calls; `none` if one of them panics. -/
def Sheet.run (s : Sheet) : List Call → Option Sheet
  | [] => some s
  | c :: cs => match s.call c with
    | some s' => Sheet.run s' cs
    | none => none

end Verif.Sheets
