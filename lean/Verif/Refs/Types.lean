import Verif.Base

/-!
# Cell references: the types (src/refs.rs)

Simplification: `u32` is `Nat`.
-/

set_option autoImplicit false

namespace Verif

/-- `CRow`, src/refs.rs:22-27. -/
structure CRow where
  abs : Bool := false
  row : Nat
  deriving DecidableEq

/-- `CCol`, src/refs.rs:80-85. -/
structure CCol where
  abs : Bool := false
  col : Nat
  deriving DecidableEq

/-- `CellRef`, src/refs.rs:145-152. -/
structure CellRef where
  iri : Option Str := none
  table : Option Str := none
  row : CRow
  col : CCol
  deriving DecidableEq

/-- `CellRange`, src/refs.rs:326-342. -/
structure CellRange where
  iri : Option Str := none
  fromTable : Option Str := none
  fromRow : CRow
  fromCol : CCol
  toTable : Option Str := none
  toRow : CRow
  toCol : CCol
  deriving DecidableEq

/-- `ColRange`, src/refs.rs:653-665. -/
structure ColRange where
  iri : Option Str := none
  fromTable : Option Str := none
  fromCol : CCol
  toTable : Option Str := none
  toCol : CCol
  deriving DecidableEq

/-- `RowRange`, src/refs.rs:823-835. -/
structure RowRange where
  iri : Option Str := none
  fromTable : Option Str := none
  fromRow : CRow
  toTable : Option Str := none
  toRow : CRow
  deriving DecidableEq

/-- `CellRange::contains`, src/refs.rs:624-629. -/
def CellRange.contains (r : CellRange) (row col : Nat) : Bool :=
  decide (r.fromRow.row ≤ row) && decide (row ≤ r.toRow.row)
    && decide (r.fromCol.col ≤ col) && decide (col ≤ r.toCol.col)

/-- `ColRange::contains`, src/refs.rs:802-804. -/
def ColRange.contains (r : ColRange) (col : Nat) : Bool :=
  decide (r.fromCol.col ≤ col) && decide (col ≤ r.toCol.col)

/-- `RowRange::contains`, src/refs.rs:969-971. -/
def RowRange.contains (r : RowRange) (row : Nat) : Bool :=
  decide (r.fromRow.row ≤ row) && decide (row ≤ r.toRow.row)

/-- `CellRange::out_looped`, src/refs.rs:632-634. -/
def CellRange.outLooped (r : CellRange) (row col : Nat) : Bool :=
  decide (r.toRow.row < row) || (decide (row = r.toRow.row) && decide (r.toCol.col < col))

/-- `CellRange::origin_span`, src/refs.rs:452-476; `none` is a failed assertion. -/
def CellRange.originSpan (row col rowSpan colSpan : Nat) : Option CellRange :=
  if 0 < rowSpan then
    if 0 < colSpan then
      some { fromRow := { row := row }, fromCol := { col := col }
             toRow := { row := row + rowSpan - 1 }, toCol := { col := col + colSpan - 1 } }
    else none
  else none

end Verif
