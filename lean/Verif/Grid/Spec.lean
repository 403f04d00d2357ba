import Verif.Grid.Model

/-!
# Specifications for written and read tables

Independent of how the writer and the reader work.
-/

set_option autoImplicit false

namespace Verif

/-- The number of rows the stored row `r` stands for, by the public getter `row_repeat` (which
reports 0 for a row that has no header). -/
def TSheet.repeatOf (s : TSheet) (r : Nat) : Nat := max 1 (s.rowHeader.rowRepeat r)

/-- Position `(r, c)` of the grid shows the stored cell `d`: `d` is stored there, or a repeat count
of the cell or of its row reaches there. -/
def TSheet.Shows (s : TSheet) (r c : Nat) (d : CellData) : Prop :=
  ∃ r0 c0, s.data.get? (r0, c0) = some d
    ∧ r0 ≤ r ∧ r < r0 + s.repeatOf r0 ∧ c0 ≤ c ∧ c < c0 + d.repeat

/-- A repeated cell runs into the next cell of its row. -/
def TSheet.CellClash (s : TSheet) : Prop :=
  ∃ r c c' d d', s.data.get? (r, c) = some d ∧ s.data.get? (r, c') = some d'
    ∧ c < c' ∧ c' < c + d.repeat

/-- A repeated row with data runs into the next row with data. -/
def TSheet.RowClash (s : TSheet) : Prop :=
  ∃ r r' c c' d d', s.data.get? (r, c) = some d ∧ s.data.get? (r', c') = some d'
    ∧ r < r' ∧ r' < r + s.repeatOf r

end Verif
