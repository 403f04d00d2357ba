import Verif.Refs.Format
import Verif.Refs.Parse

/-!
# References for formulas (src/formula.rs)

The macros `formula!`, `cell!` and `fcell!` and the functions beside them.
-/

set_option autoImplicit false

namespace Verif.Formula

open Refs

/-- `CellRef::new_all`, src/refs.rs:157-171. -/
def newAll (iri table : Option Str) (rowAbs : Bool) (row : Nat) (colAbs : Bool) (col : Nat) : CellRef :=
  ⟨iri, table, ⟨rowAbs, row⟩, ⟨colAbs, col⟩⟩

/-- `CellRef::local`, src/refs.rs:179-192. -/
def refLocal (row col : Nat) : CellRef := ⟨none, none, ⟨false, row⟩, ⟨false, col⟩⟩

/-- `CellRef::remote`, src/refs.rs:195-208. -/
def refRemote (table : Str) (row col : Nat) : CellRef := ⟨none, some table, ⟨false, row⟩, ⟨false, col⟩⟩

/-- `CellRef::absolute`, src/refs.rs:281-285. -/
def absolute (r : CellRef) : CellRef := { r with col := { r.col with abs := true }, row := { r.row with abs := true } }

/-- `CellRef::absolute_row`, src/refs.rs:289-292. -/
def absoluteRow (r : CellRef) : CellRef := { r with row := { r.row with abs := true } }

/-- `CellRef::absolute_col`, src/refs.rs:296-299. -/
def absoluteCol (r : CellRef) : CellRef := { r with col := { r.col with abs := true } }

/-- `CellRef::to_formula`, src/refs.rs:271-278. -/
def toFormula (r : CellRef) : Str := ['['] ++ fmtCellRef r ++ [']']

/-- `CellRange::new_all`, src/refs.rs:344-379. -/
def rangeAll (iri fromTable : Option Str) (rowAbs : Bool) (row : Nat) (colAbs : Bool) (col : Nat) (toTable : Option Str)
    (toRowAbs : Bool) (toRow : Nat) (toColAbs : Bool) (toCol : Nat) : CellRange :=
  ⟨iri, fromTable, ⟨rowAbs, row⟩, ⟨colAbs, col⟩, toTable, ⟨toRowAbs, toRow⟩, ⟨toColAbs, toCol⟩⟩

/-- `CellRange::local`, src/refs.rs:390-412; `none` is a panic. -/
def rangeLocal (row col toRow toCol : Nat) : Option CellRange :=
  if row ≤ toRow ∧ col ≤ toCol then
    some ⟨none, none, ⟨false, row⟩, ⟨false, col⟩, none, ⟨false, toRow⟩, ⟨false, toCol⟩⟩
  else none

/-- `CellRange::remote`, src/refs.rs:421-443; `none` is a panic. -/
def rangeRemote (table : Str) (row col toRow toCol : Nat) : Option CellRange :=
  if row ≤ toRow ∧ col ≤ toCol then
    some ⟨none, some table, ⟨false, row⟩, ⟨false, col⟩, none, ⟨false, toRow⟩, ⟨false, toCol⟩⟩
  else none

/-- `CellRange::absolute`, src/refs.rs:598-604. -/
def rangeAbsolute (r : CellRange) : CellRange :=
  { r with fromCol := { r.fromCol with abs := true }, fromRow := { r.fromRow with abs := true }
           toCol := { r.toCol with abs := true }, toRow := { r.toRow with abs := true } }

/-- `CellRange::absolute_rows`, src/refs.rs:608-612. -/
def absoluteRows (r : CellRange) : CellRange :=
  { r with fromRow := { r.fromRow with abs := true }, toRow := { r.toRow with abs := true } }

/-- `CellRange::absolute_cols`, src/refs.rs:616-620. -/
def absoluteCols (r : CellRange) : CellRange :=
  { r with fromCol := { r.fromCol with abs := true }, toCol := { r.toCol with abs := true } }

/-- `CellRange::to_formula`, src/refs.rs:589-595. -/
def rangeToFormula (r : CellRange) : Str := ['['] ++ fmtCellRange r ++ [']']

/-- Subtracting one from a `u32`. -/
def pred (m : Ints) (n : Nat) : Except PFail Nat :=
  if n = 0 then (if m.wrap then .ok m.max else .error .panic) else .ok (n - 1)

/-- `row + span.0 - 1`, src/refs.rs:469 and 473. -/
def spanEnd (m : Ints) (start n : Nat) : Except PFail Nat := (m.fit (start + n)).bind (pred m)

/-- `CellRange::origin_span`, src/refs.rs:452-476. -/
def originSpan (m : Ints) (row col h w : Nat) : Except PFail CellRange :=
  if h = 0 ∨ w = 0 then .error .panic
  else do
    let toRow ← spanEnd m row h
    let toCol ← spanEnd m col w
    .ok ⟨none, none, ⟨false, row⟩, ⟨false, col⟩, none, ⟨false, toRow⟩, ⟨false, toCol⟩⟩

/-- `ColRange::new`, src/refs.rs:697-711; `none` is a panic. -/
def colsNew (a b : Nat) : Option ColRange :=
  if a ≤ b then some ⟨none, none, ⟨false, a⟩, none, ⟨false, b⟩⟩ else none

/-- `ColRange::absolute`, src/refs.rs:794-798. -/
def colsAbsolute (r : ColRange) : ColRange :=
  { r with fromCol := { r.fromCol with abs := true }, toCol := { r.toCol with abs := true } }

/-- `ColRange::to_formula`, src/refs.rs:785-791. -/
def colsToFormula (r : ColRange) : Str := ['['] ++ fmtColRange r ++ [']']

/-- `RowRange::new`, src/refs.rs:864-878; `none` is a panic. -/
def rowsNew (a b : Nat) : Option RowRange :=
  if a ≤ b then some ⟨none, none, ⟨false, a⟩, none, ⟨false, b⟩⟩ else none

/-- `RowRange::absolute`, src/refs.rs:961-965. -/
def rowsAbsolute (r : RowRange) : RowRange :=
  { r with fromRow := { r.fromRow with abs := true }, toRow := { r.toRow with abs := true } }

/-- `RowRange::to_formula`, src/refs.rs:952-958. -/
def rowsToFormula (r : RowRange) : Str := ['['] ++ fmtRowRange r ++ [']']

/-! ## The functions -/

/-- `fcellref`, src/formula.rs:403-405. -/
def fcellref (row col : Nat) : Str := toFormula (refLocal row col)

/-- `fcellrefr`, src/formula.rs:409-411. -/
def fcellrefr (row col : Nat) : Str := toFormula (absoluteRow (refLocal row col))

/-- `fcellrefc`, src/formula.rs:415-417. -/
def fcellrefc (row col : Nat) : Str := toFormula (absoluteCol (refLocal row col))

/-- `fcellrefa`, src/formula.rs:421-423. -/
def fcellrefa (row col : Nat) : Str := toFormula (absolute (refLocal row col))

/-- `fcellref_table`, src/formula.rs:426-428. -/
def fcellrefTable (t : Str) (row col : Nat) : Str := toFormula (refRemote t row col)

/-- `fcellrefr_table`, src/formula.rs:432-434. -/
def fcellrefrTable (t : Str) (row col : Nat) : Str := toFormula (absoluteRow (refRemote t row col))

/-- `fcellrefc_table`, src/formula.rs:438-440. -/
def fcellrefcTable (t : Str) (row col : Nat) : Str := toFormula (absoluteCol (refRemote t row col))

/-- `fcellrefa_table`, src/formula.rs:444-446. -/
def fcellrefaTable (t : Str) (row col : Nat) : Str := toFormula (absolute (refRemote t row col))

/-- `frangeref`, src/formula.rs:449-451. -/
def frangeref (row col toRow toCol : Nat) : Option Str := (rangeLocal row col toRow toCol).map rangeToFormula

/-- `frangerefr`, src/formula.rs:454-458. -/
def frangerefr (row col toRow toCol : Nat) : Option Str :=
  (rangeLocal row col toRow toCol).map fun r => rangeToFormula (absoluteRows r)

/-- `frangerefc`, src/formula.rs:461-465. -/
def frangerefc (row col toRow toCol : Nat) : Option Str :=
  (rangeLocal row col toRow toCol).map fun r => rangeToFormula (absoluteCols r)

/-- `frangerefa`, src/formula.rs:468-472. -/
def frangerefa (row col toRow toCol : Nat) : Option Str :=
  (rangeLocal row col toRow toCol).map fun r => rangeToFormula (rangeAbsolute r)

/-- `frangeref_table`, src/formula.rs:475-483. -/
def frangerefTable (t : Str) (row col toRow toCol : Nat) : Option Str :=
  (rangeRemote t row col toRow toCol).map rangeToFormula

/-- `frangerefr_table`, src/formula.rs:486-496. -/
def frangerefrTable (t : Str) (row col toRow toCol : Nat) : Option Str :=
  (rangeRemote t row col toRow toCol).map fun r => rangeToFormula (absoluteRows r)

/-- `frangerefc_table`, src/formula.rs:499-509. -/
def frangerefcTable (t : Str) (row col toRow toCol : Nat) : Option Str :=
  (rangeRemote t row col toRow toCol).map fun r => rangeToFormula (absoluteCols r)

/-- `frangerefa_table`, src/formula.rs:512-522. -/
def frangerefaTable (t : Str) (row col toRow toCol : Nat) : Option Str :=
  (rangeRemote t row col toRow toCol).map fun r => rangeToFormula (rangeAbsolute r)

/-! ## The macros -/

/-- The four arms of `cell!` for a cell of the same sheet, src/formula.rs:53-64.  The flags say where `abs` is
written. -/
def cellHere (absRow : Bool) (row : Nat) (absCol : Bool) (col : Nat) : CellRef :=
  match absRow, absCol with
  | true, true => newAll none none true row true col
  | true, false => newAll none none true row false col
  | false, true => newAll none none false row true col
  | false, false => newAll none none false row false col

/-- The four arms for a cell of another sheet, src/formula.rs:147-158. -/
def cellThere (table : Str) (absRow : Bool) (row : Nat) (absCol : Bool) (col : Nat) : CellRef :=
  match absRow, absCol with
  | true, true => newAll none (some table) true row true col
  | true, false => newAll none (some table) true row true col
  | false, true => newAll none (some table) true row true col
  | false, false => newAll none (some table) true row true col

/-- The sixteen arms for a range of the same sheet, src/formula.rs:66-145.  Each has the flags as they are written. -/
def rangeHere (absRow : Bool) (row : Nat) (absCol : Bool) (col : Nat) (absRow2 : Bool) (row2 : Nat) (absCol2 : Bool)
    (col2 : Nat) : CellRange :=
  match absRow, absCol, absRow2, absCol2 with
  | true, true, true, true => rangeAll none none true row true col none true row2 true col2
  | true, true, true, false => rangeAll none none true row true col none true row2 false col2
  | true, true, false, true => rangeAll none none true row true col none false row2 true col2
  | true, true, false, false => rangeAll none none true row true col none false row2 false col2
  | true, false, true, true => rangeAll none none true row false col none true row2 true col2
  | true, false, true, false => rangeAll none none true row false col none true row2 false col2
  | true, false, false, true => rangeAll none none true row false col none false row2 true col2
  | true, false, false, false => rangeAll none none true row false col none false row2 false col2
  | false, true, true, true => rangeAll none none false row true col none true row2 true col2
  | false, true, true, false => rangeAll none none false row true col none true row2 false col2
  | false, true, false, true => rangeAll none none false row true col none false row2 true col2
  | false, true, false, false => rangeAll none none false row true col none false row2 false col2
  | false, false, true, true => rangeAll none none false row false col none true row2 true col2
  | false, false, true, false => rangeAll none none false row false col none true row2 false col2
  | false, false, false, true => rangeAll none none false row false col none false row2 true col2
  | false, false, false, false => rangeAll none none false row false col none false row2 false col2

/-- The sixteen arms for a range of another sheet, src/formula.rs:160-399. -/
def rangeThere (t : Str) (absRow : Bool) (row : Nat) (absCol : Bool) (col : Nat) (absRow2 : Bool) (row2 : Nat)
    (absCol2 : Bool) (col2 : Nat) : CellRange :=
  match absRow, absCol, absRow2, absCol2 with
  | true, true, true, true => rangeAll none (some t) true row true col none true row2 true col2
  | true, true, true, false => rangeAll none (some t) true row true col none true row2 false col2
  | true, true, false, true => rangeAll none (some t) true row true col none false row2 true col2
  | true, true, false, false => rangeAll none (some t) true row true col none false row2 false col2
  | true, false, true, true => rangeAll none (some t) true row false col none true row2 true col2
  | true, false, true, false => rangeAll none (some t) true row false col none true row2 false col2
  | true, false, false, true => rangeAll none (some t) true row false col none false row2 true col2
  | true, false, false, false => rangeAll none (some t) true row false col none false row2 false col2
  | false, true, true, true => rangeAll none (some t) false row true col none true row2 true col2
  | false, true, true, false => rangeAll none (some t) false row true col none true row2 false col2
  | false, true, false, true => rangeAll none (some t) false row true col none false row2 true col2
  | false, true, false, false => rangeAll none (some t) false row true col none false row2 false col2
  | false, false, true, true => rangeAll none (some t) false row false col none true row2 true col2
  | false, false, true, false => rangeAll none (some t) false row false col none true row2 false col2
  | false, false, false, true => rangeAll none (some t) false row false col none false row2 true col2
  | false, false, false, false => rangeAll none (some t) false row false col none false row2 false col2

/-- `formula!` for a text whose arguments are filled in, src/formula.rs:9-22. -/
def formula (s : Str) : Str := "of:=".toList ++ s

end Verif.Formula
