import Verif.Refs.Types

/-!
# Formatting cell references (src/refs/format.rs, src/refs.rs `format_refs`)

`Display::fmt` into a string cannot fail, so the functions return the text written.
-/

set_option autoImplicit false

namespace Verif.Refs

/-- `u32::MAX`. -/
def u32Max : Nat := 4294967295

/-- `fmt_abs`, src/refs/format.rs:8-13. -/
def fmtAbs (abs : Bool) : Str := if abs then ['$'] else []

/-- The digits of a number, least significant first: the loop src/refs/format.rs:23-28. -/
def rowDigits (n : Nat) : List Nat :=
  if h : 0 < n then n % 10 :: rowDigits (n / 10) else []
  termination_by n
  decreasing_by omega

/-- `(b'0' + d) as char`, src/refs/format.rs:33. -/
def digitChar (d : Nat) : Char := Char.ofNat (48 + d)

/-- `(b'A' + d) as char`, src/refs/format.rs:70. -/
def letterChar (d : Nat) : Char := Char.ofNat (65 + d)

/-- `fmt_row_name`, src/refs/format.rs:16-38.  The code collects the digits in a buffer of 10 bytes
and would panic on an eleventh digit; `fmtRowName_fits` shows that no `u32` has one. -/
def fmtRowName (row : Nat) : Str := ((rowDigits (row + 1)).map digitChar).reverse

/-- The letters of a column, last one first: the loop src/refs/format.rs:54-65. -/
def colDigits (n : Nat) : List Nat :=
  if h : 0 < n then
    if n % 26 = 0 then 25 :: colDigits (n / 26 - 1) else (n % 26 - 1) :: colDigits (n / 26)
  else []
  termination_by n
  decreasing_by all_goals omega

/-- The digits collected by `fmt_col_name`, src/refs/format.rs:45-65, with the special case for
`u32::MAX` (45-49) as written. -/
def colBuf (col : Nat) : List Nat :=
  if col = u32Max then 21 :: colDigits (col / 26) else colDigits (col + 1)

/-- `fmt_col_name`, src/refs/format.rs:41-75.  The code collects the letters in a buffer of 7 bytes
and would panic on an eighth letter; `fmtColName_fits` shows that no `u32` has one. -/
def fmtColName (col : Nat) : Str := ((colBuf col).map letterChar).reverse

/-- `fmt_row`, src/refs.rs:995-999. -/
def fmtRow (r : CRow) : Str := fmtAbs r.abs ++ fmtRowName r.row

/-- `fmt_col`, src/refs.rs:1002-1006. -/
def fmtCol (c : CCol) : Str := fmtAbs c.abs ++ fmtColName c.col

/-- `str::replace('\'', "''")`: every quote is doubled. -/
def dbl : Str → Str
  | [] => []
  | c :: s => if c = '\'' then '\'' :: '\'' :: dbl s else c :: dbl s

/-- `fmt_iri`, src/refs.rs:1110-1119. -/
def fmtIri : Option Str → Str
  | none => []
  | some iri => '\'' :: dbl iri ++ ['\'', '#']

/-- `str::contains(['\'', ' ', '.'])`, src/refs.rs:1128. -/
def needsQuote (s : Str) : Bool := s.any fun c => c == '\'' || c == ' ' || c == '.'

/-- `fmt_table_name`, src/refs.rs:1122-1136. -/
def fmtTableName (name : Str) (abs : Bool) : Str :=
  fmtAbs abs ++ (if needsQuote name then '\'' :: dbl name ++ ['\''] else name)

/-- `if let Some(sheet) = … { fmt_table_name(…)? }`, src/refs.rs:1011-1017 and its copies. -/
def fmtTable (name : Option Str) (abs : Bool) : Str :=
  match name with
  | none => []
  | some n => fmtTableName n abs

/-- `fmt_cell_ref`, src/refs.rs:1009-1022. -/
def fmtCellRef (r : CellRef) : Str :=
  fmtIri r.iri
    ++ fmtTable r.table (r.iri.isSome || r.col.abs || r.row.abs)
    ++ ['.'] ++ fmtCol r.col ++ fmtRow r.row

/-- The condition src/refs.rs:1031-1035 and 1046-1050. -/
def CellRange.isAbs (r : CellRange) : Bool :=
  r.iri.isSome || r.fromRow.abs || r.fromCol.abs || r.toRow.abs || r.toCol.abs

/-- `fmt_cell_range`, src/refs.rs:1025-1057. -/
def fmtCellRange (r : CellRange) : Str :=
  fmtIri r.iri
    ++ fmtTable r.fromTable (CellRange.isAbs r)
    ++ ['.'] ++ fmtCol r.fromCol ++ fmtRow r.fromRow
    ++ [':']
    ++ fmtTable r.toTable (CellRange.isAbs r)
    ++ ['.'] ++ fmtCol r.toCol ++ fmtRow r.toRow

/-- `fmt_col_range`, src/refs.rs:1060-1082. -/
def fmtColRange (r : ColRange) : Str :=
  fmtIri r.iri
    ++ fmtTable r.fromTable (r.iri.isSome || r.fromCol.abs || r.toCol.abs)
    ++ ['.'] ++ fmtCol r.fromCol
    ++ [':']
    ++ fmtTable r.toTable (r.iri.isSome || r.fromCol.abs || r.toCol.abs)
    ++ ['.'] ++ fmtCol r.toCol

/-- `fmt_row_range`, src/refs.rs:1085-1107. -/
def fmtRowRange (r : RowRange) : Str :=
  fmtIri r.iri
    ++ fmtTable r.fromTable (r.iri.isSome || r.fromRow.abs || r.toRow.abs)
    ++ ['.'] ++ fmtRow r.fromRow
    ++ [':']
    ++ fmtTable r.toTable (r.iri.isSome || r.fromRow.abs || r.toRow.abs)
    ++ ['.'] ++ fmtRow r.toRow

/-- `format_cellranges`, src/refs.rs:1202-1218: a blank between the ranges. -/
def fmtCellRanges : List CellRange → Str
  | [] => []
  | [r] => fmtCellRange r
  | r :: rs => fmtCellRange r ++ ' ' :: fmtCellRanges rs

end Verif.Refs
