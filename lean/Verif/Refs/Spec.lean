import Verif.Refs.Types

/-!
# What references are supposed to look like

Definitions used to state the properties; they do not mention the formatter or the parser.
-/

set_option autoImplicit false

namespace Verif.Refs.Spec

/-- The largest `u32`. -/
def maxU32 : Nat := 2 ^ 32 - 1

/-- A capital letter `A` to `Z`. -/
def Capital (c : Char) : Prop := 'A' ≤ c ∧ c ≤ 'Z'

/-- A letter `A` to `Z` or `a` to `z`. -/
def Letter (c : Char) : Prop := Capital c ∨ ('a' ≤ c ∧ c ≤ 'z')

/-- A digit `0` to `9`. -/
def Digit (c : Char) : Prop := '0' ≤ c ∧ c ≤ '9'

/-- `s` comes before `t` in the alphabet, for texts of the same length. -/
def AlphaBefore : Str → Str → Prop
  | c :: s, d :: t => c < d ∨ (c = d ∧ AlphaBefore s t)
  | _, _ => False

/-- The order of column names in a spreadsheet: `A, …, Z, AA, AB, …`. -/
def NameBefore (s t : Str) : Prop :=
  s.length < t.length ∨ (s.length = t.length ∧ AlphaBefore s t)

/-- The number a text of decimal digits stands for. -/
def decimal : Str → Nat
  | [] => 0
  | c :: s => (c.toNat - '0'.toNat) * 10 ^ s.length + decimal s

/-- A character that needs no quoting in a sheet name: an ASCII letter or digit, an underscore, or
anything outside ASCII. -/
def PlainChar (c : Char) : Prop := Letter c ∨ Digit c ∨ c = '_' ∨ 128 ≤ c.toNat

/-- A name that is put into quotes: it contains a quote, a blank or a dot. -/
def Quoted (n : Str) : Prop := '\'' ∈ n ∨ ' ' ∈ n ∨ '.' ∈ n

/-- The sheet names that survive: not empty, and either put into quotes or made of plain
characters only. -/
def GoodName (n : Str) : Prop := n ≠ [] ∧ (Quoted n ∨ ∀ c ∈ n, PlainChar c)

/-- No sheet name, or a good one. -/
def GoodTable (t : Option Str) : Prop := ∀ n, t = some n → GoodName n

/-- The indexes of a cell reference are `u32`s. -/
def RefU32 (r : CellRef) : Prop := r.row.row ≤ maxU32 ∧ r.col.col ≤ maxU32

/-- A cell reference with a good name that does not refer to the very last row or column. -/
def GoodRef (r : CellRef) : Prop :=
  GoodTable r.table ∧ r.row.row < maxU32 ∧ r.col.col < maxU32

def RangeU32 (r : CellRange) : Prop :=
  r.fromRow.row ≤ maxU32 ∧ r.fromCol.col ≤ maxU32 ∧ r.toRow.row ≤ maxU32 ∧ r.toCol.col ≤ maxU32

def GoodRange (r : CellRange) : Prop :=
  GoodTable r.fromTable ∧ GoodTable r.toTable ∧ r.fromRow.row < maxU32 ∧ r.fromCol.col < maxU32
    ∧ r.toRow.row < maxU32 ∧ r.toCol.col < maxU32

def ColRangeU32 (r : ColRange) : Prop := r.fromCol.col ≤ maxU32 ∧ r.toCol.col ≤ maxU32

def GoodColRange (r : ColRange) : Prop :=
  GoodTable r.fromTable ∧ GoodTable r.toTable ∧ r.fromCol.col < maxU32 ∧ r.toCol.col < maxU32

def RowRangeU32 (r : RowRange) : Prop := r.fromRow.row ≤ maxU32 ∧ r.toRow.row ≤ maxU32

def GoodRowRange (r : RowRange) : Prop :=
  GoodTable r.fromTable ∧ GoodTable r.toTable ∧ r.fromRow.row < maxU32 ∧ r.toRow.row < maxU32

/-- `s` contains no `n` letters in a row. -/
def NoRun (n : Nat) (s : Str) : Prop :=
  ∀ t, t <:+: s → t.length = n → ∃ c ∈ t, ¬ Letter c

end Verif.Refs.Spec
