import Verif.Refs.Types

/-!
# Parsing cell references (src/refs/parser.rs, src/refs.rs `parse_*`)

A parser takes the rest of the input and returns a value and the new rest, or fails.  The nom
combinators used (`tuple`, `opt`, `alt`, `many0`, `recognize`, `take_while1`, `separated_list0`,
`all_consuming`, `terminated`) are written out.  All failures are recoverable (`nom::Err::Error`);
of the error codes only those are kept that decide something: `parse_iri` looks at the code.

Integer arithmetic is `u32`.  Whether an overflow panics or wraps depends on how the crate is
built, so both are modelled: `Ints.wrap = false` is a build with overflow checks (the default for
debug builds), `true` one without (release).  The bound is a parameter of the model; the code is
`Ints.max = u32Max`.
-/

set_option autoImplicit false

namespace Verif.Refs

/-- How a parser can fail to return a value. -/
inductive PFail where
  /-- An error with code `CRSingleQuoteStart`. -/
  | quoteStart
  /-- An error with code `CRHash`. -/
  | hash
  /-- An error with any other code. -/
  | other
  /-- A panic. -/
  | panic
  deriving DecidableEq

/-- A parser. -/
abbrev P (α : Type) := Str → Except PFail (α × Str)

/-- The integer type: its largest value and what an overflow does. -/
structure Ints where
  max : Nat
  wrap : Bool

/-- The result of an arithmetic operation whose mathematical value is `n`. -/
def Ints.fit (m : Ints) (n : Nat) : Except PFail Nat :=
  if n ≤ m.max then .ok n else if m.wrap then .ok (n % (m.max + 1)) else .error .panic

/-- `char::is_ascii_uppercase`. -/
def isUpper (c : Char) : Bool := decide (65 ≤ c.toNat) && decide (c.toNat ≤ 90)

/-- `char::is_ascii_alphabetic`, which is what nom's `alpha1` uses. -/
def isAlpha (c : Char) : Bool :=
  isUpper c || (decide (97 ≤ c.toNat) && decide (c.toNat ≤ 122))

/-- `char::is_ascii_digit`, which is what nom's `digit1` uses. -/
def isDigit (c : Char) : Bool := decide (48 ≤ c.toNat) && decide (c.toNat ≤ 57)

/-- The characters of an unquoted sheet name, src/refs/parser.rs:469-478 and 484-488. -/
def isNameChar (c : Char) : Bool :=
  isAlpha c || isDigit c || decide (c.toNat = 95) || decide (128 ≤ c.toNat)

/-- `unquote_single` from the second step on: `replace("''", "'")`, src/refs/parser.rs:232. -/
def undbl : Str → Str
  | '\'' :: '\'' :: s => '\'' :: undbl s
  | c :: s => c :: undbl s
  | [] => []

/-- `strip_prefix('\'')` or the text itself, src/refs/parser.rs:223-226. -/
def stripPre : Str → Str
  | '\'' :: s => s
  | s => s

/-- `strip_suffix('\'')` or the text itself, src/refs/parser.rs:227-230. -/
def stripSuf (s : Str) : Str := (stripPre s.reverse).reverse

/-- `unquote_single`, src/refs/parser.rs:222-233. -/
def unquoteSingle (s : Str) : Str := undbl (stripSuf (stripPre s))

/-- `recognize(many0(alt((take_while1(..), recognize(count(nchar('\''), 2))))))`,
src/refs/parser.rs:450-453: the text inside quotes, and the rest of the input. -/
def quotedBody : Str → Str × Str
  | [] => ([], [])
  | c :: s =>
    if c = '\'' then
      match s with
      | [] => ([], [c])
      | d :: s' =>
        if d = '\'' then ('\'' :: '\'' :: (quotedBody s').1, (quotedBody s').2)
        else ([], c :: d :: s')
    else (c :: (quotedBody s).1, (quotedBody s).2)

/-- `single_quoted_string`, src/refs/parser.rs:447-459. -/
def singleQuoted : P Str
  | '\'' :: s =>
    match (quotedBody s).2 with
    | '\'' :: rest => .ok (unquoteSingle ('\'' :: (quotedBody s).1 ++ ['\'']), rest)
    | _ => .error .other
  | _ => .error .quoteStart

/-- `tag` for a text of one character: `hashtag`, `dollar_nom`, `dot`, `colon`,
src/refs/parser.rs:462-464 and 496-508. -/
def tagC (c : Char) (e : PFail) : P Unit
  | d :: s => if d = c then .ok ((), s) else .error e
  | [] => .error e

/-- `take_while1`. -/
def takeWhile1 (f : Char → Bool) : P Str := fun s =>
    match s.takeWhile f with
    | [] => .error .other
    | n => .ok (n, s.dropWhile f)

/-- `opt(dollar_nom)` followed by `try_bool_from_abs_flag`, src/refs/parser.rs:236-242. -/
def optDollar : Str → Bool × Str
  | '$' :: s => (true, s)
  | s => (false, s)

/-- `unquoted_sheet_name`, src/refs/parser.rs:482-493. -/
def unquotedName : P Str := takeWhile1 isNameChar

/-- `parse_iri`, src/refs/parser.rs:373-388. -/
def parseIri : P (Option Str) := fun s =>
    match singleQuoted s with
    | .ok (iri, rest) =>
      match tagC '#' .hash rest with
      | .ok (_, rest') => .ok (some iri, rest')
      | .error _ => .ok (none, s)
    | .error .quoteStart => .ok (none, s)
    | .error e => .error e

/-- `opt(single_quoted_string.or(unquoted_sheet_name))`, src/refs/parser.rs:393. -/
def optName (s : Str) : Option Str × Str :=
  match singleQuoted s with
  | .ok (n, rest) => (some n, rest)
  | .error _ =>
    match unquotedName s with
    | .ok (n, rest) => (some n, rest)
    | .error _ => (none, s)

/-- `parse_sheet_name`, src/refs/parser.rs:390-398. -/
def parseSheetName : P (Option Str) := fun s =>
    match tagC '.' .other (optName (optDollar s).2).2 with
    | .ok (_, rest) => .ok ((optName (optDollar s).2).1, rest)
    | .error e => .error e

/-- The value of a text of decimal digits. -/
def decVal (s : Str) : Nat := s.foldl (fun v c => v * 10 + (c.toNat - 48)) 0

/-- `try_u32_from_rowname`, src/refs/parser.rs:291-304, for a non-empty text of decimal digits
(which is all that `digit1` lets through): `u32::from_str` fails on overflow only. -/
def rowFromName (m : Ints) (s : Str) : Except PFail Nat :=
  if decVal s ≤ m.max then
    if 0 < decVal s then .ok (decVal s - 1) else .error .other
  else .error .other

/-- `parse_row` with the token `row`, src/refs/parser.rs:400-411 and 522-528. -/
def parseRow (m : Ints) : P CRow := fun s =>
    match takeWhile1 isDigit (optDollar s).2 with
    | .ok (ds, rest) =>
      match rowFromName m ds with
      | .ok v => .ok ({ abs := (optDollar s).1, row := v }, rest)
      | .error e => .error e
    | .error e => .error e

/-- One turn of the loop in `try_u32_from_colname`, src/refs/parser.rs:337-349. -/
def colStep (m : Ints) (col : Nat) (c : Char) : Except PFail Nat :=
  if isUpper c then
    if c.toNat - 65 = 25 then
      match m.fit (col + 1) with
      | .error e => .error e
      | .ok a =>
        match m.fit (a * 26) with
        | .error e => .error e
        | .ok b => m.fit (b + 0)
    else
      match m.fit (col * 26) with
      | .error e => .error e
      | .ok b => m.fit (b + (c.toNat - 65 + 1))
  else .error .other

/-- The loop in `try_u32_from_colname`, src/refs/parser.rs:336-350. -/
def colLoop (m : Ints) : Nat → Str → Except PFail Nat
  | col, [] => .ok col
  | col, c :: s =>
    match colStep m col c with
    | .error e => .error e
    | .ok col' => colLoop m col' s

/-- `try_u32_from_colname`, src/refs/parser.rs:333-357. -/
def colFromName (m : Ints) (s : Str) : Except PFail Nat :=
  match colLoop m 0 s with
  | .error e => .error e
  | .ok v => if v = 0 then .error .other else .ok (v - 1)

/-- `parse_col` with the token `col`, src/refs/parser.rs:413-424 and 512-518. -/
def parseCol (m : Ints) : P CCol := fun s =>
    match takeWhile1 isAlpha (optDollar s).2 with
    | .ok (ds, rest) =>
      match colFromName m ds with
      | .ok v => .ok ({ abs := (optDollar s).1, col := v }, rest)
      | .error e => .error e
    | .error e => .error e

/-- `parse_cell_ref` without `all_consuming`, src/refs/parser.rs:105-110. -/
def pCellRef (m : Ints) : P CellRef := fun s => do
  let (iri, s) ← parseIri s
  let (table, s) ← parseSheetName s
  let (col, s) ← parseCol m s
  let (row, s) ← parseRow m s
  return ({ iri := iri, table := table, row := row, col := col }, s)

/-- `parse_cell_range`, src/refs/parser.rs:134-169. -/
def pCellRange (m : Ints) : P CellRange := fun s => do
  let (iri, s) ← parseIri s
  let (table, s) ← parseSheetName s
  let (col, s) ← parseCol m s
  let (row, s) ← parseRow m s
  let (_, s) ← tagC ':' .other s
  let (toTable, s) ← parseSheetName s
  let (toCol, s) ← parseCol m s
  let (toRow, s) ← parseRow m s
  return ({ iri := iri, fromTable := table, fromRow := row, fromCol := col
            toTable := toTable, toRow := toRow, toCol := toCol }, s)

/-- `parse_col_range`, src/refs/parser.rs:171-189. -/
def pColRange (m : Ints) : P ColRange := fun s => do
  let (iri, s) ← parseIri s
  let (table, s) ← parseSheetName s
  let (col, s) ← parseCol m s
  let (_, s) ← tagC ':' .other s
  let (toTable, s) ← parseSheetName s
  let (toCol, s) ← parseCol m s
  return ({ iri := iri, fromTable := table, fromCol := col, toTable := toTable, toCol := toCol }, s)

/-- `parse_row_range`, src/refs/parser.rs:191-209. -/
def pRowRange (m : Ints) : P RowRange := fun s => do
  let (iri, s) ← parseIri s
  let (table, s) ← parseSheetName s
  let (row, s) ← parseRow m s
  let (_, s) ← tagC ':' .other s
  let (toTable, s) ← parseSheetName s
  let (toRow, s) ← parseRow m s
  return ({ iri := iri, fromTable := table, fromRow := row, toTable := toTable, toRow := toRow }, s)

/-- `all_consuming`, and the test for a rest in the callers, src/refs.rs:1144-1149 and its copies. -/
def consumeAll {α : Type} (p : P α) (s : Str) : Except PFail α :=
  match p s with
  | .ok (v, []) => .ok v
  | .ok (_, _ :: _) => .error .other
  | .error e => .error e

/-- `parse_cellref`, src/refs.rs:1140-1150. -/
def parseCellRef (m : Ints) : Str → Except PFail CellRef := consumeAll (pCellRef m)

/-- `parse_cellrange`, src/refs.rs:1153-1163. -/
def parseCellRange (m : Ints) : Str → Except PFail CellRange := consumeAll (pCellRange m)

/-- `parse_colrange`, src/refs.rs:1166-1176. -/
def parseColRange (m : Ints) : Str → Except PFail ColRange := consumeAll (pColRange m)

/-- `parse_rowrange`, src/refs.rs:1179-1189. -/
def parseRowRange (m : Ints) : Str → Except PFail RowRange := consumeAll (pRowRange m)

/-- `multispace1`. -/
def isSpace (c : Char) : Bool := c == ' ' || c == '\t' || c == '\r' || c == '\n'

/-- The loop of `separated_list0(multispace1, parse_cell_range)` after the first range,
src/refs/parser.rs:125.  `fuel` bounds the turns; every turn consumes a character, so the length of
the input is enough.  A panic stops everything; an error ends the list. -/
def listLoop (m : Ints) : Nat → Str → Except PFail (List CellRange)
  | 0, _ => .ok []
  | fuel + 1, s =>
    match takeWhile1 isSpace s with
    | .error _ => .ok []
    | .ok (_, s') =>
      match pCellRange m s' with
      | .error .panic => .error .panic
      | .error _ => .ok []
      | .ok (r, s'') =>
        match listLoop m fuel s'' with
        | .ok rs => .ok (r :: rs)
        | .error e => .error e

/-- `parse_cellranges`, src/refs.rs:1192-1200 with src/refs/parser.rs:120-132: what is left of the
input after the list is ignored; an empty list is `None`. -/
def parseCellRanges (m : Ints) (s : Str) : Except PFail (Option (List CellRange)) :=
  match pCellRange m s with
  | .error .panic => .error .panic
  | .error _ => .ok none
  | .ok (r, s') =>
    match listLoop m s'.length s' with
    | .ok rs => .ok (some (r :: rs))
    | .error e => .error e

end Verif.Refs
