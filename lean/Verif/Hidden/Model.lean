import Verif.Refs.Types

/-!
# Splitting repeated cells at covered areas (src/io/write.rs:1472-1574)
-/

set_option autoImplicit false

namespace Verif

/-- `SplitCols`, src/io/write.rs:1471-1476. -/
structure SplitCols where
  col : Nat
  colTo : Nat
  hidden : Bool
  deriving DecidableEq

/-- `SplitCols::repeat`, src/io/write.rs:1479-1481. -/
def SplitCols.repeat (s : SplitCols) : Nat := s.colTo - s.col + 1

/-- One round of `'col_loop`, src/io/write.rs:1511-1561: column `c` is hidden or not; the state is
`(range, out)`. Both branches of the code do the same with the flag exchanged. -/
def splitStep (hidden : Bool) (c : Nat) (st : Option SplitCols × List SplitCols) :
    Option SplitCols × List SplitCols :=
  match st.1 with
  | some range =>
    if range.hidden == hidden then (some { range with colTo := c }, st.2)
    else (some ⟨c, c, hidden⟩, st.2 ++ [range])
  | none => (some ⟨c, c, hidden⟩, st.2)

/-- `split_hidden`, src/io/write.rs:1485-1567: the content of `out` after the call. -/
def splitHidden (ranges : List CellRange) (row col rep : Nat) : List SplitCols :=
  if rep = 1 then
    [⟨col, col, ranges.any (fun v => v.contains row col)⟩]
  else
    let rs := ranges.filter (fun v => decide (v.fromRow.row ≤ row) && decide (row ≤ v.toRow.row))
    let st := (List.range' col rep).foldl (fun st c =>
      splitStep (rs.any (fun r => decide (r.fromCol.col ≤ c) && decide (c ≤ r.toCol.col))) c st)
      (none, [])
    match st.1 with
    | some range => st.2 ++ [range]
    | none => st.2

/-- `remove_outlived`, src/io/write.rs:1569-1574. -/
def removeOutlived (ranges : List CellRange) (row col : Nat) : List CellRange :=
  ranges.filter (fun s => !s.outLooped row col)

end Verif
