import Verif.Header.Model

/-!
# Specification of the column and row attributes

What a user sees of a column or row is the result of its getters.  The specification of a history is
a fold over the calls that name that column or row; all other calls are skipped.
-/

set_option autoImplicit false

namespace Verif

/-- What the column getters return. -/
structure ColObs where
  style : Option String := none
  cellstyle : Option String := none
  visible : Visibility := .visible
  width : Length := .default
  deriving DecidableEq

/-- The column getters, all at once. -/
def ColHeaders.observe (m : ColHeaders) (col : Nat) : ColObs :=
  { style := m.colstyle col, cellstyle := m.colCellstyle col
    visible := m.colVisible col, width := m.colWidth col }

/-- The column a call names. -/
def ColOp.col : ColOp → Nat
  | .setStyle c _ | .clearStyle c | .setCellstyle c _ | .clearCellstyle c | .setVisible c _
  | .setWidth c _ => c

/-- The intended effect of a call on the column it names. -/
def ColObs.after (o : ColObs) : ColOp → ColObs
  | .setStyle _ s => { o with style := some s }
  | .clearStyle _ => { o with style := none }
  | .setCellstyle _ s => { o with cellstyle := some s }
  | .clearCellstyle _ => { o with cellstyle := none }
  | .setVisible _ v => { o with visible := v }
  | .setWidth _ w => { o with width := w }

/-- What column `c` should look like after the history `ops`, if it looked like `o` before. -/
def colSpec (o : ColObs) (c : Nat) (ops : List ColOp) : ColObs :=
  (ops.filter (fun op => decide (op.col = c))).foldl ColObs.after o

/-- What the row getters return. -/
structure RowObs where
  style : Option String := none
  cellstyle : Option String := none
  visible : Visibility := .visible
  «repeat» : Nat := 0
  height : Length := .default
  deriving DecidableEq

/-- The row getters, all at once. -/
def RowHeaders.observe (m : RowHeaders) (row : Nat) : RowObs :=
  { style := m.rowstyle row, cellstyle := m.rowCellstyle row, visible := m.rowVisible row
    «repeat» := m.rowRepeat row, height := m.rowHeight row }

/-- The row a call names. -/
def RowOp.row : RowOp → Nat
  | .setStyle c _ | .clearStyle c | .setCellstyle c _ | .clearCellstyle c | .setVisible c _
  | .setRepeat c _ | .setHeight c _ => c

/-- The repeat count is reported as 0 for a row nothing was ever set for, and is 1 from the first
call on. -/
def RowObs.touch (o : RowObs) : RowObs := if o.repeat = 0 then { o with «repeat» := 1 } else o

/-- The intended effect of a call on the row it names. -/
def RowObs.after (o : RowObs) : RowOp → RowObs
  | .setStyle _ s => { o.touch with style := some s }
  | .clearStyle _ => { o.touch with style := none }
  | .setCellstyle _ s => { o.touch with cellstyle := some s }
  | .clearCellstyle _ => { o.touch with cellstyle := none }
  | .setVisible _ v => { o.touch with visible := v }
  | .setRepeat _ n => { o with «repeat» := n }
  | .setHeight _ w => { o.touch with height := w }

/-- What row `r` should look like after the history `ops` on a fresh sheet. -/
def rowSpec (r : Nat) (ops : List RowOp) : RowObs :=
  (ops.filter (fun op => decide (op.row = r))).foldl RowObs.after {}

/-- Stored spans do not overlap and are not empty: a column belongs to at most one stored header. -/
def ColHeaders.WF (m : ColHeaders) : Prop :=
  OMap.Sorted m ∧ (∀ p ∈ m, 1 ≤ p.2.span)
    ∧ m.Pairwise (fun p q => p.1 + p.2.span ≤ q.1)

/-- Stored row spans do not overlap (they may be empty), repeat counts are not zero. -/
def RowHeaders.WF (m : RowHeaders) : Prop :=
  OMap.Sorted m ∧ (∀ p ∈ m, 1 ≤ p.2.repeat)
    ∧ m.Pairwise (fun p q => p.1 + p.2.span ≤ q.1)

/-- Histories in which no call names a row for a second time while the row below it has been named
already. -/
def rowsSafe (named : List Nat) : List RowOp → Prop
  | [] => True
  | op :: ops => (op.row ∈ named → op.row + 1 ∉ named) ∧ rowsSafe (op.row :: named) ops

/-- The call that the API rejects by a panic: a repeat of zero. -/
def RowOp.rejected : RowOp → Bool
  | .setRepeat _ n => n == 0
  | _ => false

/-- Neighbouring headers with equal attributes have no column between them. -/
def ColHeaders.NoGap : ColHeaders → Prop
  | p :: q :: m => (p.2.limitedEq q.2 = true → p.1 + p.2.span = q.1) ∧ ColHeaders.NoGap (q :: m)
  | _ => True

/-- No stored header extends over a border. -/
def ColHeaders.Uncrossed (m : ColHeaders) (isSplit : Nat → Bool) : Prop :=
  ∀ p ∈ m, ∀ c, isSplit c = true → ¬ (p.1 < c ∧ c < p.1 + p.2.span)

/-- Two groups cross: they overlap and neither lies within the other. -/
def Crossing (a b : Grouped) : Prop :=
  (∃ x, a.frm ≤ x ∧ x ≤ a.to ∧ b.frm ≤ x ∧ x ≤ b.to)
  ∧ (∃ x, a.frm ≤ x ∧ x ≤ a.to ∧ ¬ (b.frm ≤ x ∧ x ≤ b.to))
  ∧ (∃ x, b.frm ≤ x ∧ x ≤ b.to ∧ ¬ (a.frm ≤ x ∧ x ≤ a.to))

/-- Calls on the groups of one axis. -/
inductive GroupOp where
  | add (frm to : Nat)
  | remove (frm to : Nat)

/-- One call; `none` is a panic. -/
def GroupOp.step (gs : List Grouped) : GroupOp → Option (List Grouped)
  | .add f t => addGroup gs f t
  | .remove f t => some (removeGroup gs f t)

/-- A history of group calls; `none` if one of them panics. -/
def GroupOp.run (gs : List Grouped) : List GroupOp → Option (List Grouped)
  | [] => some gs
  | op :: ops => match op.step gs with
    | some gs' => GroupOp.run gs' ops
    | none => none

end Verif
