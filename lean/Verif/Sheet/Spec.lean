import Verif.Sheet.Model
import Verif.Store.Spec

/-!
# Specification: what a sheet should look like after a history of calls

Every setting is that of the last call that names it.  The cells, columns and rows are specified position by position
(`specAt`, `colSpec`, `rowSpec`); showing or hiding a group counts as a call for each column or row of the group.
-/

set_option autoImplicit false

namespace Verif.Sheets.Spec

open TableXml Config

/-- The last of the wishes that the calls express, or the initial value. -/
def lastWish {α : Type} (f : Call → Option α) (init : α) (cs : List Call) : α := ((cs.filterMap f).getLast?).getD init

def wishName : Call → Option Str
  | .setName n => some n
  | _ => none

def wishStyle : Call → Option (Option Str)
  | .setStyle n => some (some n)
  | _ => none

def wishDisplay : Call → Option Bool
  | .setDisplay b => some b
  | _ => none

def wishPrint : Call → Option Bool
  | .setPrint b => some b
  | _ => none

def wishHeaderRows : Call → Option (Option HeaderRange)
  | .setHeaderRows f t => some (some ⟨f, t⟩)
  | .clearHeaderRows => some none
  | _ => none

def wishHeaderCols : Call → Option (Option HeaderRange)
  | .setHeaderCols f t => some (some ⟨f, t⟩)
  | .clearHeaderCols => some none
  | _ => none

/-- How and where the view is split into left and right. -/
def wishLeftRight : Call → Option (SplitMode × Nat)
  | .setConfig c => some (c.horSplitMode, c.horSplitPos)
  | .splitColHeader n => some (.heading, n + 1)
  | .splitHorizontal n => some (.split, n)
  | _ => none

/-- How and where the view is split into top and bottom. -/
def wishTopBottom : Call → Option (SplitMode × Nat)
  | .setConfig c => some (c.vertSplitMode, c.vertSplitPos)
  | .splitRowHeader n => some (.heading, n + 1)
  | .splitVertical n => some (.split, n)
  | _ => none

/-- The first column shown on the right and the column of the cursor. -/
def wishRight : Call → Option (Nat × Nat)
  | .setConfig c => some (c.positionRight, c.cursorX)
  | .splitColHeader n => some (n + 1, n + 1)
  | _ => none

/-- The first row shown at the bottom and the row of the cursor. -/
def wishBottom : Call → Option (Nat × Nat)
  | .setConfig c => some (c.positionBottom, c.cursorY)
  | .splitRowHeader n => some (n + 1, n + 1)
  | _ => none

/-- The other settings of the view. -/
def otherView (c : SheetConfig) : Int × Nat × Nat × Int × Int × Int × Bool :=
  (c.activeSplitRange, c.positionLeft, c.positionTop, c.zoomType, c.zoomValue, c.pageViewZoomValue, c.showGrid)

def wishOtherView : Call → Option (Int × Nat × Nat × Int × Int × Int × Bool)
  | .setConfig c => some (otherView c)
  | _ => none

/-- The print ranges added since they were cleared last. -/
def rangesOf : List CellRange → List Call → List CellRange
  | l, [] => l
  | l, .addPrintRange r :: cs => rangesOf (l ++ [r]) cs
  | _, .clearPrintRanges :: cs => rangesOf [] cs
  | l, _ :: cs => rangesOf l cs

/-- The calls about cells. -/
def cellCalls (cs : List Call) : List CellOp := cs.filterMap fun
  | .cell op => some op
  | _ => none

/-- The groups of columns that there are: from, to. -/
def colGroups : List (Nat × Nat) → List Call → List (Nat × Nat)
  | gs, [] => gs
  | gs, .colGroup (.add f t) :: cs => colGroups (gs ++ [(f, t)]) cs
  | gs, .colGroup (.remove f t) :: cs => colGroups (gs.erase (f, t)) cs
  | gs, _ :: cs => colGroups gs cs

/-- The groups of rows that there are: from, to. -/
def rowGroups : List (Nat × Nat) → List Call → List (Nat × Nat)
  | gs, [] => gs
  | gs, .rowGroup (.add f t) :: cs => rowGroups (gs ++ [(f, t)]) cs
  | gs, .rowGroup (.remove f t) :: cs => rowGroups (gs.erase (f, t)) cs
  | gs, _ :: cs => rowGroups gs cs

/-- The numbers `f`, …, `t`. -/
def fromTo (f t : Nat) : List Nat := (List.range (t + 1 - f)).map (f + ·)

/-- Shown or hidden. -/
def shownAs (b : Bool) : Visibility := if b then .visible else .collapsed

/-- The calls about columns; to show or to hide a group that there is means to show or to hide its columns. -/
def colCalls : List (Nat × Nat) → List Call → List ColOp
  | _, [] => []
  | gs, .colGroup (.add f t) :: cs => colCalls (gs ++ [(f, t)]) cs
  | gs, .colGroup (.remove f t) :: cs => colCalls (gs.erase (f, t)) cs
  | gs, .showColGroup f t b :: cs =>
    (if (f, t) ∈ gs then (fromTo f t).map fun c => .setVisible c (shownAs b) else []) ++ colCalls gs cs
  | gs, .col op :: cs => op :: colCalls gs cs
  | gs, _ :: cs => colCalls gs cs

/-- The calls about rows, likewise. -/
def rowCalls : List (Nat × Nat) → List Call → List RowOp
  | _, [] => []
  | gs, .rowGroup (.add f t) :: cs => rowCalls (gs ++ [(f, t)]) cs
  | gs, .rowGroup (.remove f t) :: cs => rowCalls (gs.erase (f, t)) cs
  | gs, .showRowGroup f t b :: cs =>
    (if (f, t) ∈ gs then (fromTo f t).map fun r => .setVisible r (shownAs b) else []) ++ rowCalls gs cs
  | gs, .row op :: cs => op :: rowCalls gs cs
  | gs, _ :: cs => rowCalls gs cs

/-- A group from `f` to `t` is not allowed beside the groups `gs`: it is no interval, or it overlaps one of them and
neither lies within the other. -/
def BadGroup (gs : List (Nat × Nat)) (f t : Nat) : Prop :=
  t < f ∨ ∃ g ∈ gs, Crossing ⟨f, t, true⟩ ⟨g.1, g.2, true⟩

/-- The calls that are refused by a panic, if there are these groups of columns and rows: a span of zero cells, a row
repeated zero times, a group that is not allowed, and a split behind the last column or row. -/
def Refused (cols rows : List (Nat × Nat)) : Call → Prop
  | .cell op => op.rejected = true
  | .row op => op.rejected = true
  | .colGroup (.add f t) => BadGroup cols f t
  | .rowGroup (.add f t) => BadGroup rows f t
  | .splitColHeader n => 4294967295 ≤ n
  | .splitRowHeader n => 4294967295 ≤ n
  | _ => False

end Verif.Sheets.Spec
