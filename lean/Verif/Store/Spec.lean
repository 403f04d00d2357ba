import Verif.Store.Model

/-!
# Specification of the cell store: one record of observations per cell

What a user sees of a cell is the result of the getters.  The specification of a history is a fold
over the calls that name that cell; calls that name other cells are skipped.
-/

set_option autoImplicit false

namespace Verif

/-- What the getters of `Sheet` return for one position. `draw_frames` returns `None` or an empty
list when there are no frames, the two are identified here. -/
structure Obs where
  present : Bool
  value : Value
  formula : Option Str
  style : Option String
  «repeat» : Nat
  validation : Option String
  rowSpan : Nat
  colSpan : Nat
  matrixRowSpan : Nat
  matrixColSpan : Nat
  annotation : Option Annotation
  drawFrames : List DrawFrame
  deriving DecidableEq

/-- A position nothing was ever stored at. -/
def Obs.fresh : Obs :=
  { present := false, value := .empty, formula := none, style := none, «repeat» := 1
    validation := none, rowSpan := 1, colSpan := 1, matrixRowSpan := 1, matrixColSpan := 1
    annotation := none, drawFrames := [] }

/-- The getters, all at once. -/
def observe (m : Cells) (r c : Nat) : Obs :=
  { present := !m.isEmpty r c
    value := m.value r c
    formula := m.formula r c
    style := m.cellstyle r c
    «repeat» := m.cellRepeat r c
    validation := m.validation r c
    rowSpan := m.rowSpan r c
    colSpan := m.colSpan r c
    matrixRowSpan := m.matrixRowSpan r c
    matrixColSpan := m.matrixColSpan r c
    annotation := m.annotation r c
    drawFrames := (m.drawFrames r c).getD [] }

/-- The position an operation names. -/
def CellOp.pos : CellOp → Nat × Nat
  | .setValue r c _ | .setStyledValue r c _ _ | .setFormula r c _ | .clearFormula r c
  | .setRepeat r c _ | .setCellstyle r c _ | .clearCellstyle r c | .setValidation r c _
  | .clearValidation r c | .setRowSpan r c _ | .setColSpan r c _ | .setMatrixRowSpan r c _
  | .setMatrixColSpan r c _ | .setAnnotation r c _ | .clearAnnotation r c | .addDrawFrame r c _
  | .editAnnotation r c _ | .editDrawFrames r c _ | .clearDrawFrames r c | .addCell r c _ | .removeCell r c => (r, c)

/-- The intended effect of an operation on the cell it names. -/
def Obs.after (o : Obs) : CellOp → Obs
  | .setValue _ _ v => { o with present := true, value := v }
  | .setStyledValue _ _ v s => { o with present := true, value := v, style := some s }
  | .setFormula _ _ f => { o with present := true, formula := some f }
  | .clearFormula _ _ => { o with formula := none }
  | .setRepeat _ _ n => { o with present := true, «repeat» := n }
  | .setCellstyle _ _ s => { o with present := true, style := some s }
  | .clearCellstyle _ _ => { o with style := none }
  | .setValidation _ _ s => { o with present := true, validation := some s }
  | .clearValidation _ _ => { o with validation := none }
  | .setRowSpan _ _ n => { o with present := true, rowSpan := n }
  | .setColSpan _ _ n => { o with present := true, colSpan := n }
  | .setMatrixRowSpan _ _ n => { o with present := true, matrixRowSpan := n }
  | .setMatrixColSpan _ _ n => { o with present := true, matrixColSpan := n }
  | .setAnnotation _ _ a => { o with present := true, annotation := some a }
  | .clearAnnotation _ _ => { o with annotation := none }
  | .editAnnotation _ _ g => { o with annotation := o.annotation.map g }
  | .addDrawFrame _ _ f => { o with present := true, drawFrames := o.drawFrames ++ [f] }
  | .clearDrawFrames _ _ => { o with drawFrames := [] }
  | .editDrawFrames _ _ g => { o with drawFrames := o.drawFrames.map g }
  | .addCell _ _ x =>
    { present := true, value := x.value, formula := x.formula, style := x.style
      «repeat» := x.repeat, validation := x.validation
      rowSpan := x.span.rowSpan, colSpan := x.span.colSpan
      matrixRowSpan := x.matrixSpan.rowSpan, matrixColSpan := x.matrixSpan.colSpan
      annotation := x.annotation, drawFrames := x.drawFrames }
  | .removeCell _ _ => .fresh

/-- What position `p` should look like after the history `ops` on an empty sheet. -/
def specAt (p : Nat × Nat) (ops : List CellOp) : Obs :=
  (ops.filter (fun op => decide (op.pos = p))).foldl Obs.after .fresh

/-- The calls that the API rejects by a panic: a span of zero. -/
def CellOp.rejected : CellOp → Bool
  | .setRowSpan _ _ n | .setColSpan _ _ n | .setMatrixRowSpan _ _ n | .setMatrixColSpan _ _ n =>
    n == 0
  | _ => false

end Verif
