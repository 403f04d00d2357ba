import Verif.Types

/-!
# Model of the cell store of a sheet (src/sheet_.rs)
-/

set_option autoImplicit false

namespace Verif

/-- `Sheet::data: BTreeMap<(u32, u32), CellData>`, src/sheet_.rs:106-126. -/
abbrev Cells := OMap (Nat × Nat) CellData

namespace Cells

/-- `self.data.entry((row, col)).or_default()` followed by a mutation of the cell
(pattern of src/sheet_.rs:1077-1086). -/
def orDefault (m : Cells) (r c : Nat) (f : CellData → CellData) : Cells :=
  m.insert (r, c) (f ((m.get? (r, c)).getD {}))

/-- `if let Some(cell) = self.data.get_mut(&(row, col))` followed by a mutation
(pattern of src/sheet_.rs:1104-1108). -/
def modify (m : Cells) (r c : Nat) (f : CellData → CellData) : Cells :=
  match m.get? (r, c) with
  | none => m
  | some d => m.insert (r, c) (f d)

/-- `CellData::extra_mut` followed by a mutation, src/cell_.rs:189-194. -/
def extraMut (d : CellData) (f : CellDataExt → CellDataExt) : CellData :=
  { d with extra := some (f (d.extra.getD {})) }

/-- `Sheet::set_styled_value`, src/sheet_.rs:1070-1080. -/
def setStyledValue (m : Cells) (r c : Nat) (v : Value) (s : String) : Cells :=
  m.orDefault r c (fun d => { d with value := v, style := some s })

/-- `Sheet::set_value`, src/sheet_.rs:1083-1086. -/
def setValue (m : Cells) (r c : Nat) (v : Value) : Cells :=
  m.orDefault r c (fun d => { d with value := v })

/-- `Sheet::value`, src/sheet_.rs:1089-1095. -/
def value (m : Cells) (r c : Nat) : Value :=
  match m.get? (r, c) with
  | some d => d.value
  | none => .empty

/-- `Sheet::set_formula`, src/sheet_.rs:1098-1101. -/
def setFormula (m : Cells) (r c : Nat) (f : Str) : Cells :=
  m.orDefault r c (fun d => { d with formula := some f })

/-- `Sheet::clear_formula`, src/sheet_.rs:1104-1108. -/
def clearFormula (m : Cells) (r c : Nat) : Cells :=
  m.modify r c (fun d => { d with formula := none })

/-- `Sheet::formula`, src/sheet_.rs:1111-1117. -/
def formula (m : Cells) (r c : Nat) : Option Str :=
  match m.get? (r, c) with
  | some d => d.formula
  | none => none

/-- `Sheet::set_cell_repeat`, src/sheet_.rs:1120-1123 (0 is not rejected). -/
def setRepeat (m : Cells) (r c : Nat) (n : Nat) : Cells :=
  m.orDefault r c (fun d => { d with «repeat» := n })

/-- `Sheet::cell_repeat`, src/sheet_.rs:1126-1132. -/
def cellRepeat (m : Cells) (r c : Nat) : Nat :=
  match m.get? (r, c) with
  | some d => d.repeat
  | none => 1

/-- `Sheet::set_cellstyle`, src/sheet_.rs:1135-1138. -/
def setCellstyle (m : Cells) (r c : Nat) (s : String) : Cells :=
  m.orDefault r c (fun d => { d with style := some s })

/-- `Sheet::clear_cellstyle`, src/sheet_.rs:1141-1145. -/
def clearCellstyle (m : Cells) (r c : Nat) : Cells :=
  m.modify r c (fun d => { d with style := none })

/-- `Sheet::cellstyle`, src/sheet_.rs:1148-1154. -/
def cellstyle (m : Cells) (r c : Nat) : Option String :=
  match m.get? (r, c) with
  | some d => d.style
  | none => none

/-- `Sheet::set_validation`, src/sheet_.rs:1157-1160. -/
def setValidation (m : Cells) (r c : Nat) (v : String) : Cells :=
  m.orDefault r c (fun d => extraMut d (fun e => { e with validation := some v }))

/-- `Sheet::clear_validation`, src/sheet_.rs:1163-1167. -/
def clearValidation (m : Cells) (r c : Nat) : Cells :=
  m.modify r c (fun d => extraMut d (fun e => { e with validation := none }))

/-- `Sheet::validation`, src/sheet_.rs:1170-1176. -/
def validation (m : Cells) (r c : Nat) : Option String :=
  match m.get? (r, c) with
  | some { extra := some e, .. } => e.validation
  | _ => none

/-- `Sheet::set_row_span`, src/sheet_.rs:1179-1182 with the assertion of src/cell_.rs:57-60.
`none` is the panic. -/
def setRowSpan (m : Cells) (r c : Nat) (n : Nat) : Option Cells :=
  if n = 0 then none
  else some (m.orDefault r c (fun d => extraMut d (fun e => { e with span := { e.span with rowSpan := n } })))

/-- `Sheet::row_span`, src/sheet_.rs:1185-1191. -/
def rowSpan (m : Cells) (r c : Nat) : Nat :=
  match m.get? (r, c) with
  | some { extra := some e, .. } => e.span.rowSpan
  | _ => 1

/-- `Sheet::set_col_span`, src/sheet_.rs:1194-1198. -/
def setColSpan (m : Cells) (r c : Nat) (n : Nat) : Option Cells :=
  if n = 0 then none
  else some (m.orDefault r c (fun d => extraMut d (fun e => { e with span := { e.span with colSpan := n } })))

/-- `Sheet::col_span`, src/sheet_.rs:1201-1207. -/
def colSpan (m : Cells) (r c : Nat) : Nat :=
  match m.get? (r, c) with
  | some { extra := some e, .. } => e.span.colSpan
  | _ => 1

/-- `Sheet::set_matrix_row_span`, src/sheet_.rs:1210-1213. -/
def setMatrixRowSpan (m : Cells) (r c : Nat) (n : Nat) : Option Cells :=
  if n = 0 then none
  else some (m.orDefault r c (fun d =>
    extraMut d (fun e => { e with matrixSpan := { e.matrixSpan with rowSpan := n } })))

/-- `Sheet::matrix_row_span`, src/sheet_.rs:1216-1222. -/
def matrixRowSpan (m : Cells) (r c : Nat) : Nat :=
  match m.get? (r, c) with
  | some { extra := some e, .. } => e.matrixSpan.rowSpan
  | _ => 1

/-- `Sheet::set_matrix_col_span`, src/sheet_.rs:1225-1228. -/
def setMatrixColSpan (m : Cells) (r c : Nat) (n : Nat) : Option Cells :=
  if n = 0 then none
  else some (m.orDefault r c (fun d =>
    extraMut d (fun e => { e with matrixSpan := { e.matrixSpan with colSpan := n } })))

/-- `Sheet::matrix_col_span`, src/sheet_.rs:1231-1237. -/
def matrixColSpan (m : Cells) (r c : Nat) : Nat :=
  match m.get? (r, c) with
  | some { extra := some e, .. } => e.matrixSpan.colSpan
  | _ => 1

/-- `Sheet::set_annotation`, src/sheet_.rs:1240-1243. -/
def setAnnotation (m : Cells) (r c : Nat) (a : Annotation) : Cells :=
  m.orDefault r c (fun d => extraMut d (fun e => { e with annotation := some a }))

/-- `Sheet::clear_annotation`, src/sheet_.rs:1246-1250. -/
def clearAnnotation (m : Cells) (r c : Nat) : Cells :=
  m.modify r c (fun d => extraMut d (fun e => { e with annotation := none }))

/-- `Sheet::annotation`, src/sheet_.rs:1253-1259. -/
def annotation (m : Cells) (r c : Nat) : Option Annotation :=
  match m.get? (r, c) with
  | some { extra := some e, .. } => e.annotation
  | _ => none

/-- A change of the annotation that `Sheet::annotation_mut` gives out, src/sheet_.rs:1262-1268. -/
def editAnnotation (m : Cells) (r c : Nat) (g : Annotation → Annotation) : Cells :=
  m.modify r c (fun d => { d with extra := d.extra.map (fun e => { e with annotation := e.annotation.map g }) })

/-- `Sheet::add_draw_frame`, src/sheet_.rs:1271-1274. -/
def addDrawFrame (m : Cells) (r c : Nat) (f : DrawFrame) : Cells :=
  m.orDefault r c (fun d => extraMut d (fun e => { e with drawFrames := e.drawFrames ++ [f] }))

/-- `Sheet::clear_draw_frames`, src/sheet_.rs:1277-1281. -/
def clearDrawFrames (m : Cells) (r c : Nat) : Cells :=
  m.modify r c (fun d => extraMut d (fun e => { e with drawFrames := [] }))

/-- `Sheet::draw_frames`, src/sheet_.rs:1284-1290. -/
def drawFrames (m : Cells) (r c : Nat) : Option (List DrawFrame) :=
  match m.get? (r, c) with
  | some { extra := some e, .. } => some e.drawFrames
  | _ => none

/-- A change of each of the frames that `Sheet::draw_frames_mut` gives out, src/sheet_.rs:1293-1299. Simplified: frames
are not added or removed in this way. -/
def editDrawFrames (m : Cells) (r c : Nat) (g : DrawFrame → DrawFrame) : Cells :=
  m.modify r c (fun d => { d with extra := d.extra.map (fun e => { e with drawFrames := e.drawFrames.map g }) })

/-- `Sheet::is_empty`, src/sheet_.rs:1024-1026. -/
def isEmpty (m : Cells) (r c : Nat) : Bool := !(m.contains (r, c))

/-- `Sheet::cell`, src/sheet_.rs:1029-1033. -/
def cell (m : Cells) (r c : Nat) : Option CellContent := (m.get? (r, c)).map CellData.toContent

/-- `Sheet::add_cell`, src/sheet_.rs:1041-1043, 1053-1055. -/
def addCell (m : Cells) (r c : Nat) (x : CellContent) : Cells := m.insert (r, c) x.toData

/-- `Sheet::remove_cell`, src/sheet_.rs:1046-1050. -/
def removeCell (m : Cells) (r c : Nat) : Cells × Option CellContent :=
  (m.erase (r, c), (m.get? (r, c)).map CellData.toContent)

/-- `Sheet::used_grid_size`, src/sheet_.rs:993-1001. -/
def usedGridSize (m : Cells) : Nat × Nat :=
  let max := m.foldl (fun mx p => (Nat.max mx.1 p.1.1, Nat.max mx.2 p.1.2)) (0, 0)
  (max.1 + 1, max.2 + 1)

/-- `Sheet::cell_count`, src/sheet_.rs:585-587. -/
def cellCount (m : Cells) : Nat := m.length

end Cells

/-- The mutating cell operations of the public API. -/
inductive CellOp where
  | setValue (r c : Nat) (v : Value)
  | setStyledValue (r c : Nat) (v : Value) (s : String)
  | setFormula (r c : Nat) (f : Str)
  | clearFormula (r c : Nat)
  | setRepeat (r c : Nat) (n : Nat)
  | setCellstyle (r c : Nat) (s : String)
  | clearCellstyle (r c : Nat)
  | setValidation (r c : Nat) (s : String)
  | clearValidation (r c : Nat)
  | setRowSpan (r c : Nat) (n : Nat)
  | setColSpan (r c : Nat) (n : Nat)
  | setMatrixRowSpan (r c : Nat) (n : Nat)
  | setMatrixColSpan (r c : Nat) (n : Nat)
  | setAnnotation (r c : Nat) (a : Annotation)
  | clearAnnotation (r c : Nat)
  | editAnnotation (r c : Nat) (g : Annotation → Annotation)
  | addDrawFrame (r c : Nat) (f : DrawFrame)
  | clearDrawFrames (r c : Nat)
  | editDrawFrames (r c : Nat) (g : DrawFrame → DrawFrame)
  | addCell (r c : Nat) (x : CellContent)
  | removeCell (r c : Nat)

/-- One API call; `none` is a panic. -/
def CellOp.step (m : Cells) : CellOp → Option Cells
  | .setValue r c v => some (m.setValue r c v)
  | .setStyledValue r c v s => some (m.setStyledValue r c v s)
  | .setFormula r c f => some (m.setFormula r c f)
  | .clearFormula r c => some (m.clearFormula r c)
  | .setRepeat r c n => some (m.setRepeat r c n)
  | .setCellstyle r c s => some (m.setCellstyle r c s)
  | .clearCellstyle r c => some (m.clearCellstyle r c)
  | .setValidation r c s => some (m.setValidation r c s)
  | .clearValidation r c => some (m.clearValidation r c)
  | .setRowSpan r c n => m.setRowSpan r c n
  | .setColSpan r c n => m.setColSpan r c n
  | .setMatrixRowSpan r c n => m.setMatrixRowSpan r c n
  | .setMatrixColSpan r c n => m.setMatrixColSpan r c n
  | .setAnnotation r c a => some (m.setAnnotation r c a)
  | .clearAnnotation r c => some (m.clearAnnotation r c)
  | .editAnnotation r c g => some (m.editAnnotation r c g)
  | .addDrawFrame r c f => some (m.addDrawFrame r c f)
  | .clearDrawFrames r c => some (m.clearDrawFrames r c)
  | .editDrawFrames r c g => some (m.editDrawFrames r c g)
  | .addCell r c x => some (m.addCell r c x)
  | .removeCell r c => some (m.removeCell r c).1

/-- A history of API calls on a sheet. -/
def CellOp.run (m : Cells) : List CellOp → Option Cells
  | [] => some m
  | op :: ops => (op.step m).bind (fun m' => CellOp.run m' ops)

end Verif
