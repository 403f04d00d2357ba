import Verif.Config.Codec

/-!
# The view settings (src/io/write.rs `calc_config`, src/io/read.rs `calc_derived`)
-/

set_option autoImplicit false

namespace Verif.Config

open Xml Xml.Spec Codec

/-! ## Model -/

/-- `SplitMode`, src/sheet_.rs:1604-1608. -/
inductive SplitMode where
  | none | split | heading
  deriving DecidableEq

/-- `as i16`, src/sheet_.rs:1604-1608. -/
def SplitMode.code : SplitMode → Int
  | .none => 0
  | .split => 1
  | .heading => 2

/-- `TryFrom<i16>`, src/sheet_.rs:1610-1621. -/
def SplitMode.ofCode (z : Int) : Except Fault SplitMode :=
  if z = 0 then .ok .none else if z = 1 then .ok .split else if z = 2 then .ok .heading else .error .parse

/-- `SheetConfig`, src/sheet_.rs:1625-1679, and its defaults, 1681-1701. -/
structure SheetConfig where
  cursorX : Nat := 0
  cursorY : Nat := 0
  horSplitMode : SplitMode := .none
  vertSplitMode : SplitMode := .none
  horSplitPos : Nat := 0
  vertSplitPos : Nat := 0
  activeSplitRange : Int := 2
  positionLeft : Nat := 0
  positionRight : Nat := 0
  positionTop : Nat := 0
  positionBottom : Nat := 0
  zoomType : Int := 0
  zoomValue : Int := 100
  pageViewZoomValue : Int := 60
  showGrid : Bool := true
  deriving DecidableEq

/-- `WorkBookConfig`, src/workbook_.rs:1183-1203. -/
structure BookConfig where
  activeTable : Str := []
  showGrid : Bool := true
  showPageBreaks : Bool := false
  hasSheetTabs : Bool := true
  deriving DecidableEq

/-- `split_col_header`, src/sheet_.rs:1359-1364; `none` is the overflow of `col + 1`. -/
def SheetConfig.splitColHeader (c : SheetConfig) (col : Nat) : Option SheetConfig :=
  if col + 1 < 2 ^ 32 then
    some { c with horSplitMode := .heading, horSplitPos := col + 1, positionRight := col + 1, cursorX := col + 1 }
  else none

/-- `split_row_header`, src/sheet_.rs:1368-1373. -/
def SheetConfig.splitRowHeader (c : SheetConfig) (row : Nat) : Option SheetConfig :=
  if row + 1 < 2 ^ 32 then
    some { c with vertSplitMode := .heading, vertSplitPos := row + 1, positionBottom := row + 1, cursorY := row + 1 }
  else none

/-- `split_horizontal`, src/sheet_.rs:1377-1380. -/
def SheetConfig.splitHorizontal (c : SheetConfig) (col : Nat) : SheetConfig :=
  { c with horSplitMode := .split, horSplitPos := col }

/-- `split_vertical`, src/sheet_.rs:1384-1387. -/
def SheetConfig.splitVertical (c : SheetConfig) (col : Nat) : SheetConfig :=
  { c with vertSplitMode := .split, vertSplitPos := col }

/-- `v as i32` for `u32`, src/config.rs:84-88. -/
def toI32 (n : Nat) : Int := if n < 2 ^ 31 then n else (n : Int) - 2 ^ 32

/-- `n as u32` for `i32`, e.g. src/io/read.rs:682. -/
def toU32 (z : Int) : Nat := (z % 2 ^ 32).toNat

/-- `ooo:view-settings` -/
def kView : Str := "ooo:view-settings".toList
/-- `Views` -/
def kViews : Str := "Views".toList
/-- `0` -/
def kZero : Str := "0".toList
/-- `Tables` -/
def kTables : Str := "Tables".toList
/-- `ooo:configuration-settings` -/
def kConf : Str := "ooo:configuration-settings".toList
/-- `ScriptConfiguration` -/
def kScript : Str := "ScriptConfiguration".toList
/-- `CodeName` -/
def kCodeName : Str := "CodeName".toList

/-- The values of a view of the book, src/io/write.rs:574-577. -/
inductive BKey where
  | activeTable | hasSheetTabs | showGrid | showPageBreaks
  deriving DecidableEq

/-- Their names. -/
def BKey.name : BKey → Str
  | .activeTable => "ActiveTable".toList
  | .hasSheetTabs => "HasSheetTabs".toList
  | .showGrid => "ShowGrid".toList
  | .showPageBreaks => "ShowPageBreaks".toList

/-- The values of a view of a sheet, src/io/write.rs:590-604. -/
inductive SKey where
  | cursorX | cursorY | horMode | vertMode | horPos | vertPos | range | left | right | top | bottom | zoomType
  | zoomValue | pageZoom | showGrid
  deriving DecidableEq

/-- Their names. -/
def SKey.name : SKey → Str
  | .cursorX => "CursorPositionX".toList
  | .cursorY => "CursorPositionY".toList
  | .horMode => "HorizontalSplitMode".toList
  | .vertMode => "VerticalSplitMode".toList
  | .horPos => "HorizontalSplitPosition".toList
  | .vertPos => "VerticalSplitPosition".toList
  | .range => "ActiveSplitRange".toList
  | .left => "PositionLeft".toList
  | .right => "PositionRight".toList
  | .top => "PositionTop".toList
  | .bottom => "PositionBottom".toList
  | .zoomType => "ZoomType".toList
  | .zoomValue => "ZoomValue".toList
  | .pageZoom => "PageViewZoomValue".toList
  | .showGrid => "ShowGrid".toList

/-- The path of the view, src/io/write.rs:566-570. -/
def viewPath : List (Str × IType) := [(kView, some .set), (kViews, some .vec), (kZero, some .entry)]

/-- The path of the view of a sheet, src/io/write.rs:582-588. -/
def sheetPath (n : Str) : List (Str × IType) := viewPath ++ [(kTables, some .map), (n, some .entry)]

/-- src/io/write.rs:606-610 -/
def scriptPath (n : Str) : List (Str × IType) := [(kConf, some .set), (kScript, some .map), (n, some .entry)]

/-- One `create_path(..).insert(..)`: path, name, value.  Simplification: the code keeps the item that
`create_path` returns for all the values below it; here the path is followed for each value. -/
structure Assign where
  path : List (Str × IType)
  name : Str
  value : CValue

/-- The values of the view, src/io/write.rs:574-577. -/
def bookAssigns (b : BookConfig) : List Assign :=
  [⟨viewPath, BKey.activeTable.name, .string b.activeTable⟩,
   ⟨viewPath, BKey.hasSheetTabs.name, .boolean b.hasSheetTabs⟩,
   ⟨viewPath, BKey.showGrid.name, .boolean b.showGrid⟩,
   ⟨viewPath, BKey.showPageBreaks.name, .boolean b.showPageBreaks⟩]

/-- The value of a key of a sheet, src/io/write.rs:590-604. -/
def SheetConfig.value (c : SheetConfig) : SKey → CValue
  | .cursorX => .int (toI32 c.cursorX)
  | .cursorY => .int (toI32 c.cursorY)
  | .horMode => .short c.horSplitMode.code
  | .vertMode => .short c.vertSplitMode.code
  | .horPos => .int (toI32 c.horSplitPos)
  | .vertPos => .int (toI32 c.vertSplitPos)
  | .range => .short c.activeSplitRange
  | .left => .int (toI32 c.positionLeft)
  | .right => .int (toI32 c.positionRight)
  | .top => .int (toI32 c.positionTop)
  | .bottom => .int (toI32 c.positionBottom)
  | .zoomType => .short c.zoomType
  | .zoomValue => .int c.zoomValue
  | .pageZoom => .int c.pageViewZoomValue
  | .showGrid => .boolean c.showGrid

/-- The keys in the order of the calls, src/io/write.rs:590-604. -/
def SKey.all : List SKey :=
  [.cursorX, .cursorY, .horMode, .vertMode, .horPos, .vertPos, .range, .left, .right, .top, .bottom, .zoomType,
   .zoomValue, .pageZoom, .showGrid]

/-- The values for a sheet, src/io/write.rs:579-617. -/
def sheetAssigns (n : Str) (c : SheetConfig) : List Assign :=
  SKey.all.map (fun k => ⟨sheetPath n, k.name, c.value k⟩) ++ [⟨scriptPath n, kCodeName, .string n⟩]

/-- All of them; `none` is a panic. -/
def setAll : List Assign → CItem → Option CItem
  | [], t => some t
  | a :: as, t =>
    match setAt a.path a.name (.value a.value) t with
    | none => none
    | some t => setAll as t

/-- The active table is the first sheet if none is set, src/io/write.rs:571-573. -/
def fixActive (sheets : List (Str × SheetConfig)) (b : BookConfig) : Option BookConfig :=
  if b.activeTable = [] then
    match sheets with
    | [] => none
    | s :: _ => some { b with activeTable := s.1 }
  else some b

/-- All the values that are set. -/
def assigns (b : BookConfig) (sheets : List (Str × SheetConfig)) : List Assign :=
  bookAssigns b ++ sheets.flatMap fun s => sheetAssigns s.1 s.2

/-- `calc_config`, src/io/write.rs:562-622: the settings of the book and the tree. -/
def calcConfig (b : BookConfig) (sheets : List (Str × SheetConfig)) (t : CItem) : Option (BookConfig × CItem) :=
  match fixActive sheets b with
  | none => none
  | some b => (setAll (assigns b sheets) t).map fun t => (b, t)

/-- The settings of the book in `calc_derived`, src/io/read.rs:622-645. -/
def deriveBook (t : CItem) (b : BookConfig) : BookConfig :=
  ⟨match getValueRec [kView, kViews, kZero, BKey.activeTable.name] t with | some (.string s) => s | _ => b.activeTable,
   match getValueRec [kView, kViews, kZero, BKey.showGrid.name] t with | some (.boolean s) => s | _ => b.showGrid,
   match getValueRec [kView, kViews, kZero, BKey.showPageBreaks.name] t with
     | some (.boolean s) => s | _ => b.showPageBreaks,
   match getValueRec [kView, kViews, kZero, BKey.hasSheetTabs.name] t with | some (.boolean s) => s | _ => b.hasSheetTabs⟩

/-- `if let Some(ConfigValue::Int(n)) = cc.get_value_rec(..) { .. = *n as u32 }`, e.g. src/io/read.rs:681-683. -/
def getU32 (cc : CItem) (k : SKey) (d : Nat) : Nat :=
  match getValueRec [k.name] cc with | some (.int z) => toU32 z | _ => d

/-- The same for an `i32`, src/io/read.rs:717-719. -/
def getI32 (cc : CItem) (k : SKey) (d : Int) : Int :=
  match getValueRec [k.name] cc with | some (.int z) => z | _ => d

/-- The same for an `i16`, src/io/read.rs:699-701, 714-716. -/
def getI16 (cc : CItem) (k : SKey) (d : Int) : Int :=
  match getValueRec [k.name] cc with | some (.short z) => z | _ => d

/-- The same for a split mode, src/io/read.rs:687-692. -/
def getMode (cc : CItem) (k : SKey) (d : SplitMode) : Except Fault SplitMode :=
  match getValueRec [k.name] cc with | some (.short z) => SplitMode.ofCode z | _ => .ok d

/-- The same for a `bool`, src/io/read.rs:720-722. -/
def getBool (cc : CItem) (k : SKey) (d : Bool) : Bool :=
  match getValueRec [k.name] cc with | some (.boolean z) => z | _ => d

/-- The settings of a sheet in `calc_derived`, src/io/read.rs:672-724. -/
def deriveSheet (t : CItem) (n : Str) (c : SheetConfig) : Except Fault SheetConfig :=
  match getRec [kView, kViews, kZero, kTables, n] t with
  | none => .ok c
  | some cc =>
    match getMode cc .horMode c.horSplitMode, getMode cc .vertMode c.vertSplitMode with
    | .ok h, .ok v =>
      .ok { cursorX := getU32 cc .cursorX c.cursorX, cursorY := getU32 cc .cursorY c.cursorY,
            horSplitMode := h, vertSplitMode := v, horSplitPos := getU32 cc .horPos c.horSplitPos,
            vertSplitPos := getU32 cc .vertPos c.vertSplitPos, activeSplitRange := getI16 cc .range c.activeSplitRange,
            positionLeft := getU32 cc .left c.positionLeft, positionRight := getU32 cc .right c.positionRight,
            positionTop := getU32 cc .top c.positionTop, positionBottom := getU32 cc .bottom c.positionBottom,
            zoomType := getI16 cc .zoomType c.zoomType, zoomValue := getI32 cc .zoomValue c.zoomValue,
            pageViewZoomValue := c.pageViewZoomValue, showGrid := getBool cc .showGrid c.showGrid }
    | .error e, _ => .error e
    | _, .error e => .error e

end Verif.Config
