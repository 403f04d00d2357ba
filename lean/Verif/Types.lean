import Verif.Base

/-!
# Shared data types of the model
-/

set_option autoImplicit false

namespace Verif

/-- XML content: a text or an element with attributes and children.
Models `XmlContent` / `XmlTag`, src/xmltree.rs:53-58, 284-289
(`TextTag` is an alias of `XmlTag`, src/text.rs). Simplification: `XmlTag` is the constructor
`tag`, so "a tag" is a `Node` that is known to be a `tag`. -/
inductive Node where
  | text (s : Str)
  | tag (name : Str) (attrs : List (Str × Str)) (content : List Node)

namespace Node

mutual
def decEq : (a b : Node) → Decidable (a = b)
  | text s, text t =>
    if h : s = t then isTrue (by rw [h]) else isFalse (by intro e; injection e; contradiction)
  | text _, tag _ _ _ => isFalse (by intro e; injection e)
  | tag _ _ _, text _ => isFalse (by intro e; injection e)
  | tag n a c, tag n' a' c' =>
    if hn : n = n' then
      if ha : a = a' then
        match decEqList c c' with
        | isTrue hc => isTrue (by rw [hn, ha, hc])
        | isFalse hc => isFalse (by intro e; injection e; contradiction)
      else isFalse (by intro e; injection e; contradiction)
    else isFalse (by intro e; injection e; contradiction)

def decEqList : (a b : List Node) → Decidable (a = b)
  | [], [] => isTrue rfl
  | [], _ :: _ => isFalse (by simp)
  | _ :: _, [] => isFalse (by simp)
  | x :: xs, y :: ys =>
    match decEq x y with
    | isTrue h =>
      match decEqList xs ys with
      | isTrue h' => isTrue (by rw [h, h'])
      | isFalse h' => isFalse (by intro e; injection e; contradiction)
    | isFalse h => isFalse (by intro e; injection e; contradiction)
end

instance : DecidableEq Node := decEq

end Node

/-- An IEEE double, as its 64 bits (`f64`). Arithmetic and printing are not modelled. -/
structure F64 where
  bits : BitVec 64
  deriving DecidableEq

/-- `chrono::NaiveDateTime`, as its calendar fields. -/
structure DateTime where
  year : Int
  month : Nat
  day : Nat
  hour : Nat
  minute : Nat
  second : Nat
  nano : Nat
  deriving DecidableEq

/-- `enum ValueType`, src/value_.rs:16-26. -/
inductive ValueType where
  | empty | boolean | number | percentage | currency | text | textXml | dateTime | timeDuration
  deriving DecidableEq

/-- `enum Value`, src/value_.rs:31-42. A duration is a number of nanoseconds. -/
inductive Value where
  | empty
  | boolean (b : Bool)
  | number (f : F64)
  | percentage (f : F64)
  | currency (f : F64) (sym : Str)
  | text (s : Str)
  | textXml (tags : List Node)
  | dateTime (d : DateTime)
  | timeDuration (nanos : Int)
  deriving DecidableEq

/-- `CellSpan`, src/cell_.rs:10-22; the default is a span of 1 by 1. -/
structure CellSpan where
  rowSpan : Nat := 1
  colSpan : Nat := 1
  deriving DecidableEq

/-- `CellSpan::is_empty`, src/cell_.rs:50-52. -/
def CellSpan.isEmpty (s : CellSpan) : Bool := s.rowSpan == 1 && s.colSpan == 1

/-- `struct Annotation`, src/draw.rs:17-29.  The attributes are an `AttrMap2`, src/attrmap2.rs:14-17, as a
list; the elements of `text` are tags. -/
structure Annotation where
  name : Str := []
  display : Bool := false
  creator : Option Str := none
  date : Option DateTime := none
  text : List Node := []
  attrs : List (Str × Str) := []
  deriving DecidableEq

/-- `struct DrawImage`, src/draw.rs:350-355. -/
structure DrawImage where
  attrs : List (Str × Str) := []
  binary : Option Str := none
  text : List Node := []
  deriving DecidableEq

/-- `struct DrawFrame`, src/draw.rs:227-238, and `DrawFrameContent`, src/draw.rs:240-245, whose only case is an
image. -/
structure DrawFrame where
  attrs : List (Str × Str) := []
  title : Option Str := none
  desc : Option Str := none
  images : List DrawImage := []
  deriving DecidableEq

/-- `CellDataExt`, src/cell_.rs:99-110. -/
structure CellDataExt where
  validation : Option String := none
  span : CellSpan := {}
  matrixSpan : CellSpan := {}
  annotation : Option Annotation := none
  drawFrames : List DrawFrame := []
  deriving DecidableEq

/-- `CellData`, src/cell_.rs:85-95, 112-123; `repeat` is 1 by default. Style and validation references are
their names. -/
structure CellData where
  value : Value := .empty
  formula : Option Str := none
  style : Option String := none
  «repeat» : Nat := 1
  extra : Option CellDataExt := none
  deriving DecidableEq

/-- `CellContent`, the public owned form of a cell, src/cell_.rs:399-418. -/
structure CellContent where
  value : Value
  style : Option String
  formula : Option Str
  «repeat» : Nat
  validation : Option String
  span : CellSpan
  matrixSpan : CellSpan
  annotation : Option Annotation
  drawFrames : List DrawFrame
  deriving DecidableEq

/-- `CellData::is_void_extra`, src/cell_.rs:152-171. -/
def CellData.isVoidExtra (c : CellData) : Bool :=
  match c.extra with
  | none => true
  | some e => e.span.isEmpty && e.validation.isNone && e.annotation.isNone
      && e.drawFrames.isEmpty && e.matrixSpan.isEmpty

/-- `CellData::is_empty`, src/cell_.rs:127-136 (no style check). -/
def CellData.isEmpty (c : CellData) : Bool :=
  decide (c.value = .empty) && c.formula.isNone && c.isVoidExtra

/-- `CellData::is_void`, src/cell_.rs:139-150. -/
def CellData.isVoid (c : CellData) (defaultStyle : Option String) : Bool :=
  decide (c.value = .empty) && c.formula.isNone
    && !(c.style.isSome && decide (c.style ≠ defaultStyle)) && c.isVoidExtra

/-- `CellData::cloned_cell_content` and `into_cell_content`, src/cell_.rs:196-260 (same result). -/
def CellData.toContent (c : CellData) : CellContent :=
  let e := c.extra.getD {}
  { value := c.value, style := c.style, formula := c.formula, «repeat» := c.repeat
    validation := e.validation, span := e.span, matrixSpan := e.matrixSpan
    annotation := e.annotation, drawFrames := e.drawFrames }

/-- `CellContent::into_celldata` with `into_celldata_ext`, src/cell_.rs:428-460. -/
def CellContent.toData (c : CellContent) : CellData :=
  { value := c.value, formula := c.formula, style := c.style, «repeat» := c.repeat
    extra :=
      if c.validation.isSome || !c.span.isEmpty || !c.matrixSpan.isEmpty
          || c.annotation.isSome || !c.drawFrames.isEmpty then
        some { validation := c.validation, span := c.span, matrixSpan := c.matrixSpan
               annotation := c.annotation, drawFrames := c.drawFrames }
      else none }

/-- `enum Visibility`, src/sheet_.rs:25-31, default `Visible`. -/
inductive Visibility where
  | visible | collapsed | filtered
  deriving DecidableEq

/-- `enum Length`, src/style/units.rs:38-54. Simplification: `==` on the doubles is equality of their
bits. -/
inductive Length where
  | default
  | cm (v : F64) | mm (v : F64) | inch (v : F64) | pt (v : F64) | pc (v : F64) | em (v : F64)
  deriving DecidableEq

end Verif
