import Verif.Style.Once
import Verif.Grid.TableProps

/-!
# Lengths, column widths and row heights

Model of the text of lengths (src/style/units.rs), of the step that moves widths and heights to the styles before writing
(`calc_col_header_styles`, `calc_row_header_styles`, src/io/write.rs) and of the step that takes them from the styles after
reading (`calc_derived`, src/io/read.rs).
-/

set_option autoImplicit false

namespace Verif.Width

open Xml Codec Book Style

/-! ## Lengths -/

/-- `Display for Length`, src/style/units.rs:71-83. The text of a `f64` is a parameter. -/
def fmtLength (f : Floats) : Length → Str
  | .cm v => f.fmt v ++ "cm".toList
  | .mm v => f.fmt v ++ "mm".toList
  | .inch v => f.fmt v ++ "in".toList
  | .pt v => f.fmt v ++ "pt".toList
  | .pc v => f.fmt v ++ "pc".toList
  | .em v => f.fmt v ++ "em".toList
  | .default => []

/-- `s.ends_with(unit)` and `s.split_at(s.len() - 2).0`. -/
def cutUnit (unit s : Str) : Option Str :=
  if unit.isSuffixOf s then some (s.take (s.length - 2)) else none

/-- `ParseStyleAttr for Length`, src/style/units.rs:85-106, for an attribute that is there. `none` is an error. -/
def parseLength (f : Floats) (s : Str) : Option Length :=
  match cutUnit "cm".toList s with
  | some t => (f.parse t).map .cm
  | none =>
    match cutUnit "mm".toList s with
    | some t => (f.parse t).map .mm
    | none =>
      match cutUnit "in".toList s with
      | some t => (f.parse t).map .inch
      | none =>
        match cutUnit "pt".toList s with
        | some t => (f.parse t).map .pt
        | none =>
          match cutUnit "pc".toList s with
          | some t => (f.parse t).map .pc
          | none =>
            match cutUnit "em".toList s with
            | some t => (f.parse t).map .em
            | none => none

/-- `Length::parse_attr_def(attr, Length::Default)`, src/style/mod.rs:186-191. -/
def lengthOr (f : Floats) : Option Str → Option Length
  | none => some .default
  | some s => parseLength f s

/-- `bool::parse_attr_def(attr, false)`, src/style/mod.rs:186-203; `bool::from_str` of the standard library knows two
texts. -/
def flagOr : Option Str → Option Bool
  | none => some false
  | some s => if s = "true".toList then some true else if s = "false".toList then some false else none

/-! ## Attributes -/

/-- `AttrMap2::set_attr`, src/attrmap2.rs:59-69, on the attributes in the order of `iter`. -/
def put (k v : Str) : Attrs → Attrs
  | [] => [(k, v)]
  | a :: m => if a.1 = k then (k, v) :: m else a :: put k v m

/-- `AttrMap2::clear_attr`, src/attrmap2.rs:88-96. -/
def del (k : Str) : Attrs → Attrs
  | [] => []
  | a :: m => if a.1 = k then m else a :: del k m

/-- `AttrMap2::attr`, src/attrmap2.rs:100-107. -/
def val (k : Str) : Attrs → Option Str
  | [] => none
  | a :: m => if a.1 = k then some a.2 else val k m

/-! ## Columns and rows -/

/-- The difference between columns and rows. -/
structure Dim where
  /-- the store -/
  kind : Kind
  /-- the attribute with the width or height -/
  size : Str
  /-- the attribute that says that the width or height is computed -/
  optimal : Str
  /-- the default length removes the attribute -/
  clears : Bool

/-- `style_column_width!`, `style_use_optimal_column_width!`, src/macro_attr_style.rs:1320-1336, 1351-1365. -/
def colDim : Dim := ⟨.col, "style:column-width".toList, "style:use-optimal-column-width".toList, true⟩

/-- `style_row_height!`, `style_use_optimal_row_height!`, src/macro_attr_style.rs:1616-1628, 1630-1648. -/
def rowDim : Dim := ⟨.row, "style:row-height".toList, "style:use-optimal-row-height".toList, false⟩

variable (d : Dim) (f : Floats)

/-- `set_col_width`, `set_row_height`, src/macro_attr_style.rs:1323-1329, 1619-1621. -/
def setSize (w : Length) (m : Attrs) : Attrs :=
  if d.clears = true ∧ w = .default then del d.size m else put d.size (fmtLength f w) m

/-- The lines "Write back to the style", src/io/write.rs:499-504, 528-533. -/
def toStyle (w : Length) (m : Attrs) : Attrs :=
  if w = .default then setSize d f .default (put d.optimal "true".toList m) else setSize d f w m

/-- The change of the style. -/
def toBody (w : Length) (s : Style Body) : Style Body := { s with body := { s.body with main := toStyle d f w s.body.main } }

/-- The body of the loops, src/io/write.rs:490-506, 519-535: from the style and the width of a header to the stores and the
style of the header. `Stores.modify` does nothing if there is no such style. -/
def sizeStep (b : Stores Body) (st : Option String) (w : Length) : Except NameFail (Stores Body × Option String) :=
  let r : Except NameFail (Stores Body × Option String) :=
    if w ≠ .default ∧ st = none then
      match b.add d.kind ⟨[], {}⟩ with
      | .error e => .error e
      | .ok (b, n) => .ok (b, some (String.ofList n))
    else .ok (b, st)
  match r with
  | .error e => .error e
  | .ok (b, none) => .ok (b, none)
  | .ok (b, some n) => .ok (b.modify d.kind n.toList (toBody d f w), some n)

/-- `calc_col_header_styles` for one sheet, src/io/write.rs:488-506. -/
def calcCols (b : Stores Body) : ColHeaders → Except NameFail (Stores Body × ColHeaders)
  | [] => .ok (b, [])
  | (c, h) :: m =>
    match sizeStep colDim f b h.style h.width with
    | .error e => .error e
    | .ok (b, st) =>
      match calcCols b m with
      | .error e => .error e
      | .ok (b, m) => .ok (b, (c, { h with style := st }) :: m)

/-- `calc_col_header_styles`, src/io/write.rs:484-512. -/
def calcSheets (b : Stores Body) : List TSheet → Except NameFail (Stores Body × List TSheet)
  | [] => .ok (b, [])
  | s :: ss =>
    match calcCols f b s.colHeader with
    | .error e => .error e
    | .ok (b, m) =>
      match calcSheets b ss with
      | .error e => .error e
      | .ok (b, ss) => .ok (b, { s with colHeader := m } :: ss)

/-- `calc_row_header_styles` for one sheet, src/io/write.rs:519-535. -/
def calcRows (b : Stores Body) : RowHeaders → Except NameFail (Stores Body × RowHeaders)
  | [] => .ok (b, [])
  | (c, h) :: m =>
    match sizeStep rowDim f b h.style h.height with
    | .error e => .error e
    | .ok (b, st) =>
      match calcRows b m with
      | .error e => .error e
      | .ok (b, m) => .ok (b, (c, { h with style := st }) :: m)

/-- `calc_row_header_styles`, src/io/write.rs:515-541. -/
def calcRowSheets (b : Stores Body) : List TSheet → Except NameFail (Stores Body × List TSheet)
  | [] => .ok (b, [])
  | s :: ss =>
    match calcRows f b s.rowHeader with
    | .error e => .error e
    | .ok (b, m) =>
      match calcRowSheets b ss with
      | .error e => .error e
      | .ok (b, ss) => .ok (b, { s with rowHeader := m } :: ss)

/-- The width or height a header gets, src/io/read.rs:652-660, 665-673; `none` is an error. -/
def derived (b : Stores Body) (st : Option String) (w : Length) : Option Length :=
  match st with
  | none => some w
  | some n =>
    match b.get? d.kind n.toList with
    | none => some w
    | some s =>
      match flagOr (val d.optimal s.body.main) with
      | none => none
      | some true => some .default
      | some false => lengthOr f (val d.size s.body.main)

/-- The columns in `calc_derived`, src/io/read.rs:651-661. -/
def deriveCols (b : Stores Body) : ColHeaders → Option ColHeaders
  | [] => some []
  | (c, h) :: m =>
    match derived colDim f b h.style h.width with
    | none => none
    | some w => (deriveCols b m).map ((c, { h with width := w }) :: ·)

/-- The rows in `calc_derived`, src/io/read.rs:664-674. -/
def deriveRows (b : Stores Body) : RowHeaders → Option RowHeaders
  | [] => some []
  | (c, h) :: m =>
    match derived rowDim f b h.style h.height with
    | none => none
    | some w => (deriveRows b m).map ((c, { h with height := w }) :: ·)

end Verif.Width
