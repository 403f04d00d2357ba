import Verif.Base
import Verif.Types

/-!
# Column headers, row headers and groups

Model of the column and row attributes of a sheet (src/sheet_.rs), of the two steps that normalise
the column headers (`dedup_colheader`, `calc_col_headers`) and of the groups.

Simplification: `u32` is `Nat`, additions do not overflow.
-/

set_option autoImplicit false

namespace Verif

/-- `ColHeader`, src/sheet_.rs:77-98. Style references are their names. -/
structure ColHeader where
  style : Option String := none
  cellstyle : Option String := none
  visible : Visibility := .visible
  width : Length := .default
  span : Nat := 1
  deriving DecidableEq

/-- `RowHeader`, src/sheet_.rs:43-75. -/
structure RowHeader where
  style : Option String := none
  cellstyle : Option String := none
  visible : Visibility := .visible
  «repeat» : Nat := 1
  span : Nat := 1
  height : Length := .default
  deriving DecidableEq

/-- `Sheet::col_header : BTreeMap<u32, ColHeader>`. -/
abbrev ColHeaders := OMap Nat ColHeader

/-- `Sheet::row_header : BTreeMap<u32, RowHeader>`. -/
abbrev RowHeaders := OMap Nat RowHeader

/-- `map.range(..=k).last()`. -/
def OMap.lastLe {V : Type} (m : OMap Nat V) (k : Nat) : Option (Nat × V) :=
  (m.filter (fun p => decide (p.1 ≤ k))).getLast?

/-! ### Columns -/

/-- `Sheet::valid_col_header`, src/sheet_.rs:652-662. -/
def ColHeaders.valid (m : ColHeaders) (col : Nat) : Option ColHeader :=
  match OMap.lastLe m col with
  | some (base, h) => if base ≤ col ∧ col < base + h.span then some h else none
  | none => none

/-- `Sheet::create_split_col_header`, src/sheet_.rs:668-724: the header map after the call. The
`for` loop with `break` is `find?`. -/
def ColHeaders.split (m : ColHeaders) (col : Nat) : ColHeaders :=
  if ((m.get? col).filter (fun h => h.span == 1)).isSome then m
  else
    match m.find? (fun p => decide (p.1 ≤ col ∧ col < p.1 + p.2.span)) with
    | some (base, h) =>
      let m := m.erase base
      let m := if 0 < col - base then m.insert base { h with span := col - base } else m
      let m := m.insert col h
      if 0 < base + h.span - (col + 1) then
        m.insert (col + 1) { h with span := base + h.span - (col + 1) }
      else m
    | none => m.insert col {}

/-- `self.create_split_col_header(col).field = value`; `none` is the panic of the `expect` in
src/sheet_.rs:723. -/
def ColHeaders.modify (m : ColHeaders) (col : Nat) (f : ColHeader → ColHeader) :
    Option ColHeaders :=
  let m := m.split col
  match m.get? col with
  | some h => some (m.insert col (f h))
  | none => none

/-- The column setters: `set_colstyle`, `clear_colstyle`, `set_col_cellstyle`,
`clear_col_cellstyle`, `set_col_visible`, `set_col_width`. -/
inductive ColOp where
  | setStyle (col : Nat) (s : String)
  | clearStyle (col : Nat)
  | setCellstyle (col : Nat) (s : String)
  | clearCellstyle (col : Nat)
  | setVisible (col : Nat) (v : Visibility)
  | setWidth (col : Nat) (w : Length)
  deriving DecidableEq

/-- The column setters, src/sheet_.rs:727-796. -/
def ColHeaders.step (m : ColHeaders) : ColOp → Option ColHeaders
  | .setStyle c s => m.modify c (fun h => { h with style := some s })
  | .clearStyle c => m.modify c (fun h => { h with style := none })
  | .setCellstyle c s => m.modify c (fun h => { h with cellstyle := some s })
  | .clearCellstyle c => m.modify c (fun h => { h with cellstyle := none })
  | .setVisible c v => m.modify c (fun h => { h with visible := v })
  | .setWidth c w => m.modify c (fun h => { h with width := w })

/-- A history of column calls. -/
def ColHeaders.run (m : ColHeaders) : List ColOp → Option ColHeaders
  | [] => some m
  | op :: ops => match m.step op with
    | some m' => ColHeaders.run m' ops
    | none => none

/-- `Sheet::colstyle`, src/sheet_.rs:737-743. -/
def ColHeaders.colstyle (m : ColHeaders) (col : Nat) : Option String :=
  match m.valid col with | some h => h.style | none => none
/-- `Sheet::col_cellstyle`, src/sheet_.rs:756-762. -/
def ColHeaders.colCellstyle (m : ColHeaders) (col : Nat) : Option String :=
  match m.valid col with | some h => h.cellstyle | none => none
/-- `Sheet::col_visible`, src/sheet_.rs:770-776. -/
def ColHeaders.colVisible (m : ColHeaders) (col : Nat) : Visibility :=
  match m.valid col with | some h => h.visible | none => .visible
/-- `Sheet::col_width`, src/sheet_.rs:798-804. -/
def ColHeaders.colWidth (m : ColHeaders) (col : Nat) : Length :=
  match m.valid col with | some h => h.width | none => .default

/-- `limited_eq` in `dedup_colheader`, src/sheet_.rs:1705-1710. -/
def ColHeader.limitedEq (a b : ColHeader) : Bool :=
  decide (a.style = b.style) && decide (a.cellstyle = b.cellstyle)
    && decide (a.visible = b.visible) && decide (a.width = b.width)

/-- The loop of `dedup_colheader`, src/sheet_.rs:1714-1734, from the second entry on: `acc` is
`new_col_header`, `cur` is `new`. -/
def dedupLoop (cur : Nat × ColHeader) : List (Nat × ColHeader) → ColHeaders → ColHeaders
  | [], acc => acc.insert cur.1 cur.2
  | p :: rest, acc =>
    if cur.2.limitedEq p.2 then
      dedupLoop (cur.1, { cur.2 with span := cur.2.span + p.2.span }) rest acc
    else dedupLoop p rest (acc.insert cur.1 cur.2)

/-- `dedup_colheader`, src/sheet_.rs:1704-1738. -/
def ColHeaders.dedup : ColHeaders → ColHeaders
  | [] => []
  | p :: rest => dedupLoop p rest []

/-- The inner `loop` of `calc_col_headers`, src/io/write.rs:451-471, for one header. `n` is the
distance from `cc` to the end of the header (`col + header.span - cc`), which makes the recursion
structural. -/
def splitLoop (isSplit : Nat → Bool) (col : Nat) (h : ColHeader) (cc : Nat) :
    (n : Nat) → ColHeaders → ColHeaders
  | 0, acc => acc.insert col h
  | n + 1, acc =>
    if isSplit cc then
      let newSpan := cc - col
      let acc := if 0 < newSpan then acc.insert col { h with span := newSpan } else acc
      splitLoop isSplit cc { h with span := h.span - newSpan } (cc + 1) n acc
    else splitLoop isSplit col h (cc + 1) n acc

/-- The loop over the headers in `calc_col_headers`, src/io/write.rs:446-474. -/
def ColHeaders.splitAt (isSplit : Nat → Bool) (m : ColHeaders) : ColHeaders :=
  m.foldl (fun acc p => splitLoop isSplit p.1 p.2 p.1 p.2.span acc) []

/-! ### Groups -/

/-- `Grouped`, src/sheet_.rs:1539-1546. -/
structure Grouped where
  frm : Nat
  to : Nat
  display : Bool
  deriving DecidableEq

/-- `Header`, src/sheet_.rs:1526-1529. -/
structure HeaderRange where
  frm : Nat
  to : Nat
  deriving DecidableEq

/-- `Grouped::contains`, src/sheet_.rs:1589-1591. -/
def Grouped.contains (a b : Grouped) : Bool := decide (a.frm ≤ b.frm) && decide (b.to ≤ a.to)

/-- `Grouped::disjunct`, src/sheet_.rs:1594-1596. -/
def Grouped.disjunct (a b : Grouped) : Bool :=
  (decide (a.frm < b.frm) && decide (a.to < b.frm)) || (decide (b.to < a.frm) && decide (b.to < a.to))

/-- `Sheet::add_col_group`, `Sheet::add_row_group`, src/sheet_.rs:1394-1401, 1464-1471. `none` is a
failed assertion. -/
def addGroup (gs : List Grouped) (frm to : Nat) : Option (List Grouped) :=
  if frm ≤ to then
    let grp : Grouped := ⟨frm, to, true⟩
    if gs.all (fun v => grp.contains v || v.contains grp || grp.disjunct v) then
      some (gs ++ [grp])
    else none
  else none

/-- `Sheet::remove_col_group`, `Sheet::remove_row_group`, src/sheet_.rs:1404-1412, 1474-1482. -/
def removeGroup (gs : List Grouped) (frm to : Nat) : List Grouped :=
  match gs.findIdx? (fun v => decide (v.frm = frm ∧ v.to = to)) with
  | some i => gs.eraseIdx i
  | none => gs

/-- The borders `calc_col_headers` splits at, src/io/write.rs:437-445 (`split_pos`). -/
def isBorder (gs : List Grouped) (hc : Option HeaderRange) (c : Nat) : Bool :=
  gs.any (fun g => decide (c = g.frm) || decide (c = g.to + 1))
    || (match hc with
        | some h => decide (c = h.frm) || decide (c = h.to + 1)
        | none => false)

/-- `calc_col_headers` for one sheet, src/io/write.rs:430-481: the column headers written. -/
def prepareCols (gs : List Grouped) (hc : Option HeaderRange) (m : ColHeaders) : ColHeaders :=
  m.dedup.splitAt (isBorder gs hc)

/-- Loop `for r in from..=to { self.set_col_visible(r, v) }`, src/sheet_.rs:1425-1434; `n` is the
number of columns left. -/
def ColHeaders.setVisibleLoop (v : Visibility) (col : Nat) : (n : Nat) → ColHeaders → Option ColHeaders
  | 0, m => some m
  | n + 1, m => match m.step (.setVisible col v) with
    | some m' => ColHeaders.setVisibleLoop v (col + 1) n m'
    | none => none

/-- `Sheet::set_col_group_displayed`, src/sheet_.rs:1417-1438. -/
def setColGroupDisplayed (gs : List Grouped) (m : ColHeaders) (frm to : Nat) (display : Bool) :
    Option (List Grouped × ColHeaders) :=
  match gs.findIdx? (fun v => decide (v.frm = frm ∧ v.to = to)) with
  | some i =>
    let gs := gs.modify i (fun g => { g with display := display })
    match m.setVisibleLoop (if display then .visible else .collapsed) frm (to + 1 - frm) with
    | some m' => some (gs, m')
    | none => none
  | none => some (gs, m)

/-! ### Rows -/

/-- `Sheet::valid_row_header`, src/sheet_.rs:807-817. -/
def RowHeaders.valid (m : RowHeaders) (row : Nat) : Option RowHeader :=
  match OMap.lastLe m row with
  | some (base, h) => if base ≤ row ∧ row < base + h.span then some h else none
  | none => none

/-- `Sheet::create_split_row_header`, src/sheet_.rs:823-870: the header map after the call. The
condition `*base_row + base_span > row` of line 850 holds whenever it is evaluated. -/
def RowHeaders.split (m : RowHeaders) (row : Nat) : RowHeaders :=
  match OMap.lastLe m row with
  | some (base, h) =>
    if base ≤ row ∧ row < base + h.span then
      let back : RowHeader := { h with span := base + h.span - (row + 1) }
      if base < row then
        ((m.insert base { h with span := row - base }).insert row { h with span := 1 }).insert
          (row + 1) back
      else (m.insert base { h with span := 1 }).insert (row + 1) back
    else m.insert row {}
  | none => m.insert row {}

/-- `self.create_split_row_header(row).field = value`; `none` is the panic of the `expect` in
src/sheet_.rs:869. -/
def RowHeaders.modify (m : RowHeaders) (row : Nat) (f : RowHeader → RowHeader) :
    Option RowHeaders :=
  let m := m.split row
  match m.get? row with
  | some h => some (m.insert row (f h))
  | none => none

/-- The row setters: `set_rowstyle`, `clear_rowstyle`, `set_row_cellstyle`, `clear_row_cellstyle`,
`set_row_visible`, `set_row_repeat`, `set_row_height`. -/
inductive RowOp where
  | setStyle (row : Nat) (s : String)
  | clearStyle (row : Nat)
  | setCellstyle (row : Nat) (s : String)
  | clearCellstyle (row : Nat)
  | setVisible (row : Nat) (v : Visibility)
  | setRepeat (row : Nat) (n : Nat)
  | setHeight (row : Nat) (w : Length)
  deriving DecidableEq

/-- The row setters, src/sheet_.rs:885-974; `set_row_repeat` panics if the repeat is 0. -/
def RowHeaders.step (m : RowHeaders) : RowOp → Option RowHeaders
  | .setStyle c s => m.modify c (fun h => { h with style := some s })
  | .clearStyle c => m.modify c (fun h => { h with style := none })
  | .setCellstyle c s => m.modify c (fun h => { h with cellstyle := some s })
  | .clearCellstyle c => m.modify c (fun h => { h with cellstyle := none })
  | .setVisible c v => m.modify c (fun h => { h with visible := v })
  | .setRepeat c n => if n = 0 then none else m.modify c (fun h => { h with «repeat» := n })
  | .setHeight c w => m.modify c (fun h => { h with height := w })

/-- A history of row calls. -/
def RowHeaders.run (m : RowHeaders) : List RowOp → Option RowHeaders
  | [] => some m
  | op :: ops => match m.step op with
    | some m' => RowHeaders.run m' ops
    | none => none

/-- `Sheet::rowstyle`, src/sheet_.rs:895-901. -/
def RowHeaders.rowstyle (m : RowHeaders) (row : Nat) : Option String :=
  match m.valid row with | some h => h.style | none => none
/-- `Sheet::row_cellstyle`, src/sheet_.rs:914-920. -/
def RowHeaders.rowCellstyle (m : RowHeaders) (row : Nat) : Option String :=
  match m.valid row with | some h => h.cellstyle | none => none
/-- `Sheet::row_visible`, src/sheet_.rs:928-934. -/
def RowHeaders.rowVisible (m : RowHeaders) (row : Nat) : Visibility :=
  match m.valid row with | some h => h.visible | none => .visible
/-- `Sheet::row_repeat`, src/sheet_.rs:950-956: 0 if there is no header. -/
def RowHeaders.rowRepeat (m : RowHeaders) (row : Nat) : Nat :=
  match m.valid row with | some h => h.repeat | none => 0
/-- `Sheet::row_height`, src/sheet_.rs:964-970. -/
def RowHeaders.rowHeight (m : RowHeaders) (row : Nat) : Length :=
  match m.valid row with | some h => h.height | none => .default

/-- Loop `for r in from..=to { self.set_row_visible(r, v) }`, src/sheet_.rs:1495-1504. -/
def RowHeaders.setVisibleLoop (v : Visibility) (row : Nat) : (n : Nat) → RowHeaders → Option RowHeaders
  | 0, m => some m
  | n + 1, m => match m.step (.setVisible row v) with
    | some m' => RowHeaders.setVisibleLoop v (row + 1) n m'
    | none => none

/-- `Sheet::set_row_group_displayed`, src/sheet_.rs:1487-1508. -/
def setRowGroupDisplayed (gs : List Grouped) (m : RowHeaders) (frm to : Nat) (display : Bool) :
    Option (List Grouped × RowHeaders) :=
  match gs.findIdx? (fun v => decide (v.frm = frm ∧ v.to = to)) with
  | some i =>
    let gs := gs.modify i (fun g => { g with display := display })
    match m.setVisibleLoop (if display then .visible else .collapsed) frm (to + 1 - frm) with
    | some m' => some (gs, m')
    | none => none
  | none => some (gs, m)

end Verif
