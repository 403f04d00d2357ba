import Verif.Store.Model
import Verif.Header.Model
import Verif.Hidden.Model

/-!
# Writing and reading the body of a table (src/io/write.rs, src/io/read.rs)

The XML between `<table:table>` and `</table:table>` is a list of events `TEv`: one per start tag, end
tag or empty tag. Attributes are typed here: the repeat count, the style names, the visibility. How
they are turned into text and back is the matter of other modules.

A cell element carries the cell it was written from; `dec` in `ReadOpts` is what decoding that
element gives back, it is a parameter of the reader (for `none` the element has no attribute but the
repeat count and no content).

Simplifications: `u32` is `Nat`, additions do not overflow. The sheet-level attributes and the foreign
tags before and after the columns and rows are left out, and so are the synonymous
`table:table-rows`/`table:table-columns` tags, which both sides ignore.
-/

set_option autoImplicit false

namespace Verif

/-- The parts of `Sheet` (src/sheet_.rs:106-126) that make up the table. -/
structure TSheet where
  data : Cells := []
  colHeader : ColHeaders := []
  rowHeader : RowHeaders := []
  groupCols : List Grouped := []
  groupRows : List Grouped := []
  headerCols : Option HeaderRange := none
  headerRows : Option HeaderRange := none
  deriving DecidableEq

/-- Attributes of `table:table-row`; an attribute that is not there is `none`. -/
structure RowTag where
  repeated : Option Nat := none
  style : Option String := none
  cellstyle : Option String := none
  visibility : Option Visibility := none
  deriving DecidableEq

/-- Attributes of `table:table-column`. -/
structure ColTag where
  repeated : Option Nat := none
  style : Option String := none
  cellstyle : Option String := none
  visibility : Option Visibility := none
  deriving DecidableEq

/-- Tags of the table body. -/
inductive TEv where
  /-- `<table:table-row-group>` with its `table:display` attribute -/
  | groupStart (display : Option Bool)
  /-- `</table:table-row-group>` -/
  | groupEnd
  /-- `<table:table-header-rows>` -/
  | headerStart
  /-- `</table:table-header-rows>` -/
  | headerEnd
  /-- `<table:table-row>` -/
  | rowStart (t : RowTag)
  /-- `</table:table-row>` -/
  | rowEnd
  /-- a whole `table:table-cell` or `table:covered-table-cell` element -/
  | cell (covered : Bool) (repeated : Option Nat) (body : Option CellData)
  /-- `<table:table-column-group>` -/
  | colGroupStart (display : Option Bool)
  /-- `</table:table-column-group>` -/
  | colGroupEnd
  /-- `<table:table-header-columns>` -/
  | colHeaderStart
  /-- `</table:table-header-columns>` -/
  | colHeaderEnd
  /-- `<table:table-column/>` -/
  | column (t : ColTag)
  deriving DecidableEq

/-- What ends the writing of a sheet early. -/
inductive WErr where
  /-- `OdsError`: the repeat of a data row runs into the next data row -/
  | overlapRow
  /-- `OdsError`: the repeat of a cell runs into the next cell -/
  | overlapCol
  /-- a failed assertion, an index out of bounds or an arithmetic underflow -/
  | panic
  deriving DecidableEq

/-! ### Writing rows -/

/-- Attributes written from a row header, src/io/write.rs:1870-1881, 2022-2032. -/
def rowTag (rep : Option Nat) : Option RowHeader → RowTag
  | some h => { repeated := rep, style := h.style, cellstyle := h.cellstyle
                visibility := if h.visible = .visible then none else some h.visible }
  | none => { repeated := rep }

/-- `if n > 1 { attr(..repeated, n) }`. -/
def repAttr (n : Nat) : Option Nat := if 1 < n then some n else none

/-- `write_empty_cells`, src/io/write.rs:1810-1825. -/
def writeEmptyCells (pieces : List SplitCols) : List TEv :=
  pieces.map (fun s => .cell s.hidden (repAttr s.repeat) none)

/-- `write_cell` for each piece, src/io/write.rs:1747-1749. -/
def writeCellPieces (d : CellData) (pieces : List SplitCols) : List TEv :=
  pieces.map (fun s => .cell s.hidden (repAttr s.repeat) (some d))

/-- Starts a row group, src/io/write.rs:1840-1843. -/
def groupStartOf (g : Grouped) : TEv := .groupStart (if g.display then none else some false)

/-- `write_empty_row`, src/io/write.rs:2012-2040. -/
def writeEmptyRow (s : TSheet) (row rep : Nat) (maxCell : Nat × Nat) : List TEv :=
  [.rowStart (rowTag (some rep) (s.rowHeader.valid row)), .cell false (some maxCell.2) none, .rowEnd]

/-- State of the row tags: the counter of open groups and the `row_header` flag. -/
structure GState where
  count : Nat := 0
  inHeader : Bool := false
  deriving DecidableEq

/-- Closes the groups that satisfy `p`; the counter must not underflow (it is a `u32`; the
underflow panics in a debug build and wraps in a release build). -/
def closeGroups (gs : List Grouped) (p : Grouped → Bool) (count : Nat) :
    Except WErr (List TEv × Nat) :=
  let k := (gs.filter p).length
  if k ≤ count then .ok (List.replicate k .groupEnd, count - k) else .error .panic

/-- The header flag where the header range ends, src/io/write.rs:1972-1976. -/
def gapHeaderEnds (s : TSheet) (r : Nat) (inHeader : Bool) : Bool :=
  match s.headerRows with
  | some h => if h.to = r then false else inHeader
  | none => inHeader

/-- The header flag where the header range starts, src/io/write.rs:1993-1998. -/
def gapHeaderStarts (s : TSheet) (r : Nat) (inHeader : Bool) : Bool :=
  match s.headerRows with
  | some h => if h.frm = r then true else inHeader
  | none => inHeader

/-- Body of the loop in `write_empty_rows_before`, src/io/write.rs:1967-2003, for row `r`. -/
def writeGapRow (s : TSheet) (maxCell : Nat × Nat) (g : GState) (r : Nat) :
    Except WErr (List TEv × GState) :=
  let e1 : List TEv := if g.inHeader then [.headerEnd] else []
  let h1 := gapHeaderEnds s r g.inHeader
  match closeGroups s.groupRows (fun x => decide (x.to = r)) g.count with
  | .error e => .error e
  | .ok (e2, count) =>
    let opened := s.groupRows.filter (fun x => decide (x.frm = r))
    let h2 := gapHeaderStarts s r h1
    let e3 : List TEv := if h2 then [.headerStart] else []
    .ok (e1 ++ e2 ++ opened.map groupStartOf ++ e3 ++ writeEmptyRow s r 1 maxCell,
      ⟨count + opened.length, h2⟩)

/-- The loop in `write_empty_rows_before` from row `r` on, `n` rows. -/
def writeGapRows (s : TSheet) (maxCell : Nat × Nat) (r : Nat) :
    (n : Nat) → GState → Except WErr (List TEv × GState)
  | 0, g => .ok ([], g)
  | n + 1, g =>
    match writeGapRow s maxCell g r with
    | .error e => .error e
    | .ok (e1, g) =>
      match writeGapRows s maxCell (r + 1) n g with
      | .error e => .error e
      | .ok (e2, g) => .ok (e1 ++ e2, g)

/-- `write_empty_rows_before`, src/io/write.rs:1956-2010. -/
def writeEmptyRowsBefore (s : TSheet) (row n : Nat) (maxCell : Nat × Nat) (g : GState) :
    Except WErr (List TEv × GState) :=
  if !s.groupRows.isEmpty || s.headerRows.isSome then writeGapRows s maxCell row n g
  else .ok (writeEmptyRow s row n maxCell, g)

/-- The header flag at the start of a row, src/io/write.rs:1857-1862. -/
def rowHeaderStarts (s : TSheet) (row rep : Nat) (inHeader : Bool) : Bool :=
  match s.headerRows with
  | some h => if row ≤ h.frm ∧ h.frm < row + rep then true else inHeader
  | none => inHeader

/-- The header flag at the end of a row, src/io/write.rs:1909-1914. -/
def rowHeaderEnds (s : TSheet) (row rep : Nat) (inHeader : Bool) : Bool :=
  match s.headerRows with
  | some h => if row ≤ h.to ∧ h.to < row + rep then false else inHeader
  | none => inHeader

/-- The start tag of a row with cells, src/io/write.rs:1867-1882. -/
def dataTag (s : TSheet) (row : Nat) : RowTag :=
  match s.rowHeader.valid row with
  | some rh => rowTag (repAttr rh.repeat) (some rh)
  | none => rowTag none none

/-- `write_start_current_row`, src/io/write.rs:1828-1893. -/
def writeStartRow (s : TSheet) (row rep leading : Nat) (g : GState) : List TEv × GState :=
  let opened := s.groupRows.filter (fun x =>
    decide (x.frm = row) || (decide (row < x.frm) && decide (x.frm < row + rep)))
  let h := rowHeaderStarts s row rep g.inHeader
  (opened.map groupStartOf ++ (if h then [.headerStart] else []) ++ [.rowStart (dataTag s row)]
      ++ (if 0 < leading then [.cell false (repAttr leading) none] else []),
    ⟨g.count + opened.length, h⟩)

/-- `write_end_prev_row`, src/io/write.rs:1895-1930. -/
def writeEndRow (s : TSheet) (row rep : Nat) (g : GState) : Except WErr (List TEv × GState) :=
  let h := rowHeaderEnds s row rep g.inHeader
  match closeGroups s.groupRows (fun x =>
      decide (x.to = row) || (decide (row < x.to) && decide (x.to < row + rep))) g.count with
  | .error e => .error e
  | .ok (e, count) =>
    .ok ([.rowEnd] ++ (if g.inHeader then [.headerEnd] else []) ++ e, ⟨count, h⟩)

/-- `write_end_last_row`, src/io/write.rs:1932-1954. -/
def writeEndLastRow (g : GState) : List TEv :=
  [.rowEnd] ++ (if g.inHeader then [.headerEnd] else []) ++ List.replicate g.count .groupEnd

/-- Row repeat used for the positions, src/io/write.rs:1629-1633. -/
def rowRepeatOf (s : TSheet) (row : Nat) : Nat :=
  match s.rowHeader.get? row with
  | some h => h.repeat
  | none => 1

/-- Local variables of `write_sheet`, src/io/write.rs:1618-1626. -/
structure WState where
  first : Bool := true
  prevRow : Nat := 0
  prevRowRepeat : Nat := 1
  prevCol : Nat := 0
  g : GState := {}
  spans : List CellRange := []

/-- Ends the previous row and writes the empty rows and the start tag of the current one,
src/io/write.rs:1673-1729. -/
def writeRowChange (s : TSheet) (maxCell : Nat × Nat) (st : WState) (row col : Nat) :
    Except WErr (List TEv × GState) :=
  let rep := rowRepeatOf s row
  let backRow := row - st.prevRow
  let backCol := if 0 < backRow then col else col - st.prevCol
  let ended : Except WErr (List TEv × GState) :=
    if 0 < backRow ∧ st.first = false then writeEndRow s st.prevRow st.prevRowRepeat st.g
    else .ok ([], st.g)
  match ended with
  | .error e => .error e
  | .ok (e1, g1) =>
    let gap : Except WErr (List TEv × GState) :=
      if 0 < backRow then
        if backRow < st.prevRowRepeat then .error .overlapRow
        else
          let synth := backRow - st.prevRowRepeat + (if st.first then 1 else 0)
          if 0 < synth then writeEmptyRowsBefore s (row - synth) synth maxCell g1
          else .ok ([], g1)
      else .ok ([], g1)
    match gap with
    | .error e => .error e
    | .ok (e2, g2) =>
      if 0 < backRow ∨ st.first = true then
        let (e3, g3) := writeStartRow s row rep backCol g2
        .ok (e1 ++ e2 ++ e3, g3)
      else .ok (e1 ++ e2, g2)

/-- The span of a cell joins the list, src/io/write.rs:1739-1744. `split[0]` panics on an empty
list, `origin_span` on a span of 0. -/
def pushSpan (spans : List CellRange) (pieces : List SplitCols) (row col : Nat) (d : CellData) :
    Except WErr (List CellRange) :=
  match d.extra with
  | none => .ok spans
  | some x =>
    match pieces with
    | [] => .error .panic
    | p :: _ =>
      if !p.hidden && (decide (1 < x.span.rowSpan) || decide (1 < x.span.colSpan)) then
        match CellRange.originSpan row col x.span.rowSpan x.span.colSpan with
        | some r => .ok (spans ++ [r])
        | none => .error .panic
      else .ok spans

/-- Fills the row after a cell, src/io/write.rs:1751-1793. `next` is the position of the next cell
(or the grid size). -/
def writeFill (spans : List CellRange) (maxCell : Nat × Nat) (row col rep : Nat)
    (next : Nat × Nat) : Except WErr (List TEv) :=
  if 0 < next.1 - row then
    let synth := (maxCell.2 - col) - rep
    if 0 < synth then .ok (writeEmptyCells (splitHidden spans row (col + rep) synth)) else .ok []
  else if 0 < next.2 - col then
    if next.2 - col < rep then .error .overlapCol
    else
      let synth := (next.2 - col) - rep
      if 0 < synth then .ok (writeEmptyCells (splitHidden spans row (col + rep) synth)) else .ok []
  else .ok []

/-- Position of the next cell, or the grid size after the last, src/io/write.rs:1643-1650. -/
def nextCell (maxCell : Nat × Nat) : List ((Nat × Nat) × CellData) → Nat × Nat
  | (k, _) :: _ => k
  | [] => maxCell

/-- The loop of `write_sheet`, src/io/write.rs:1627-1807. -/
def writeLoop (s : TSheet) (maxCell : Nat × Nat) :
    WState → List ((Nat × Nat) × CellData) → Except WErr (List TEv)
  | _, [] => .ok []
  | st, ((row, col), d) :: rest =>
    match writeRowChange s maxCell st row col with
    | .error e => .error e
    | .ok (e1, g) =>
      let spans := removeOutlived st.spans row col
      let pieces := splitHidden spans row col d.repeat
      match pushSpan spans pieces row col d with
      | .error e => .error e
      | .ok spans =>
        match writeFill spans maxCell row col d.repeat (nextCell maxCell rest) with
        | .error e => .error e
        | .ok e3 =>
          let e2 := writeCellPieces d pieces
          let e4 := if rest.isEmpty then writeEndLastRow g else []
          match writeLoop s maxCell ⟨false, row, rowRepeatOf s row, col, g, spans⟩ rest with
          | .error e => .error e
          | .ok e5 => .ok (e1 ++ e2 ++ e3 ++ e4 ++ e5)

/-- The rows written by `write_sheet`, src/io/write.rs:1612-1807. -/
def writeRows (s : TSheet) : Except WErr (List TEv) :=
  writeLoop s (Cells.usedGridSize s.data) {} s.data

/-! ### Writing columns -/

/-- Attributes written from a column header, src/io/write.rs:2080-2092. -/
def colTag (h : ColHeader) : ColTag :=
  { repeated := repAttr h.span, style := h.style, cellstyle := h.cellstyle
    visibility := if h.visible = .visible then none else some h.visible }

/-- Starts a column group, src/io/write.rs:2064-2069. -/
def colGroupStartOf (g : Grouped) : TEv := .colGroupStart (if g.display then none else some false)

/-- Is the column in the header range, src/io/write.rs:2075, 2100? -/
def inHeaderCols (s : TSheet) (c : Nat) : Bool :=
  match s.headerCols with
  | some h => decide (h.frm ≤ c) && decide (c ≤ h.to)
  | none => false

/-- One turn of the loop in `write_table_columns`, src/io/write.rs:2063-2112: the events and the
number of columns they stand for. -/
def writeColStep (s : TSheet) (c : Nat) : List TEv × Nat :=
  let h := s.colHeader.get? c
  ((s.groupCols.filter (fun g => decide (c = g.frm))).map colGroupStartOf
    ++ (if inHeaderCols s c then [.colHeaderStart] else [])
    ++ [.column (match h with | some h => colTag h | none => {})]
    ++ (if inHeaderCols s c then [.colHeaderEnd] else [])
    ++ (s.groupCols.filter (fun g => decide (c = g.to))).map (fun _ => .colGroupEnd),
   match h with | some h => h.span | none => 1)

/-- The loop of `write_table_columns`, src/io/write.rs:2057-2114. A span of 0 fails the
`debug_assert` (a release build would loop forever); `fuel` is the number of turns left, `maxCol` of
them are always enough. -/
def writeColLoop (s : TSheet) (maxCol : Nat) : (fuel : Nat) → (c : Nat) → Except WErr (List TEv)
  | fuel, c =>
    if maxCol ≤ c then .ok []
    else match fuel with
      | 0 => .error .panic
      | fuel + 1 =>
        if (writeColStep s c).2 = 0 then .error .panic
        else match writeColLoop s maxCol fuel (c + (writeColStep s c).2) with
          | .error e => .error e
          | .ok evs => .ok ((writeColStep s c).1 ++ evs)

/-- The number of columns written, src/io/write.rs:2047-2054. -/
def colCount (s : TSheet) : Nat :=
  let m := s.groupCols.foldl (fun m g => max m (g.to + 1)) (Cells.usedGridSize s.data).2
  match s.headerCols with
  | some h => max m (h.to + 1)
  | none => m

/-- `write_table_columns`, src/io/write.rs:2042-2117. -/
def writeCols (s : TSheet) : Except WErr (List TEv) :=
  writeColLoop s (colCount s) (colCount s) 0

/-- The columns and rows written by `write_sheet`, src/io/write.rs:1576-1809. -/
def writeTable (s : TSheet) : Except WErr (List TEv) :=
  match writeCols s with
  | .error e => .error e
  | .ok e1 =>
    match writeRows s with
    | .error e => .error e
    | .ok e2 => .ok (e1 ++ e2)

/-- Writing a sheet of a workbook: `calc_col_headers` comes first, src/io/write.rs:430-481. -/
def writeSheet (s : TSheet) : Except WErr (List TEv) :=
  writeTable { s with colHeader := prepareCols s.groupCols s.headerCols s.colHeader }

/-! ### Reading -/

/-- Options of the reader (src/io/read.rs, `OdsOptions`) and the decoding of a cell element. -/
structure ReadOpts where
  /-- what `read_table_cell` gets from an element written by `write_cell`: `none` if there is no
  attribute that makes a cell -/
  dec : CellData → Option CellData := some
  ignoreEmpty : Bool := false
  useRepeat : Bool := false

/-- Local variables of `read_table`, src/io/read.rs:923-936. -/
structure RState where
  sheet : TSheet := {}
  row : Nat := 0
  col : Nat := 0
  colData : Bool := false
  colRangeFrom : Nat := 0
  colGroup : List Grouped := []
  rowRepeat : Nat := 1
  rowRangeFrom : Nat := 0
  rowGroup : List Grouped := []

/-- `read_table_row_attr`, src/io/read.rs:1131-1172. -/
def readRowAttr (m : RowHeaders) (row : Nat) (t : RowTag) : RowHeaders × Nat :=
  let rep := t.repeated.getD 1
  if t.style.isSome || t.cellstyle.isSome || t.visibility.isSome then
    (m.insert row { style := t.style, cellstyle := t.cellstyle
                    visible := t.visibility.getD .visible, «repeat» := rep }, rep)
  else (m, rep)

/-- `read_table_col_attr`, src/io/read.rs:1230-1270. -/
def readColAttr (m : ColHeaders) (col : Nat) (t : ColTag) : ColHeaders × Nat :=
  let rep := t.repeated.getD 1
  if t.style.isSome || t.cellstyle.isSome || t.visibility.isSome then
    (m.insert col { style := t.style, cellstyle := t.cellstyle
                    visible := t.visibility.getD .visible, span := rep }, rep)
  else (m, rep)

/-- `ignore_cell`, src/io/read.rs:1498-1510. -/
def ignoreCell (o : ReadOpts) (default : Option String) (d : CellData) : Bool :=
  d.isVoid default || (o.ignoreEmpty && d.isEmpty)

/-- `read_table_cell`, src/io/read.rs:1294-1494, for a decoded element: the cells after it and
whether the cell was stored. -/
def readCell (o : ReadOpts) (cols : ColHeaders) (data : Cells) (row col : Nat) (rep : Nat)
    (body : Option CellData) : Cells × Bool :=
  match body.bind o.dec with
  | none => (data, false)
  | some d =>
    if ignoreCell o (cols.colCellstyle col) d then (data, false)
    else (data.insert (row, col) { d with «repeat» := rep }, true)

/-- End of a header range: a second range extends the first, src/io/read.rs:1009-1018, 1049-1058.
`none`: `to - 1` underflows. -/
def endHeader (h : Option HeaderRange) (frm pos : Nat) : Option (Option HeaderRange) :=
  if pos = 0 then none
  else match h with
    | some h => some (some { h with to := pos - 1 })
    | none => some (some ⟨frm, pos - 1⟩)

/-- One event of the loop in `read_table`, src/io/read.rs:938-1082; `none` is a panic. -/
def readStep (o : ReadOpts) (st : RState) : TEv → Option RState
  | .colGroupStart d =>
    some { st with colGroup := ⟨st.col, 0, d.getD true⟩ :: st.colGroup }
  | .colGroupEnd =>
    match st.colGroup with
    | [] => some st
    | g :: gs =>
      if st.col = 0 then none
      else some { st with colGroup := gs, sheet := { st.sheet with
        groupCols := st.sheet.groupCols ++ [{ g with to := st.col - 1 }] } }
  | .colHeaderStart => some { st with colRangeFrom := st.col }
  | .colHeaderEnd =>
    (endHeader st.sheet.headerCols st.colRangeFrom st.col).map
      (fun h => { st with sheet := { st.sheet with headerCols := h } })
  | .column t =>
    let (m, rep) := readColAttr st.sheet.colHeader st.col t
    some { st with sheet := { st.sheet with colHeader := m }, col := st.col + rep }
  | .groupStart d =>
    some { st with rowGroup := ⟨st.row, 0, d.getD true⟩ :: st.rowGroup }
  | .groupEnd =>
    match st.rowGroup with
    | [] => some st
    | g :: gs =>
      if st.row = 0 then none
      else some { st with rowGroup := gs, sheet := { st.sheet with
        groupRows := st.sheet.groupRows ++ [{ g with to := st.row - 1 }] } }
  | .headerStart => some { st with rowRangeFrom := st.row }
  | .headerEnd =>
    (endHeader st.sheet.headerRows st.rowRangeFrom st.row).map
      (fun h => { st with sheet := { st.sheet with headerRows := h } })
  | .rowStart t =>
    let (m, rep) := readRowAttr st.sheet.rowHeader st.row t
    some { st with col := 0, rowRepeat := rep, sheet := { st.sheet with rowHeader := m } }
  | .rowEnd =>
    let m := if st.colData then RowHeaders.step st.sheet.rowHeader (.setRepeat st.row st.rowRepeat)
      else some st.sheet.rowHeader
    m.map (fun m => { st with sheet := { st.sheet with rowHeader := m }
                              row := st.row + st.rowRepeat, rowRepeat := 1, colData := false })
  | .cell _ r body =>
    let rep := r.getD 1
    let (data, have_) := readCell o st.sheet.colHeader st.sheet.data st.row st.col rep body
    some { st with sheet := { st.sheet with data := data }
                   col := st.col + rep, colData := st.colData || have_ }

/-- The loop of `read_table`. -/
def readEvents (o : ReadOpts) : RState → List TEv → Option RState
  | st, [] => some st
  | st, e :: evs => match readStep o st e with
    | some st' => readEvents o st' evs
    | none => none

/-- Kinds of tags that have to be closed. -/
inductive TTag where
  | group | header | row | colGroup | colHeader
  deriving DecidableEq

/-- The tag an event opens. -/
def TEv.opens : TEv → Option TTag
  | .groupStart _ => some .group
  | .headerStart => some .header
  | .rowStart _ => some .row
  | .colGroupStart _ => some .colGroup
  | .colHeaderStart => some .colHeader
  | _ => none

/-- The tag an event closes. -/
def TEv.closes : TEv → Option TTag
  | .groupEnd => some .group
  | .headerEnd => some .header
  | .rowEnd => some .row
  | .colGroupEnd => some .colGroup
  | .colHeaderEnd => some .colHeader
  | _ => none

/-- The XML reader's check of the end tags (quick-xml, `check_end_names`, on by default): `none` is
a mismatch; the result is the stack of the tags still open. -/
def checkTags : List TTag → List TEv → Option (List TTag)
  | st, [] => some st
  | st, e :: evs =>
    match e.opens with
    | some t => checkTags (t :: st) evs
    | none =>
      match e.closes with
      | some t =>
        match st with
        | t' :: st' => if t = t' then checkTags st' evs else none
        | [] => none
      | none => checkTags st evs

/-- Row repeats above 1000 are cleared for the last five headers, src/io/read.rs:519-523, 560-564. -/
def clampLast (m : RowHeaders) : RowHeaders :=
  (m.take (m.length - 5)) ++ (m.drop (m.length - 5)).map (fun p =>
    if 1000 < p.2.repeat then (p.1, { p.2 with «repeat» := 1 }) else p)

/-- Inserts a list of cells, src/io/read.rs:575-577, 615-617. -/
def insertAll (data : Cells) (l : List ((Nat × Nat) × CellData)) : Cells :=
  l.foldl (fun m p => m.insert p.1 p.2) data

/-- The copies made for the repeated rows, src/io/read.rs:565-574. -/
def rowClones (m : RowHeaders) (data : Cells) : List ((Nat × Nat) × CellData) :=
  (m.filter (fun p => decide (1 < p.2.repeat))).flatMap (fun p =>
    (data.filter (fun q => decide (q.1.1 = p.1))).flatMap (fun q =>
      (List.range' 1 (p.2.repeat - 1)).map (fun i => ((q.1.1 + i, q.1.2), q.2))))

/-- The cell is the last of its row, src/io/read.rs:532-536, 596-600; `rest` are the cells after. -/
def lastInRow (row : Nat) (rest : List ((Nat × Nat) × CellData)) : Bool :=
  match rest with
  | (k, _) :: _ => decide (row ≠ k.1)
  | [] => true

/-- The positions dropped, src/io/read.rs:595-605 (and 531-541): a repeated cell without content at
the end of a row. -/
def droppedCells : List ((Nat × Nat) × CellData) → List (Nat × Nat)
  | [] => []
  | (k, d) :: rest =>
    if 1 < d.repeat ∧ lastInRow k.1 rest = true ∧ d.isEmpty = true then k :: droppedCells rest
    else droppedCells rest

/-- The copies made for the repeated cells, src/io/read.rs:592-611. -/
def cellClones : List ((Nat × Nat) × CellData) → List ((Nat × Nat) × CellData)
  | [] => []
  | (k, d) :: rest =>
    if 1 < d.repeat then
      if lastInRow k.1 rest = true ∧ d.isEmpty = true then cellClones rest
      else (List.range' 1 (d.repeat - 1)).map (fun i => ((k.1, k.2 + i), { d with «repeat» := 1 }))
        ++ cellClones rest
    else cellClones rest

/-- `mem::replace(&mut data.repeat, 1)` for every repeated cell, src/io/read.rs:594. -/
def unrepeat (d : CellData) : CellData := if 1 < d.repeat then { d with «repeat» := 1 } else d

/-- `calc_cloned_sheet`, src/io/read.rs:551-618. -/
def calcCloned (s : TSheet) : TSheet :=
  let rh := clampLast s.rowHeader
  let data := insertAll s.data (rowClones rh s.data)
  let rh := rh.map (fun p => (p.1, { p.2 with «repeat» := p.2.span, span := p.2.repeat }))
  let dropped := droppedCells data
  let clones := cellClones data
  let data := data.map (fun p => (p.1, unrepeat p.2))
  let data := dropped.foldl (fun (m : Cells) k => OMap.erase m k) data
  { s with rowHeader := rh, data := insertAll data clones }

/-- `calc_repeat_sheet`, src/io/read.rs:511-549. -/
def calcRepeat (s : TSheet) : TSheet :=
  { s with rowHeader := clampLast s.rowHeader
           data := (droppedCells s.data).foldl (fun (m : Cells) k => OMap.erase m k) s.data }

/-- Reading one table: the tag check of the XML reader, `read_table` and `calculations`
(src/io/read.rs:499-510). `none` is an error or a panic. -/
def readTable (o : ReadOpts) (evs : List TEv) : Option TSheet :=
  match checkTags [] evs with
  | some [] =>
    match readEvents o {} evs with
    | some st =>
      let s := { st.sheet with colHeader := st.sheet.colHeader.dedup }
      some (if o.useRepeat then calcRepeat s else calcCloned s)
    | none => none
  | _ => none

end Verif
