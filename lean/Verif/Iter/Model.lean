import Verif.Store.Model

/-!
# Model of the iterators over a sheet (src/sheet_.rs:130-491)
-/

set_option autoImplicit false

namespace Verif

/-- What an iterator yields: position and content of a cell
(`CellContentRef` of src/cell_.rs:262-288 carries the same data as `CellContent`). -/
abbrev Item := (Nat × Nat) × CellContent

/-- The item for a stored cell. -/
def itemOf (p : (Nat × Nat) × CellData) : Item := (p.1, p.2.toContent)

/-- `CellIter`, src/sheet_.rs:270-275: the underlying map iterator (what it has not delivered yet)
and one prefetched key and value. -/
structure CellIter where
  iter : Cells
  kData : Option (Nat × Nat)
  vData : Option CellData

namespace CellIter

/-- `IntoIterator for &Sheet`, src/sheet_.rs:130-141. -/
def new (m : Cells) : CellIter := { iter := m, kData := none, vData := none }

/-- `CellIter::peek_cell`, src/sheet_.rs:278-280. -/
def peekCell (s : CellIter) : Option (Nat × Nat) := s.kData

/-- `CellIter::load_next_data`, src/sheet_.rs:282-290. -/
def loadNext (s : CellIter) : CellIter :=
  match s.iter with
  | (k, v) :: rest => { iter := rest, kData := some k, vData := some v }
  | [] => { iter := [], kData := none, vData := none }

/-- `CellIter::next`, src/sheet_.rs:298-314. -/
def next (s : CellIter) : Option Item × CellIter :=
  let s := if s.kData.isNone then s.loadNext else s
  match s.kData with
  | some k =>
    match s.vData with
    | some v => (some (k, v.toContent), s.loadNext)
    | none => (none, s)
  | none => (none, s)

/-- `CellIter::size_hint`, src/sheet_.rs:316-318: that of the map iterator, which is exact. -/
def sizeHint (s : CellIter) : Nat × Option Nat := (s.iter.length, some s.iter.length)

/-- The iterator after `n` calls of `next`. -/
def after (s : CellIter) : Nat → CellIter
  | 0 => s
  | n + 1 => (s.next.2).after n

end CellIter

/-- `std::ops::Bound`. -/
inductive Bound where
  | included (p : Nat × Nat)
  | excluded (p : Nat × Nat)
  | unbounded

/-- First corner of the range, src/sheet_.rs:330-334 and 393-397. -/
def Bound.start : Bound → Nat × Nat
  | .included p => p
  | .excluded p => (p.1 + 1, p.2 + 1)
  | .unbounded => (0, 0)

/-- Second corner (exclusive) of the range, src/sheet_.rs:335-339 and 398-402. -/
def Bound.stop (m : Cells) : Bound → Nat × Nat
  | .included p => (p.1 + 1, p.2 + 1)
  | .excluded p => p
  | .unbounded => m.usedGridSize

/-- Does a position satisfy a start bound in the lexicographic order of the map? -/
def Bound.above : Bound → Nat × Nat → Bool
  | .included p, q => !(Key.lt q p)
  | .excluded p, q => Key.lt p q
  | .unbounded, _ => true

/-- Does a position satisfy an end bound in the lexicographic order of the map? -/
def Bound.below : Bound → Nat × Nat → Bool
  | .included p, q => !(Key.lt p q)
  | .excluded p, q => Key.lt q p
  | .unbounded, _ => true

/-- `BTreeMap::range` panics if the start is greater than the end, or if both are equal and
excluded (documentation of the standard library). -/
def rangePanics : Bound → Bound → Bool
  | .included a, .included b => Key.lt b a
  | .included a, .excluded b => Key.lt b a
  | .excluded a, .included b => Key.lt b a
  | .excluded a, .excluded b => Key.lt b a || decide (a = b)
  | _, _ => false

/-- `BTreeMap::range`; `none` is the panic. -/
def rangeOf (m : Cells) (s e : Bound) : Option Cells :=
  if rangePanics s e then none else some (m.filter (fun p => s.above p.1 && e.below p.1))

/-- `Sheet::range`, src/sheet_.rs:612-619, with `Range::next`, 465-474: everything it yields. -/
def sheetRange (m : Cells) (s e : Bound) : Option (List Item) := (rangeOf m s e).map (·.map itemOf)

/-- `IterRows`, src/sheet_.rs:321-326. -/
structure IterRows where
  iter : Cells
  start : Nat × Nat
  stop : Nat × Nat
  hint : Nat

/-- `IterRows::new`, src/sheet_.rs:329-347. `none` is a panic: of `BTreeMap::range`, or of the
unsigned subtraction and multiplication in the hint (checked arithmetic of a debug build). -/
def IterRows.new (m : Cells) (s e : Bound) : Option IterRows :=
  let start := s.start
  let stop := e.stop m
  match rangeOf m s e with
  | none => none
  | some it =>
    if stop.1 < start.1 then none
    else if 2 ^ 32 ≤ stop.2 * start.2 then none
    else some { iter := it, start := start, stop := stop
                hint := (stop.1 - start.1) * (stop.2 * start.2) }

/-- The loop of `IterRows::next`, src/sheet_.rs:355-365. -/
def IterRows.nextLoop (start stop : Nat × Nat) : Cells → Option Item × Cells
  | [] => (none, [])
  | ((r, c), d) :: rest =>
    if decide (r < stop.1) && decide (c ≥ start.2) && decide (c < stop.2) then
      (some ((r, c), d.toContent), rest)
    else nextLoop start stop rest

/-- `IterRows::next`, src/sheet_.rs:355-365. -/
def IterRows.next (s : IterRows) : Option Item × IterRows :=
  let (r, it) := nextLoop s.start s.stop s.iter
  (r, { s with iter := it })

/-- `IterRows::size_hint`, src/sheet_.rs:367-369. -/
def IterRows.sizeHint (s : IterRows) : Nat × Option Nat := (0, some s.hint)

/-- The result of call number `n` (counting from 0) of an iterator's `next`. -/
def callN {σ α : Type} (next : σ → Option α × σ) (s : σ) : Nat → Option α
  | 0 => (next s).1
  | n + 1 => callN next (next s).2 n

/-- `IterCols`, src/sheet_.rs:372-377. -/
structure IterCols where
  start : Nat × Nat
  stop : Nat × Nat
  cell : Nat × Nat

/-- `IterCols::new`, src/sheet_.rs:392-410. -/
def IterCols.new (m : Cells) (s e : Bound) : IterCols :=
  { start := s.start, stop := e.stop m, cell := s.start }

/-- Advance of the current cell inside the loop of `IterCols::next`, src/sheet_.rs:427-441;
`none` is a failed assertion. -/
def IterCols.advance (s : IterCols) : Option IterCols :=
  if s.cell.1 + 1 < s.stop.1 then some { s with cell := (s.cell.1 + 1, s.cell.2) }
  else if s.cell.1 + 1 = s.stop.1 then
    if s.cell.2 + 1 < s.stop.2 then some { s with cell := (s.start.1, s.cell.2 + 1) }
    else if s.cell.2 + 1 = s.stop.2 then some { s with cell := (s.cell.1 + 1, s.cell.2 + 1) }
    else if s.cell = s.stop then some s else none
  else if s.cell = s.stop then some s else none

/-- Outcome of running an iteration with bounded fuel. -/
inductive Outcome where
  /-- the iterator returned `None`, after yielding these items -/
  | done (items : List Item)
  /-- an assertion failed after yielding these items -/
  | panic (items : List Item)
  /-- not finished within the given number of loop rounds -/
  | running
  deriving DecidableEq

/-- Prepend an item to the items of an outcome. -/
def Outcome.cons (i : Item) : Outcome → Outcome
  | .done l => .done (i :: l)
  | .panic l => .panic (i :: l)
  | .running => .running

/-- Calling `IterCols::next` (src/sheet_.rs:417-447) until it returns `None`. `entry` is true at the
start of a call, where the end test is made; the loop rounds within a call have no end test. Each
round takes one unit of fuel. -/
def IterCols.collect (m : Cells) : Nat → Bool → IterCols → Outcome
  | 0, _, _ => .running
  | fuel + 1, entry, s =>
    if entry && decide (s.cell.1 = s.stop.1) && decide (s.cell.2 = s.stop.2) then .done []
    else
      let d := m.cell s.cell.1 s.cell.2
      match s.advance with
      | none => .panic []
      | some s' =>
        match d with
        | some x => (collect m fuel true s').cons (s.cell, x)
        | none => collect m fuel false s'

/-- `IterCols::size_hint`, src/sheet_.rs:449-454; the subtractions are checked in a debug build. -/
def IterCols.sizeHint (s : IterCols) : Option (Nat × Option Nat) :=
  if s.stop.1 < s.start.1 ∨ s.stop.2 < s.start.2 then none
  else some (0, some ((s.stop.1 - s.start.1) * (s.stop.2 - s.start.2)))

end Verif
