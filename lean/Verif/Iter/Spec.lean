import Verif.Iter.Model

/-!
# Specification of the sheet iterators
-/

set_option autoImplicit false

namespace Verif

/-- The rectangle a user means by two bounds: rows and columns are bounded separately. -/
def inRect (s e : Bound) (q : Nat × Nat) : Bool :=
  (match s with
   | .included p => decide (p.1 ≤ q.1) && decide (p.2 ≤ q.2)
   | .excluded p => decide (p.1 < q.1) && decide (p.2 < q.2)
   | .unbounded => true)
  &&
  (match e with
   | .included p => decide (q.1 ≤ p.1) && decide (q.2 ≤ p.2)
   | .excluded p => decide (q.1 < p.1) && decide (q.2 < p.2)
   | .unbounded => true)

/-- The positions of the rectangle with corners `(r0, c0)` (inclusive) and `(r1, c1)` (exclusive),
column by column. -/
def colMajor (r0 c0 r1 c1 : Nat) : List (Nat × Nat) :=
  (List.range' c0 (c1 - c0)).flatMap (fun c => (List.range' r0 (r1 - r0)).map (fun r => (r, c)))

/-- The stored cells among a list of positions, in that order. -/
def cellsAt (m : Cells) (ps : List (Nat × Nat)) : List Item :=
  ps.filterMap (fun p => (m.cell p.1 p.2).map (fun x => (p, x)))

end Verif
