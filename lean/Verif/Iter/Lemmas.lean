import Verif.Iter.Spec
import Verif.Store.Lemmas

set_option autoImplicit false

namespace Verif

open OMap

/-! ### CellIter -/

/-- The state of a cell iterator that has delivered something: `l` is what is still to come. -/
def CellIter.holding (l : Cells) : CellIter := (CellIter.new l).loadNext

theorem CellIter.next_new (m : Cells) :
    (CellIter.new m).next = (m.head?.map itemOf, (CellIter.holding m.tail)) := by
  cases m with
  | nil => rfl
  | cons p m => obtain ⟨k, v⟩ := p; cases m <;> rfl

theorem CellIter.next_holding (m : Cells) :
    (CellIter.holding m).next = (m.head?.map itemOf, (CellIter.holding m.tail)) := by
  cases m with
  | nil => rfl
  | cons p m => obtain ⟨k, v⟩ := p; cases m <;> rfl

theorem CellIter.callN_holding (m : Cells) (n : Nat) :
    callN CellIter.next (CellIter.holding m) n = m[n]?.map itemOf := by
  induction n generalizing m with
  | zero => simp [callN, next_holding, List.head?_eq_getElem?]
  | succ n ih =>
    simp only [callN, next_holding, ih]
    cases m <;> simp

theorem CellIter.callN_new (m : Cells) (n : Nat) :
    callN CellIter.next (CellIter.new m) n = m[n]?.map itemOf := by
  cases n with
  | zero => simp [callN, next_new, List.head?_eq_getElem?]
  | succ n =>
    simp only [callN, next_new, callN_holding]
    cases m <;> simp

theorem CellIter.after_holding (m : Cells) (n : Nat) :
    (CellIter.holding m).after n = CellIter.holding (m.drop n) := by
  induction n generalizing m with
  | zero => simp [after]
  | succ n ih => simp [after, next_holding, ih]

theorem CellIter.after_new (m : Cells) (n : Nat) :
    (CellIter.new m).after (n + 1) = CellIter.holding (m.drop (n + 1)) := by
  simp [after, next_new, after_holding]

/-! ### IterRows -/

theorem IterRows.nextLoop_spec (a b : Nat × Nat) (m : Cells) :
    let q := fun (p : (Nat × Nat) × CellData) =>
      decide (p.1.1 < b.1) && decide (p.1.2 ≥ a.2) && decide (p.1.2 < b.2)
    (nextLoop a b m).1 = ((m.filter q).head?).map itemOf
      ∧ ((nextLoop a b m).2).filter q = (m.filter q).tail := by
  intro q
  induction m with
  | nil => simp [nextLoop]
  | cons p m ih =>
    obtain ⟨⟨r, c⟩, d⟩ := p
    unfold nextLoop
    by_cases h : q ((r, c), d) = true
    · have h' := h
      simp only [q] at h'
      simp only [h', if_true]
      simp [h, itemOf]
    · have h' := h
      simp only [q] at h'
      simp only [h']
      simp [h, ih]

theorem IterRows.callN_eq (s : IterRows) (n : Nat) :
    callN IterRows.next s n =
      ((s.iter.filter (fun p =>
        decide (p.1.1 < s.stop.1) && decide (p.1.2 ≥ s.start.2) && decide (p.1.2 < s.stop.2)))[n]?).map
        itemOf := by
  induction n generalizing s with
  | zero =>
    have := (nextLoop_spec s.start s.stop s.iter).1
    simp only [callN, IterRows.next]
    rw [this, List.head?_eq_getElem?]
  | succ n ih =>
    have := (nextLoop_spec s.start s.stop s.iter).2
    simp only [callN, ih, IterRows.next]
    rw [this]
    simp

/-! ### IterCols -/

/-- Positions still to visit when the current cell is `(r, c)`. -/
def restOf (r0 r1 c1 r c : Nat) : List (Nat × Nat) :=
  (List.range' r (r1 - r)).map (fun r => (r, c)) ++
    (List.range' (c + 1) (c1 - (c + 1))).flatMap
      (fun c => (List.range' r0 (r1 - r0)).map (fun r => (r, c)))

theorem restOf_start (r0 c0 r1 c1 : Nat) (h : c0 < c1) :
    restOf r0 r1 c1 r0 c0 = colMajor r0 c0 r1 c1 := by
  unfold restOf colMajor
  rw [show c1 - c0 = (c1 - (c0 + 1)) + 1 by omega, List.range'_succ, List.flatMap_cons]

theorem restOf_down (r0 r1 c1 r c : Nat) (h : r + 1 < r1) :
    restOf r0 r1 c1 r c = (r, c) :: restOf r0 r1 c1 (r + 1) c := by
  unfold restOf
  rw [show r1 - r = (r1 - (r + 1)) + 1 by omega, List.range'_succ]
  simp

theorem restOf_next (r0 r1 c1 r c : Nat) (h : r + 1 = r1) (h2 : c + 1 < c1) :
    restOf r0 r1 c1 r c = (r, c) :: restOf r0 r1 c1 r0 (c + 1) := by
  rw [restOf_start _ _ _ _ h2]
  unfold restOf colMajor
  rw [show r1 - r = 1 by omega]
  simp

theorem restOf_last (r0 r1 c1 r c : Nat) (h : r + 1 = r1) (h2 : c + 1 = c1) :
    restOf r0 r1 c1 r c = [(r, c)] := by
  unfold restOf
  rw [show r1 - r = 1 by omega, show c1 - (c + 1) = 0 by omega]
  simp

/-- Rounds needed from `(r, c)`. -/
def roundsOf (r0 r1 c1 r c : Nat) : Nat := (c1 - c - 1) * (r1 - r0) + (r1 - r)

/-- What happens once the end corner has been reached inside a call of `next`. -/
def tailOutcome (m : Cells) (fuel : Nat) (stop : Nat × Nat) : Outcome :=
  match m.cell (stop.1 - 1) (stop.2 - 1) with
  | some _ => .done []
  | none =>
    match m.cell stop.1 stop.2 with
    | some x => if fuel = 0 then .running else .done [(stop, x)]
    | none => .running

/-- Append the outcome of the rest after some items. -/
def Outcome.prepend (l : List Item) : Outcome → Outcome
  | .done k => .done (l ++ k)
  | .panic k => .panic (l ++ k)
  | .running => .running

theorem Outcome.cons_prepend (i : Item) (l : List Item) (o : Outcome) :
    (o.prepend l).cons i = o.prepend (i :: l) := by
  cases o <;> rfl

theorem IterCols.advance_stop (s : IterCols) (h : s.cell = s.stop) : s.advance = some s := by
  obtain ⟨a, b, c⟩ := s
  simp only at h
  subst h
  unfold advance
  simp only
  rw [if_neg (by omega), if_neg (by omega)]
  simp

theorem IterCols.collect_stuck (m : Cells) (s : IterCols) (h : s.cell = s.stop)
    (hn : m.cell s.stop.1 s.stop.2 = none) (fuel : Nat) :
    IterCols.collect m fuel false s = .running := by
  induction fuel with
  | zero => rfl
  | succ fuel ih =>
    unfold IterCols.collect
    simp only [Bool.false_and, Bool.false_eq_true, if_false, advance_stop s h, h, hn, ih]

theorem IterCols.collect_rect (m : Cells) (r0 r1 c1 fuel : Nat) (n : Nat) :
    ∀ (r c c0 : Nat), r0 ≤ r → r < r1 → c < c1 → roundsOf r0 r1 c1 r c = n → ∀ (entry : Bool),
    IterCols.collect m (n + fuel + 1) entry { start := (r0, c0), stop := (r1, c1), cell := (r, c) } =
      (tailOutcome m fuel (r1, c1)).prepend (cellsAt m (restOf r0 r1 c1 r c)) := by
  induction n with
  | zero =>
    intro r c c0 _ h1 _ h3
    exfalso
    have : 1 ≤ roundsOf r0 r1 c1 r c := by
      unfold roundsOf
      have : 1 ≤ r1 - r := by omega
      omega
    omega
  | succ n ih =>
    intro r c c0 h0 h1 h2 h3 entry
    unfold IterCols.collect
    have hne : (entry && decide (r = r1) && decide (c = c1)) = false := by
      have : decide (r = r1) = false := by simp; omega
      simp [this]
    simp only [hne, Bool.false_eq_true, if_false]
    have hfuel : n + 1 + fuel = n + fuel + 1 := by omega
    rw [hfuel]
    by_cases hd : r + 1 < r1
    · have hadv : IterCols.advance { start := (r0, c0), stop := (r1, c1), cell := (r, c) } =
          some { start := (r0, c0), stop := (r1, c1), cell := (r + 1, c) } := by
        simp [advance, hd]
      have hn : roundsOf r0 r1 c1 (r + 1) c = n := by
        unfold roundsOf at h3 ⊢; omega
      have hi := ih (r + 1) c c0 (by omega) hd h2 hn
      rw [hadv, restOf_down _ _ _ _ _ hd]
      cases hc : m.cell r c with
      | none => simp only [hi]; simp [cellsAt, hc]
      | some x => simp only [hi]; rw [Outcome.cons_prepend]; simp [cellsAt, hc]
    · have hd' : r + 1 = r1 := by omega
      by_cases hr : c + 1 < c1
      · have hadv : IterCols.advance { start := (r0, c0), stop := (r1, c1), cell := (r, c) } =
            some { start := (r0, c0), stop := (r1, c1), cell := (r0, c + 1) } := by
          simp [advance, hd', hr]
        have hn : roundsOf r0 r1 c1 r0 (c + 1) = n := by
          unfold roundsOf at h3 ⊢
          rw [show c1 - c - 1 = (c1 - (c + 1) - 1) + 1 by omega, Nat.add_mul] at h3
          omega
        have hi := ih r0 (c + 1) c0 (Nat.le_refl _) (by omega) hr hn
        rw [hadv, restOf_next _ _ _ _ _ hd' hr]
        cases hc : m.cell r c with
        | none => simp only [hi]; simp [cellsAt, hc]
        | some x => simp only [hi]; rw [Outcome.cons_prepend]; simp [cellsAt, hc]
      · have hr' : c + 1 = c1 := by omega
        have hadv : IterCols.advance { start := (r0, c0), stop := (r1, c1), cell := (r, c) } =
            some { start := (r0, c0), stop := (r1, c1), cell := (r1, c1) } := by
          simp [advance, hd', hr']
        have hn : n = 0 := by
          unfold roundsOf at h3
          have : c1 - c - 1 = 0 := by omega
          rw [this] at h3; simp at h3; omega
        subst hn
        rw [hadv, restOf_last _ _ _ _ _ hd' hr']
        have e1 : r1 - 1 = r := by omega
        have e2 : c1 - 1 = c := by omega
        cases hc : m.cell r c with
        | some x =>
          simp [tailOutcome, e1, e2, hc, cellsAt, IterCols.collect, Outcome.cons, Outcome.prepend]
        | none =>
          simp only [tailOutcome, e1, e2, hc]
          have hnil : cellsAt m [(r, c)] = [] := by simp [cellsAt, hc]
          rw [hnil]
          cases hs : m.cell r1 c1 with
          | none =>
            simp only [Outcome.prepend]
            exact collect_stuck m _ rfl hs _
          | some y =>
            have hst := advance_stop { start := (r0, c0), stop := (r1, c1), cell := (r1, c1) } rfl
            cases fuel with
            | zero => simp [IterCols.collect, hst, hs, Outcome.cons, Outcome.prepend]
            | succ f => simp [IterCols.collect, hst, hs, Outcome.cons, Outcome.prepend]

end Verif
