import Verif.Iter.Lemmas
import Verif.Store.Props

/-!
# Properties of the sheet iterators (C03 - C06)
-/

set_option autoImplicit false

namespace Verif

open OMap

/-- **C03.** In any sheet reached by API calls: every call of `next` yields a stored cell with its
content, or nothing after the last one (and then forever nothing); the positions are strictly
increasing in row-major order; every stored cell is yielded. -/
theorem C03_iter_complete (ops : List CellOp) (m : Cells) (h : CellOp.run [] ops = some m) :
    let call := callN CellIter.next (CellIter.new m)
    (∀ n p x, call n = some (p, x) → m.cell p.1 p.2 = some x)
    ∧ (∀ n p x n' p' x', call n = some (p, x) → call n' = some (p', x') → n < n' →
        p.1 < p'.1 ∨ (p.1 = p'.1 ∧ p.2 < p'.2))
    ∧ (∀ r c x, m.cell r c = some x → ∃ n, call n = some ((r, c), x))
    ∧ (∀ n, call n = none ↔ m.cellCount ≤ n) := by
  have hs := sorted_run sorted_nil h
  intro call
  have hcall : ∀ n, call n = m[n]?.map itemOf := CellIter.callN_new m
  refine ⟨?_, ?_, ?_, ?_⟩
  · intro n p x hn
    rw [hcall] at hn
    cases hg : m[n]? with
    | none => rw [hg] at hn; simp at hn
    | some q =>
      rw [hg] at hn
      simp only [Option.map_some, Option.some.injEq, itemOf, Prod.mk.injEq] at hn
      obtain ⟨h1, h2⟩ := hn
      have hmem : q ∈ m := List.mem_of_getElem? hg
      have : m.get? p = some q.2 := (get?_eq_some_iff hs).mpr (by rw [← h1]; exact hmem)
      unfold Cells.cell
      rw [show (p.1, p.2) = p from rfl, this, ← h2]
      rfl
  · intro n p x n' p' x' hn hn' hlt
    rw [hcall] at hn hn'
    cases hg : m[n]? with
    | none => rw [hg] at hn; simp at hn
    | some q =>
      cases hg' : m[n']? with
      | none => rw [hg'] at hn'; simp at hn'
      | some q' =>
        rw [hg] at hn
        rw [hg'] at hn'
        simp only [Option.map_some, Option.some.injEq, itemOf, Prod.mk.injEq] at hn hn'
        rw [← hn.1, ← hn'.1]
        rw [← Key.lt_pair]
        obtain ⟨hl, e⟩ := List.getElem?_eq_some_iff.mp hg
        obtain ⟨hl', e'⟩ := List.getElem?_eq_some_iff.mp hg'
        have := List.pairwise_iff_getElem.mp hs n n' hl hl' hlt
        rw [e, e'] at this
        exact this
  · intro r c x hx
    unfold Cells.cell at hx
    cases hg : m.get? (r, c) with
    | none => rw [hg] at hx; simp at hx
    | some d =>
      rw [hg] at hx
      have hmem := mem_of_get?_eq_some hg
      obtain ⟨n, hl, e⟩ := List.getElem_of_mem hmem
      refine ⟨n, ?_⟩
      rw [hcall, List.getElem?_eq_getElem hl, e]
      simp only [Option.map_some, Option.some.injEq] at hx ⊢
      rw [← hx]; rfl
  · intro n
    rw [hcall, Cells.cellCount]
    simp

/-- **C03, second half, partial.** After at least one call of `next`, `peek_cell` gives the position
that the following call yields, or nothing if there is none. Missing: a fresh iterator, see
`C03_peek_fresh_counterexample`. -/
theorem C03_peek_partial (m : Cells) (n : Nat) :
    ((CellIter.new m).after (n + 1)).peekCell
      = (callN CellIter.next (CellIter.new m) (n + 1)).map (·.1) := by
  rw [CellIter.after_new, CellIter.callN_new]
  have : (m.drop (n + 1)).head? = m[n + 1]? := by
    rw [List.head?_eq_getElem?, List.getElem?_drop]
  rw [← this]
  cases m.drop (n + 1) with
  | nil => rfl
  | cons p l => obtain ⟨k, v⟩ := p; rfl

/-- **C03 is violated** for a fresh iterator: `peek_cell` is `None` although `next` yields a cell. -/
theorem C03_peek_fresh_counterexample :
    let m : Cells := [((0, 0), { value := .boolean true })]
    (CellIter.new m).peekCell = none ∧ (callN CellIter.next (CellIter.new m) 0).isSome := by
  decide

/-- **C04, partial.** For an inclusive or open start: if `iter_rows` does not panic it yields, in
row-major order, exactly the stored cells inside the rectangle. Missing: exclusive starts, see
`C04_excluded_start_counterexample`. -/
theorem C04_iter_rows_partial (ops : List CellOp) (m : Cells) (h : CellOp.run [] ops = some m)
    (s e : Bound) (hs : ∀ p, s ≠ .excluded p) (it : IterRows) (hit : IterRows.new m s e = some it) :
    (∀ n, callN IterRows.next it n = ((m.filter (fun p => inRect s e p.1)).map itemOf)[n]?)
    ∧ Sorted (m.filter (fun p => inRect s e p.1)) := by
  have hsort := sorted_run sorted_nil h
  refine ⟨?_, hsort.sublist List.filter_sublist⟩
  intro n
  rw [IterRows.callN_eq, List.getElem?_map]
  congr 2
  unfold IterRows.new rangeOf at hit
  split at hit
  · simp at hit
  · rename_i it' hr
    simp only [Option.ite_none_left_eq_some, Option.some.injEq] at hr hit
    obtain ⟨_, hr⟩ := hr
    obtain ⟨_, _, hit⟩ := hit
    subst hr
    subst hit
    simp only
    rw [List.filter_filter]
    apply List.filter_congr
    intro p hp
    have hused := (C07_used_grid_size m).1 p.1.1 p.1.2
      (by simp only [Cells.isEmpty, OMap.contains]
          rw [get?_isSome_of_mem hp]; rfl)
    rw [Bool.eq_iff_iff]
    cases s with
    | excluded q => exact absurd rfl (hs q)
    | included q =>
      cases e <;>
        simp only [Bool.and_eq_true, decide_eq_true_eq] <;>
        simp [inRect, Bound.start, Bound.stop, Bound.above, Bound.below, Key.lt_pair,
          Key.lt_pair_false] <;> omega
    | unbounded =>
      cases e <;>
        simp only [Bool.and_eq_true, decide_eq_true_eq] <;>
        simp [inRect, Bound.start, Bound.stop, Bound.above, Bound.below, Key.lt_pair,
          Key.lt_pair_false] <;> omega

/-- For a half-open rectangle the call panics exactly if the first corner is behind the second in
row-major order, or the size computation overflows. -/
theorem C04_no_panic (m : Cells) (a b : Nat × Nat) :
    (IterRows.new m (.included a) (.excluded b)).isSome
      ↔ ((a.1 < b.1 ∨ (a.1 = b.1 ∧ a.2 ≤ b.2)) ∧ b.2 * a.2 < 2 ^ 32) := by
  unfold IterRows.new rangeOf rangePanics
  by_cases hp : Key.lt b a = true
  · have := (Key.lt_pair b a).mp hp
    simp only [hp, if_true]
    simp; omega
  · have hp' : ¬ (b.1 < a.1 ∨ (b.1 = a.1 ∧ b.2 < a.2)) := fun h => hp ((Key.lt_pair b a).mpr h)
    simp only [hp]
    simp only [Bool.false_eq_true, if_false]
    have e1 : (Bound.included a).start = a := rfl
    have e2 : (Bound.excluded b).stop m = b := rfl
    split
    · rename_i hlt; rw [e1, e2] at hlt; simp; omega
    · split
      · rename_i hlt; rw [e1, e2] at hlt; simp; omega
      · rename_i hlt; rw [e1, e2] at hlt; simp; omega

example : (IterRows.new [((1, 1), {}), ((2, 5), {})] (.included (1, 1)) (.excluded (3, 4))).isSome := by
  decide

/-- **C04 is violated** for an exclusive start: the cell (0, 5) is not in the rectangle behind (0, 0)
but is yielded. -/
theorem C04_excluded_start_counterexample :
    let m : Cells := [((0, 5), {})]
    ∃ it, IterRows.new m (.excluded (0, 0)) (.excluded (9, 9)) = some it
      ∧ (callN IterRows.next it 0).map (·.1) = some (0, 5)
      ∧ inRect (.excluded (0, 0)) (.excluded (9, 9)) (0, 5) = false := by
  refine ⟨⟨_, _, _, _⟩, rfl, ?_, ?_⟩ <;> decide

/-- Further violation: an open end starting behind the used area panics (debug build) instead of
yielding nothing. -/
theorem C04_open_end_counterexample :
    IterRows.new [((0, 0), {})] (.included (10, 0)) .unbounded = none := by
  decide

/-- For a non-empty rectangle whose last cell is stored, `iter_cols` terminates and yields the stored cells
column by column. -/
theorem IterCols.collect_filled (m : Cells) (s e : Bound)
    (hr : s.start.1 < (e.stop m).1) (hc : s.start.2 < (e.stop m).2)
    (hlast : (m.cell ((e.stop m).1 - 1) ((e.stop m).2 - 1)).isSome) :
    ∃ N, ∀ fuel, N ≤ fuel → IterCols.collect m fuel true (IterCols.new m s e) =
      .done (cellsAt m (colMajor s.start.1 s.start.2 (e.stop m).1 (e.stop m).2)) := by
  refine ⟨roundsOf s.start.1 (e.stop m).1 (e.stop m).2 s.start.1 s.start.2 + 1, ?_⟩
  intro fuel hf
  obtain ⟨k, rfl⟩ := Nat.exists_eq_add_of_le hf
  have := IterCols.collect_rect m s.start.1 (e.stop m).1 (e.stop m).2 k _
    s.start.1 s.start.2 s.start.2 (Nat.le_refl _) hr hc rfl true
  rw [show roundsOf s.start.1 (e.stop m).1 (e.stop m).2 s.start.1 s.start.2 + 1 + k
        = roundsOf s.start.1 (e.stop m).1 (e.stop m).2 s.start.1 s.start.2 + k + 1 by omega]
  unfold IterCols.new
  refine this.trans ?_
  rw [restOf_start _ _ _ _ hc]
  unfold tailOutcome
  simp only
  cases h : m.cell ((e.stop m).1 - 1) ((e.stop m).2 - 1) with
  | none => rw [h] at hlast; simp at hlast
  | some x => simp [Outcome.prepend]

/-- The positions `colMajor` lists are those of the rectangle. -/
theorem C05_colMajor_mem (r0 c0 r1 c1 r c : Nat) :
    (r, c) ∈ colMajor r0 c0 r1 c1 ↔ (r0 ≤ r ∧ r < r1 ∧ c0 ≤ c ∧ c < c1) := by
  simp only [colMajor, List.mem_flatMap, List.mem_map, List.mem_range'_1, Prod.mk.injEq]
  constructor
  · rintro ⟨c', h1, r', h2, rfl, rfl⟩; omega
  · intro h; exact ⟨c, by omega, r, by omega, rfl, rfl⟩

/-- ... each once and column by column. -/
theorem C05_colMajor_order (r0 c0 r1 c1 : Nat) :
    (colMajor r0 c0 r1 c1).Pairwise (fun a b => a.2 < b.2 ∨ (a.2 = b.2 ∧ a.1 < b.1)) := by
  unfold colMajor
  rw [List.pairwise_flatMap]
  constructor
  · intro c _
    rw [List.pairwise_map]
    exact List.Pairwise.imp (fun h => Or.inr ⟨rfl, h⟩) List.pairwise_lt_range'
  · refine List.Pairwise.imp ?_ (List.pairwise_lt_range' (s := c0) (n := c1 - c0))
    intro a b hab x hx y hy
    simp only [List.mem_map] at hx hy
    obtain ⟨_, _, rfl⟩ := hx
    obtain ⟨_, _, rfl⟩ := hy
    exact Or.inl hab

/-- The corners the iterator computes are those of the rectangle the user means. -/
theorem inRect_corners (m : Cells) (s e : Bound) (q : Nat × Nat) (x : CellContent)
    (hx : m.cell q.1 q.2 = some x) :
    inRect s e q = true ↔ (s.start.1 ≤ q.1 ∧ q.1 < (e.stop m).1 ∧ s.start.2 ≤ q.2 ∧ q.2 < (e.stop m).2) := by
  have hused := (C07_used_grid_size m).1 q.1 q.2 (by
    unfold Cells.cell at hx
    unfold Cells.isEmpty OMap.contains
    cases hg : OMap.get? m (q.1, q.2) with
    | none => rw [hg] at hx; simp at hx
    | some d => rfl)
  cases s <;> cases e <;> simp [inRect, Bound.start, Bound.stop] <;> omega

/-- **C05, partial.** For a non-empty rectangle whose last cell (lower right corner) is stored,
`iter_cols` terminates; it yields exactly the stored cells of the rectangle the two bounds stand for, column by
column, each once. Missing: rectangles with an empty last cell, see `C05_empty_corner`. -/
theorem C05_iter_cols_partial (m : Cells) (s e : Bound)
    (hr : s.start.1 < (e.stop m).1) (hc : s.start.2 < (e.stop m).2)
    (hlast : (m.cell ((e.stop m).1 - 1) ((e.stop m).2 - 1)).isSome) :
    ∃ items N, (∀ fuel, N ≤ fuel → IterCols.collect m fuel true (IterCols.new m s e) = .done items)
      ∧ (∀ p x, (p, x) ∈ items ↔ (m.cell p.1 p.2 = some x ∧ inRect s e p = true))
      ∧ items.Pairwise (fun a b => a.1.2 < b.1.2 ∨ (a.1.2 = b.1.2 ∧ a.1.1 < b.1.1)) := by
  obtain ⟨N, h⟩ := IterCols.collect_filled m s e hr hc hlast
  refine ⟨_, N, h, ?_, ?_⟩
  · intro p x
    unfold cellsAt
    rw [List.mem_filterMap]
    constructor
    · rintro ⟨q, hq, he⟩
      cases hx : m.cell q.1 q.2 with
      | none => rw [hx] at he; simp at he
      | some y =>
        rw [hx] at he
        simp only [Option.map_some, Option.some.injEq, Prod.mk.injEq] at he
        obtain ⟨rfl, rfl⟩ := he
        exact ⟨hx, (inRect_corners m s e q y hx).2 ((C05_colMajor_mem _ _ _ _ q.1 q.2).1 hq)⟩
    · rintro ⟨hx, hi⟩
      refine ⟨p, (C05_colMajor_mem _ _ _ _ p.1 p.2).2 ((inRect_corners m s e p x hx).1 hi), ?_⟩
      rw [hx]; rfl
  · unfold cellsAt
    rw [List.pairwise_filterMap]
    refine List.Pairwise.imp ?_ (C05_colMajor_order _ _ _ _)
    intro a b hab x hx y hy
    cases ha : m.cell a.1 a.2 with
    | none => rw [ha] at hx; simp at hx
    | some u =>
      cases hb : m.cell b.1 b.2 with
      | none => rw [hb] at hy; simp at hy
      | some v =>
        rw [ha] at hx; rw [hb] at hy
        simp only [Option.map_some, Option.some.injEq] at hx hy
        rw [← hx, ← hy]; exact hab

/-- **C05 is violated** whenever the lower right corner of a non-empty rectangle is not stored: the
iteration either never terminates, or yields one cell that lies outside the rectangle. -/
theorem C05_empty_corner (m : Cells) (s e : Bound)
    (hr : s.start.1 < (e.stop m).1) (hc : s.start.2 < (e.stop m).2)
    (hlast : m.cell ((e.stop m).1 - 1) ((e.stop m).2 - 1) = none) :
    (m.cell (e.stop m).1 (e.stop m).2 = none ∧
      ∀ fuel, IterCols.collect m fuel true (IterCols.new m s e) = .running)
    ∨ ∃ x fuel, m.cell (e.stop m).1 (e.stop m).2 = some x ∧
      IterCols.collect m fuel true (IterCols.new m s e) =
        .done (cellsAt m (colMajor s.start.1 s.start.2 (e.stop m).1 (e.stop m).2) ++
          [(e.stop m, x)]) := by
  have key := fun k => IterCols.collect_rect m s.start.1 (e.stop m).1 (e.stop m).2 k _
    s.start.1 s.start.2 s.start.2 (Nat.le_refl _) hr hc rfl true
  rw [restOf_start _ _ _ _ hc] at key
  unfold tailOutcome at key
  simp only [hlast] at key
  cases hs : m.cell (e.stop m).1 (e.stop m).2 with
  | none =>
    left
    refine ⟨rfl, ?_⟩
    simp only [hs, Outcome.prepend] at key
    intro fuel
    -- more fuel than needed is running, hence less fuel is running too
    have mono : ∀ (f g : Nat) (b : Bool) (st : IterCols), f ≤ g →
        IterCols.collect m g b st = .running → IterCols.collect m f b st = .running := by
      intro f
      induction f with
      | zero => intros; rfl
      | succ f ih =>
        intro g b st hle hg
        obtain ⟨g, rfl⟩ : ∃ g', g = g' + 1 := ⟨g - 1, by omega⟩
        unfold IterCols.collect at hg ⊢
        split
        · rename_i hcond; rw [if_pos hcond] at hg; simp at hg
        · rename_i hcond
          rw [if_neg hcond] at hg
          split
          · rename_i ha; simp only [ha] at hg; simp at hg
          · rename_i s' ha
            simp only [ha] at hg
            cases hx : m.cell st.cell.1 st.cell.2
            case some x =>
              simp only [hx] at hg ⊢
              rw [ih g true s' (by omega)]
              · rfl
              · cases hh : IterCols.collect m g true s' <;> rw [hh] at hg <;>
                  simp [Outcome.cons] at hg
            case none =>
              simp only [hx] at hg ⊢
              exact ih g false s' (by omega) hg
    refine mono fuel _ _ _ ?_ (key fuel)
    omega
  | some x =>
    right
    refine ⟨x, roundsOf s.start.1 (e.stop m).1 (e.stop m).2 s.start.1 s.start.2 + 1 + 1, rfl, ?_⟩
    have := key 1
    simp only [hs] at this
    refine this.trans ?_
    simp [Outcome.prepend]

/-- A small sheet where `iter_cols(..)` never ends: two cells on the anti-diagonal. -/
theorem C05_diverges_counterexample :
    let m : Cells := [((0, 1), {}), ((1, 0), {})]
    ∀ fuel, IterCols.collect m fuel true (IterCols.new m .unbounded .unbounded) = .running := by
  intro m
  rcases C05_empty_corner m .unbounded .unbounded (by decide) (by decide) (by decide) with h | h
  · exact h.2
  · obtain ⟨x, _, h, _⟩ := h
    have : m.cell (Bound.stop m .unbounded).1 (Bound.stop m .unbounded).2 = none := by decide
    rw [this] at h; simp at h

/-- A rectangle without rows panics in a failed assertion instead of yielding nothing. -/
theorem C05_empty_rect_counterexample :
    IterCols.collect [] 5 true (IterCols.new [] (.included (0, 0)) (.excluded (0, 5))) = .panic [] := by
  decide

/-- The premises of `C05_iter_cols_partial` are met by a filled block. -/
example : (Cells.cell [((0, 0), {}), ((1, 1), {})]
    ((Bound.stop [((0, 0), {}), ((1, 1), {})] .unbounded).1 - 1)
    ((Bound.stop [((0, 0), {}), ((1, 1), {})] .unbounded).2 - 1)).isSome := by decide

/-- **C06, partial.** The size hint of a fresh `iter` is the exact number of items to come.
Missing: later points of the iteration, see the counterexample. -/
theorem C06_fresh_hint_partial (m : Cells) :
    (CellIter.new m).sizeHint = (m.cellCount, some m.cellCount)
    ∧ ∀ n, (callN CellIter.next (CellIter.new m) n).isSome ↔ n < m.cellCount := by
  refine ⟨rfl, ?_⟩
  intro n
  rw [CellIter.callN_new, Cells.cellCount]
  simp

/-- **C06 is violated** at every later point: after at least one call the upper bound is one less
than the number of items still to come, as long as there are any. -/
theorem C06_hint_after_counterexample (m : Cells) (n : Nat) (h : n + 1 < m.cellCount) :
    ((CellIter.new m).after (n + 1)).sizeHint.2 = some (m.cellCount - (n + 1) - 1)
    ∧ m.cellCount - (n + 1) - 1 < m.cellCount - (n + 1) := by
  rw [CellIter.after_new]
  unfold Cells.cellCount at *
  refine ⟨?_, by omega⟩
  cases hd : m.drop (n + 1) with
  | nil =>
    have := List.drop_eq_nil_iff.mp hd
    omega
  | cons p l =>
    have hl : (m.drop (n + 1)).length = l.length + 1 := by rw [hd]; rfl
    rw [List.length_drop] at hl
    obtain ⟨k, v⟩ := p
    simp only [CellIter.holding, CellIter.new, CellIter.loadNext, CellIter.sizeHint]
    congr 1
    omega

/-- **C06 is violated** by `iter_rows` for every rectangle that starts in column 0: the upper bound is
zero although cells are yielded. -/
theorem C06_rows_hint_counterexample :
    ∃ it, IterRows.new [((0, 0), {})] (.included (0, 0)) (.excluded (1, 1)) = some it
      ∧ it.sizeHint = (0, some 0) ∧ (callN IterRows.next it 0).isSome := by
  refine ⟨⟨_, _, _, _⟩, rfl, ?_, ?_⟩ <;> decide

/-- **C06, partial.** The upper bound given by `iter_cols` is right for the rectangles of
`C05_iter_cols_partial`. -/
theorem C06_cols_hint_partial (m : Cells) (s e : Bound)
    (hr : s.start.1 < (e.stop m).1) (hc : s.start.2 < (e.stop m).2) :
    ∃ n, (IterCols.new m s e).sizeHint = some (0, some n)
      ∧ (cellsAt m (colMajor s.start.1 s.start.2 (e.stop m).1 (e.stop m).2)).length ≤ n := by
  refine ⟨((e.stop m).1 - s.start.1) * ((e.stop m).2 - s.start.2), ?_, ?_⟩
  · unfold IterCols.new IterCols.sizeHint
    simp only
    rw [if_neg (by omega)]
  · refine Nat.le_trans (List.length_filterMap_le _ _) ?_
    unfold colMajor
    rw [List.length_flatMap]
    simp only [List.length_map, List.length_range']
    rw [List.map_const', List.sum_replicate_nat, List.length_range', Nat.mul_comm]
    exact Nat.le_refl _

end Verif
