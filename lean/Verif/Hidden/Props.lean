import Verif.Hidden.Model

/-!
# Properties of covered areas (C22, C60)
-/

set_option autoImplicit false

namespace Verif

/-- A position is covered by one of the ranges. -/
def Covered (ranges : List CellRange) (row col : Nat) : Prop :=
  ∃ v ∈ ranges, v.fromRow.row ≤ row ∧ row ≤ v.toRow.row ∧ v.fromCol.col ≤ col ∧ col ≤ v.toCol.col

instance (ranges : List CellRange) (row col : Nat) : Decidable (Covered ranges row col) := by
  unfold Covered; infer_instance

/-- The columns of a list of pieces, each with its flag. -/
def expand (l : List SplitCols) : List (Nat × Bool) :=
  l.flatMap (fun p => (List.range' p.col p.repeat).map (fun c => (c, p.hidden)))

theorem any_contains_iff (ranges : List CellRange) (row col : Nat) :
    ranges.any (fun v => v.contains row col) = decide (Covered ranges row col) := by
  rw [Bool.eq_iff_iff, decide_eq_true_eq]
  simp only [List.any_eq_true, CellRange.contains, Bool.and_eq_true, decide_eq_true_eq, and_assoc,
    Covered]

theorem any_filter_iff (ranges : List CellRange) (row col : Nat) :
    (ranges.filter (fun v => decide (v.fromRow.row ≤ row) && decide (row ≤ v.toRow.row))).any
      (fun r => decide (r.fromCol.col ≤ col) && decide (col ≤ r.toCol.col))
      = decide (Covered ranges row col) := by
  rw [Bool.eq_iff_iff, decide_eq_true_eq]
  simp only [List.any_eq_true, List.mem_filter, Bool.and_eq_true, decide_eq_true_eq, and_assoc,
    Covered]

/-- Open range and finished pieces together. -/
def joined (st : Option SplitCols × List SplitCols) : List SplitCols :=
  match st.1 with
  | some range => st.2 ++ [range]
  | none => st.2

theorem joined_step (hidden : Bool) (c : Nat) (st : Option SplitCols × List SplitCols)
    (h : ∀ r, st.1 = some r → r.col ≤ r.colTo ∧ r.colTo + 1 = c)
    (hn : st.1 = none → st.2 = [])
    (hp : ∀ p ∈ st.2, p.col ≤ p.colTo) :
    expand (joined (splitStep hidden c st)) = expand (joined st) ++ [(c, hidden)]
    ∧ (∀ r, (splitStep hidden c st).1 = some r → r.col ≤ r.colTo ∧ r.colTo + 1 = c + 1)
    ∧ (∀ p ∈ (splitStep hidden c st).2, p.col ≤ p.colTo)
    ∧ ((splitStep hidden c st).1 ≠ none) := by
  obtain ⟨range, out⟩ := st
  unfold splitStep joined
  cases range with
  | none =>
    have := hn rfl
    simp only at this
    subst this
    simp [expand, SplitCols.repeat]
  | some r =>
    obtain ⟨h1, h2⟩ := h r rfl
    simp only
    by_cases e : (r.hidden == hidden) = true
    · simp only [e, if_true]
      have e' : r.hidden = hidden := by simpa using e
      refine ⟨?_, ?_, hp, by simp⟩
      · simp only [expand, List.flatMap_append, List.flatMap_cons, List.flatMap_nil, List.append_nil,
          SplitCols.repeat, List.append_assoc]
        congr 1
        rw [show c - r.col + 1 = (r.colTo - r.col + 1) + 1 by omega, List.range'_concat]
        simp only [List.map_append, List.map_cons, List.map_nil, e']
        congr 3
        omega
      · intro r' hr'
        simp only [Option.some.injEq] at hr'
        rw [← hr']; exact ⟨by show r.col ≤ c; omega, rfl⟩
    · simp only [e]
      refine ⟨?_, ?_, ?_, by simp⟩
      · simp [expand, SplitCols.repeat]
      · intro r' hr'
        simp only [Bool.false_eq_true, if_false, Option.some.injEq] at hr'
        rw [← hr']; simp
      · intro p hp'
        simp only [Bool.false_eq_true, if_false] at hp'
        rcases List.mem_append.mp hp' with x | x
        · exact hp p x
        · simp only [List.mem_singleton] at x; rw [x]; exact h1

/-- Neighbouring pieces differ in their flag. -/
def Alternating : List SplitCols → Prop
  | p :: q :: l => p.hidden ≠ q.hidden ∧ Alternating (q :: l)
  | _ => True

theorem alternating_concat (l : List SplitCols) (p q : SplitCols) :
    Alternating (l ++ [p]) → p.hidden ≠ q.hidden → Alternating (l ++ [p, q]) := by
  induction l with
  | nil => intro _ h; exact ⟨h, trivial⟩
  | cons a l ih =>
    intro h hpq
    cases l with
    | nil => exact ⟨h.1, hpq, trivial⟩
    | cons b l => exact ⟨h.1, ih h.2 hpq⟩

theorem alternating_last (l : List SplitCols) (p q : SplitCols) (e : p.hidden = q.hidden) :
    Alternating (l ++ [p]) → Alternating (l ++ [q]) := by
  induction l with
  | nil => intro _; trivial
  | cons a l ih =>
    intro h
    cases l with
    | nil => exact ⟨by rw [← e]; exact h.1, trivial⟩
    | cons b l => exact ⟨h.1, ih h.2⟩

theorem fold_split (f : Nat → Bool) (n : Nat) :
    ∀ (col : Nat) (st : Option SplitCols × List SplitCols),
    (∀ r, st.1 = some r → r.col ≤ r.colTo ∧ r.colTo + 1 = col) → (st.1 = none → st.2 = []) →
    (∀ p ∈ st.2, p.col ≤ p.colTo) → Alternating (joined st) →
    let st' := (List.range' col n).foldl (fun st c => splitStep (f c) c st) st
    expand (joined st') = expand (joined st) ++ (List.range' col n).map (fun c => (c, f c))
    ∧ (∀ p ∈ joined st', p.col ≤ p.colTo)
    ∧ Alternating (joined st')
    ∧ ((st.1 ≠ none ∨ 0 < n) → joined st' ≠ []) := by
  induction n with
  | zero =>
    intro col st h1 h2 h3 h4
    refine ⟨by simp, ?_, by simpa using h4, ?_⟩
    · simp only [List.range'_zero, List.foldl_nil]
      intro p hp
      unfold joined at hp
      split at hp
      · rename_i r hr
        rcases List.mem_append.mp hp with x | x
        · exact h3 p x
        · simp only [List.mem_singleton] at x; rw [x]; exact (h1 r hr).1
      · exact h3 p hp
    · rintro (h | h)
      · simp only [List.range'_zero, List.foldl_nil]
        unfold joined
        cases hs : st.1 with
        | none => exact absurd hs h
        | some r => simp
      · omega
  | succ n ih =>
    intro col st h1 h2 h3 h4
    obtain ⟨s1, s2, s3, s4⟩ := joined_step (f col) col st h1 h2 h3
    have halt : Alternating (joined (splitStep (f col) col st)) := by
      obtain ⟨range, out⟩ := st
      cases range with
      | none =>
        have := h2 rfl
        simp only at this
        subst this
        simp [splitStep, joined, Alternating]
      | some r =>
        unfold splitStep
        simp only
        split
        · rename_i e
          have e' : r.hidden = f col := by simpa using e
          exact alternating_last out r { r with colTo := col } rfl h4
        · rename_i e
          have e' : r.hidden ≠ f col := by simpa using e
          show Alternating ((out ++ [r]) ++ [⟨col, col, f col⟩])
          rw [List.append_assoc]
          exact alternating_concat out r ⟨col, col, f col⟩ h4 e'
    obtain ⟨i1, i2, i3, i4⟩ := ih (col + 1) (splitStep (f col) col st) s2
      (fun h => absurd h s4) s3 halt
    rw [List.range'_succ]
    simp only [List.foldl_cons]
    refine ⟨?_, i2, i3, fun _ => i4 (Or.inl s4)⟩
    rw [i1, s1]
    simp

/-- **C22.** A cell with a repeat count of at least one is split into pieces that, laid out one
after the other, are exactly its columns, each column flagged as covered exactly if a span covers it;
no piece is empty, there is at least one, and neighbouring pieces differ. -/
theorem C22_exact_partition (ranges : List CellRange) (row col rep : Nat) (h : 1 ≤ rep) :
    expand (splitHidden ranges row col rep)
      = (List.range' col rep).map (fun c => (c, decide (Covered ranges row c)))
    ∧ (∀ p ∈ splitHidden ranges row col rep, p.col ≤ p.colTo)
    ∧ splitHidden ranges row col rep ≠ []
    ∧ Alternating (splitHidden ranges row col rep) := by
  unfold splitHidden
  by_cases e : rep = 1
  · subst e
    rw [if_pos rfl, any_contains_iff]
    refine ⟨by simp [expand, SplitCols.repeat], by simp, by simp, trivial⟩
  · rw [if_neg e]
    simp only [any_filter_iff]
    obtain ⟨f1, f2, f3, f4⟩ := fold_split (fun c => decide (Covered ranges row c)) rep col (none, [])
      (by simp) (by simp) (by simp) trivial
    refine ⟨?_, f2, f4 (Or.inr (by omega)), f3⟩
    exact f1

/-- The ranges dropped while writing do not matter: from the current position on (row-major) exactly
the same positions are covered. -/
theorem C22_pruning (ranges : List CellRange) (row col r c : Nat)
    (h : row < r ∨ (row = r ∧ col ≤ c)) :
    Covered (removeOutlived ranges row col) r c ↔ Covered ranges r c := by
  constructor
  · rintro ⟨v, hv, h1⟩
    exact ⟨v, (List.mem_filter.mp hv).1, h1⟩
  · rintro ⟨v, hv, h1⟩
    refine ⟨v, List.mem_filter.mpr ⟨hv, ?_⟩, h1⟩
    simp only [CellRange.outLooped, Bool.not_eq_true', Bool.or_eq_false_iff, Bool.and_eq_false_iff,
      decide_eq_false_iff_not]
    omega

/-- A repeated cell, partly below a span of the row above. -/
example : splitHidden [⟨none, none, ⟨false, 0⟩, ⟨false, 3⟩, none, ⟨false, 1⟩, ⟨false, 4⟩⟩] 1 2 4
    = [⟨2, 2, false⟩, ⟨3, 4, true⟩, ⟨5, 5, false⟩] := by decide

/-- **C60.** `contains` holds exactly inside the rectangle. -/
theorem C60_contains (r : CellRange) (row col : Nat) :
    r.contains row col = true ↔
      (r.fromRow.row ≤ row ∧ row ≤ r.toRow.row) ∧ (r.fromCol.col ≤ col ∧ col ≤ r.toCol.col) := by
  simp only [CellRange.contains, Bool.and_eq_true, decide_eq_true_eq, and_assoc]

theorem C60_contains_cols (r : ColRange) (col : Nat) :
    r.contains col = true ↔ r.fromCol.col ≤ col ∧ col ≤ r.toCol.col := by
  simp only [ColRange.contains, Bool.and_eq_true, decide_eq_true_eq]

theorem C60_contains_rows (r : RowRange) (row : Nat) :
    r.contains row = true ↔ r.fromRow.row ≤ row ∧ row ≤ r.toRow.row := by
  simp only [RowRange.contains, Bool.and_eq_true, decide_eq_true_eq]

/-- **C60.** For a proper range, `out_looped` holds exactly if no position from the given one on, in
row-major order, lies inside the range. -/
theorem C60_out_looped (r : CellRange) (hr : r.fromRow.row ≤ r.toRow.row)
    (hc : r.fromCol.col ≤ r.toCol.col) (row col : Nat) :
    r.outLooped row col = true ↔
      ∀ row' col', (row < row' ∨ (row = row' ∧ col ≤ col')) → r.contains row' col' = false := by
  simp only [CellRange.outLooped, Bool.or_eq_true, Bool.and_eq_true, decide_eq_true_eq]
  constructor
  · intro h row' col' hle
    rw [← Bool.not_eq_true, C60_contains]
    omega
  · intro h
    have := h r.toRow.row r.toCol.col
    by_cases hb : row < r.toRow.row ∨ (row = r.toRow.row ∧ col ≤ r.toCol.col)
    · have := this hb
      rw [← Bool.not_eq_true, C60_contains] at this
      omega
    · omega

/-- `origin_span` makes a range with exactly `row_span` rows and `col_span` columns, and panics if
one of them is zero. -/
theorem C60_origin_span (row col rs cs : Nat) :
    (CellRange.originSpan row col rs cs = none ↔ rs = 0 ∨ cs = 0)
    ∧ ∀ r, CellRange.originSpan row col rs cs = some r → ∀ row' col',
      (r.contains row' col' = true ↔
        row ≤ row' ∧ row' < row + rs ∧ col ≤ col' ∧ col' < col + cs) := by
  unfold CellRange.originSpan
  by_cases h1 : 0 < rs <;> by_cases h2 : 0 < cs
  · simp only [h1, h2, if_true]
    refine ⟨by simp; omega, ?_⟩
    intro r hr row' col'
    simp only [Option.some.injEq] at hr
    subst hr
    rw [C60_contains]
    simp only
    omega
  all_goals
    simp only [h1, h2, if_true, if_false]
    refine ⟨by simp; omega, by simp⟩

end Verif
