import Verif.Header.Props

/-!
# What the stored headers of rows say

A row that is named again leaves a copy of its header, as it was before the call, behind: src/sheet_.rs:850-866 makes a
header without rows for the row below.  Here: each stored header says what its row says, or what another row said before
its last call.
-/

set_option autoImplicit false

namespace Verif

open OMap

/-- A row before the last call that names it. -/
def rowBefore (r : Nat) (ops : List RowOp) : RowObs :=
  ((ops.filter (fun op => decide (op.row = r))).dropLast).foldl RowObs.after {}

namespace RowHeaders

/-- Style and height are those of a row as it is, or the header has no rows and they are those of the row above before
its last call. -/
structure States (ops : List RowOp) (m : RowHeaders) : Prop where
  sorted : Sorted m
  header : ∀ k x, get? m k = some x →
    ((∃ op ∈ ops, op.row = k) ∧ x.span = 1 ∧ x.style = (rowSpec k ops).style ∧ x.height = (rowSpec k ops).height)
    ∨ (¬ (∃ op ∈ ops, op.row = k) ∧ x.span = 0
        ∧ ∃ r, k = r + 1 ∧ (∃ op ∈ ops, op.row = r) ∧ x.style = (rowBefore r ops).style ∧ x.height = (rowBefore r ops).height)
  live : ∀ op ∈ ops, ∃ x, get? m op.row = some x

theorem spec_other (ops : List RowOp) (op : RowOp) (k : Nat) (h : op.row ≠ k) : rowSpec k (ops ++ [op]) = rowSpec k ops := by
  unfold rowSpec
  rw [List.filter_append]
  simp [h]

theorem before_other (ops : List RowOp) (op : RowOp) (k : Nat) (h : op.row ≠ k) : rowBefore k (ops ++ [op]) = rowBefore k ops := by
  unfold rowBefore
  rw [List.filter_append]
  simp [h]

theorem before_same (ops : List RowOp) (op : RowOp) : rowBefore op.row (ops ++ [op]) = rowSpec op.row ops := by
  unfold rowBefore rowSpec
  rw [List.filter_append]
  simp

theorem spec_same (ops : List RowOp) (op : RowOp) : rowSpec op.row (ops ++ [op]) = (rowSpec op.row ops).after op := by
  unfold rowSpec
  rw [List.filter_append, List.foldl_append]
  simp

theorem spec_fresh (ops : List RowOp) (r : Nat) (h : ¬ ∃ op ∈ ops, op.row = r) : rowSpec r ops = {} := by
  unfold rowSpec
  have : ops.filter (fun op => decide (op.row = r)) = [] := by
    rw [List.filter_eq_nil_iff]
    intro op hop
    simp only [decide_eq_true_eq]
    exact fun e => h ⟨op, hop, e⟩
  rw [this]
  rfl

theorem apply_style (x : RowHeader) (o : RowObs) (op : RowOp) (h1 : x.style = o.style) (h2 : x.height = o.height) :
    (op.apply x).style = (o.after op).style ∧ (op.apply x).height = (o.after op).height := by
  have ht : o.touch.style = o.style ∧ o.touch.height = o.height := by
    unfold RowObs.touch
    split <;> exact ⟨rfl, rfl⟩
  cases op <;> simp only [RowOp.apply, RowObs.after, h1, h2, ht.1, ht.2, and_self]

theorem apply_span1 (x : RowHeader) (op : RowOp) : (op.apply x).span = x.span := by cases op <;> rfl

/-- One call. -/
theorem States.step {ops : List RowOp} {m m' : RowHeaders} (h : States ops m) (op : RowOp)
    (hsafe : (∃ q ∈ ops, q.row = op.row) → ¬ ∃ q ∈ ops, q.row = op.row + 1) (hs : m.step op = some m') :
    States (ops ++ [op]) m' := by
  have hr : op.rejected = false := by
    cases hr : op.rejected with
    | false => rfl
    | true => rw [RowHeaders.step_eq, hr] at hs; cases hs
  have hm : m.modify op.row (fun h => op.apply h) = some m' := by rw [RowHeaders.step_eq, hr] at hs; exact hs
  have hmem : ∀ k, (∃ q ∈ ops ++ [op], q.row = k) ↔ (∃ q ∈ ops, q.row = k) ∨ op.row = k := by
    intro k
    constructor
    · rintro ⟨q, hq, e⟩
      rcases List.mem_append.1 hq with hq | hq
      · exact .inl ⟨q, hq, e⟩
      · rw [List.mem_singleton] at hq; subst hq; exact .inr e
    · rintro (⟨q, hq, e⟩ | e)
      · exact ⟨q, List.mem_append_left _ hq, e⟩
      · exact ⟨op, List.mem_append_right _ List.mem_cons_self, e⟩
  by_cases hn : ∃ q ∈ ops, q.row = op.row
  · obtain ⟨q, hq, hqr⟩ := hn
    obtain ⟨x, hx⟩ := h.live q hq
    rw [hqr] at hx
    have hspan : x.span = 1 ∧ x.style = (rowSpec op.row ops).style ∧ x.height = (rowSpec op.row ops).height := by
      rcases h.header _ x hx with ⟨_, a⟩ | ⟨a, _⟩
      · exact a
      · exact absurd ⟨q, hq, hqr⟩ a
    have hlast : lastLe m op.row = some (op.row, x) :=
      (lastLe_some h.sorted).mpr ⟨hx, Nat.le_refl _, fun j h1 h2 => by omega⟩
    have hsplit : m.split op.row = (insert m op.row { x with span := 1 }).insert (op.row + 1) { x with span := 0 } := by
      unfold RowHeaders.split
      rw [hlast]
      simp only
      rw [if_pos (by omega), if_neg (by omega)]
      congr 2
      omega
    unfold RowHeaders.modify at hm
    rw [hsplit] at hm
    simp only [get?_insert] at hm
    rw [if_neg (by omega)] at hm
    simp only [↓reduceIte, Option.some.injEq] at hm
    subst hm
    have hnext := hsafe ⟨q, hq, hqr⟩
    refine ⟨((h.sorted.insert _ _).insert _ _).insert _ _, ?_, ?_⟩
    · intro k y hy
      simp only [get?_insert] at hy
      by_cases e : k = op.row
      · rw [if_pos e] at hy
        injection hy with hy
        subst hy e
        refine .inl ⟨(hmem _).mpr (.inr rfl), by rw [apply_span1], ?_⟩
        rw [spec_same]
        exact apply_style _ _ op hspan.2.1 hspan.2.2
      · rw [if_neg e] at hy
        by_cases e1 : k = op.row + 1
        · rw [if_pos e1] at hy
          injection hy with hy
          subst hy e1
          refine .inr ⟨fun hh => ?_, rfl, op.row, rfl, (hmem _).mpr (.inr rfl), ?_⟩
          · rcases (hmem _).mp hh with hh | hh
            · exact hnext hh
            · omega
          · rw [before_same]; exact hspan.2
        · rw [if_neg e1, if_neg e] at hy
          rcases h.header k y hy with ⟨a, b⟩ | ⟨a, b, r, c, n, d⟩
          · exact .inl ⟨(hmem _).mpr (.inl a), by rw [spec_other _ _ _ (Ne.symm e)]; exact b⟩
          · refine .inr ⟨fun hh => ?_, b, r, c, (hmem _).mpr (.inl n), ?_⟩
            · rcases (hmem _).mp hh with hh | hh
              · exact a hh
              · exact e hh.symm
            · rw [before_other _ _ _ (by omega)]; exact d
    · intro p hp
      simp only [get?_insert]
      split
      · exact ⟨_, rfl⟩
      · split
        · exact ⟨_, rfl⟩
        · rename_i e _
          rcases List.mem_append.1 hp with hp | hp
          · exact h.live p hp
          · rw [List.mem_singleton] at hp; subst hp; exact absurd rfl e
  · have hsplit : m.split op.row = insert m op.row {} := by
      unfold RowHeaders.split
      cases hl : lastLe m op.row with
      | none => rfl
      | some p =>
        obtain ⟨b, x⟩ := p
        obtain ⟨a1, a2, _⟩ := (lastLe_some h.sorted).mp hl
        simp only
        rw [if_neg]
        rcases h.header b x a1 with ⟨c, d, _⟩ | ⟨_, d, _⟩
        · by_cases e : b = op.row
          · subst e; exact absurd c hn
          · omega
        · omega
    unfold RowHeaders.modify at hm
    rw [hsplit] at hm
    simp only [get?_insert, ↓reduceIte, Option.some.injEq] at hm
    subst hm
    refine ⟨(h.sorted.insert _ _).insert _ _, ?_, ?_⟩
    · intro k y hy
      simp only [get?_insert] at hy
      by_cases e : k = op.row
      · rw [if_pos e] at hy
        injection hy with hy
        subst hy e
        refine .inl ⟨(hmem _).mpr (.inr rfl), by rw [apply_span1], ?_⟩
        rw [spec_same, spec_fresh ops _ hn]
        exact apply_style _ _ op rfl rfl
      · rw [if_neg e, if_neg e] at hy
        rcases h.header k y hy with ⟨a, b⟩ | ⟨a, b, r, c, n, d⟩
        · exact .inl ⟨(hmem _).mpr (.inl a), by rw [spec_other _ _ _ (Ne.symm e)]; exact b⟩
        · refine .inr ⟨fun hh => ?_, b, r, c, (hmem _).mpr (.inl n), ?_⟩
          · rcases (hmem _).mp hh with hh | hh
            · exact a hh
            · exact e hh.symm
          · by_cases er : op.row = r
            · subst er; exact absurd n hn
            · rw [before_other _ _ _ er]; exact d
    · intro p hp
      simp only [get?_insert]
      split
      · exact ⟨_, rfl⟩
      · rename_i e
        rcases List.mem_append.1 hp with hp | hp
        · exact h.live p hp
        · rw [List.mem_singleton] at hp; subst hp; exact absurd rfl e

theorem States.run : ∀ (rest ops : List RowOp) (named : List Nat) (m m' : RowHeaders), States ops m →
    (∀ k, k ∈ named ↔ ∃ q ∈ ops, q.row = k) → rowsSafe named rest → m.run rest = some m' → States (ops ++ rest) m' := by
  intro rest
  induction rest with
  | nil =>
    intro ops named m m' h _ _ hr
    rw [List.append_nil]
    cases hr
    exact h
  | cons op rest ih =>
    intro ops named m m' h hn hs hr
    unfold RowHeaders.run at hr
    obtain ⟨m1, h1, h2⟩ : ∃ m1, m.step op = some m1 ∧ m1.run rest = some m' := by
      cases hst : m.step op with
      | none => rw [hst] at hr; cases hr
      | some m1 => rw [hst] at hr; exact ⟨m1, rfl, hr⟩
    have h3 := h.step op (fun a b => hs.1 ((hn _).mpr a) ((hn _).mpr b)) h1
    have := ih (ops ++ [op]) (op.row :: named) m1 m' h3 ?_ hs.2 h2
    · rw [List.append_assoc] at this
      exact this
    · intro k
      rw [List.mem_cons, hn]
      constructor
      · rintro (e | ⟨q, hq, e⟩)
        · exact ⟨op, List.mem_append_right _ List.mem_cons_self, e.symm⟩
        · exact ⟨q, List.mem_append_left _ hq, e⟩
      · rintro ⟨q, hq, e⟩
        rcases List.mem_append.1 hq with hq | hq
        · exact .inr ⟨q, hq, e⟩
        · rw [List.mem_singleton] at hq; subst hq; exact .inl e.symm

theorem states_of (ops : List RowOp) (m : RowHeaders) (hs : rowsSafe [] ops) (hr : RowHeaders.run [] ops = some m) :
    States ops m := by
  have := States.run ops [] [] [] m ⟨sorted_nil, by simp [get?], by simp⟩ (by simp) hs hr
  simpa using this

end RowHeaders

end Verif
