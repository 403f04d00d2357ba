import Verif.Header.Spec

set_option autoImplicit false

namespace Verif

open OMap

/-! ### `lastLe` -/

namespace OMap

theorem lastLe_cons {V : Type} (p : Nat × V) (m : OMap Nat V) (k : Nat) :
    lastLe (p :: m) k = match lastLe m k with
      | some q => some q
      | none => if p.1 ≤ k then some p else none := by
  unfold lastLe
  rw [List.filter_cons]
  by_cases h : p.1 ≤ k
  · simp only [h, decide_true, if_true]
    rw [List.getLast?_cons]
    cases (m.filter (fun p => decide (p.1 ≤ k))).getLast? <;> rfl
  · simp only [h, decide_false, Bool.false_eq_true, if_false]
    cases (m.filter (fun p => decide (p.1 ≤ k))).getLast? <;> rfl

theorem lastLe_append {V : Type} (a b : OMap Nat V) (k : Nat) :
    lastLe (a ++ b) k = match lastLe b k with
      | some q => some q
      | none => lastLe a k := by
  unfold lastLe
  rw [List.filter_append, List.getLast?_append]
  cases (b.filter (fun p => decide (p.1 ≤ k))).getLast? <;> simp

theorem lastLe_eq_none {V : Type} {m : OMap Nat V} {k : Nat} :
    lastLe m k = none ↔ ∀ p ∈ m, k < p.1 := by
  unfold lastLe
  rw [List.getLast?_eq_none_iff, List.filter_eq_nil_iff]
  simp

theorem lastLe_none_get? {V : Type} {m : OMap Nat V} {k : Nat} :
    lastLe m k = none ↔ ∀ j, j ≤ k → get? m j = none := by
  rw [lastLe_eq_none]
  constructor
  · intro h j hj
    apply get?_eq_none_of_not_mem
    intro p hp e
    have := h p hp
    omega
  · intro h p hp
    have h1 := get?_isSome_of_mem hp
    have h2 := h p.1
    by_cases hk : p.1 ≤ k
    · rw [h2 hk] at h1; simp at h1
    · omega

theorem lastLe_some {V : Type} {m : OMap Nat V} (hm : Sorted m) {k b : Nat} {v : V} :
    lastLe m k = some (b, v)
      ↔ get? m b = some v ∧ b ≤ k ∧ ∀ j, b < j → j ≤ k → get? m j = none := by
  induction m with
  | nil => simp [lastLe]
  | cons p m ih =>
    have hlt : ∀ q ∈ m, p.1 < q.1 := fun q hq => by simpa using hm.head_lt q hq
    rw [lastLe_cons]
    cases hl : lastLe m k with
    | some q =>
      obtain ⟨b', v'⟩ := q
      have hb' := (ih hm.tail).mp
      simp only [Option.some.injEq, Prod.mk.injEq]
      constructor
      · rintro ⟨rfl, rfl⟩
        have := (ih hm.tail).mp hl
        obtain ⟨h1, h2, h3⟩ := this
        have hpb := hlt _ (mem_of_get?_eq_some h1)
        simp only at hpb
        refine ⟨by rw [get?_cons, if_neg (by omega)]; exact h1, h2, ?_⟩
        intro j hj1 hj2
        rw [get?_cons, if_neg (by omega)]
        exact h3 j hj1 hj2
      · rintro ⟨h1, h2, h3⟩
        have hmem : (b', v') ∈ m := by
          unfold lastLe at hl
          have := List.mem_of_getLast? hl
          exact (List.mem_filter.mp this).1
        have hle : b' ≤ k := by
          unfold lastLe at hl
          have := List.mem_of_getLast? hl
          simpa using (List.mem_filter.mp this).2
        have hpb := hlt _ hmem
        have hsome := get?_isSome_of_mem hmem
        simp only at hpb hsome
        rw [get?_cons] at h1
        split at h1
        · exfalso
          have := h3 b' (by omega) hle
          rw [get?_cons, if_neg (by omega)] at this
          rw [this] at hsome; simp at hsome
        · have : some (b', v') = some (b, v) := by
            rw [← hl]
            apply (ih hm.tail).mpr
            refine ⟨h1, h2, ?_⟩
            intro j hj1 hj2
            have := h3 j hj1 hj2
            rw [get?_cons] at this
            split at this
            · simp at this
            · exact this
          simpa using this
    | none =>
      have hn := lastLe_none_get?.mp hl
      constructor
      · intro h
        simp only at h
        split at h
        · rename_i hpk
          simp only [Option.some.injEq] at h
          subst h
          refine ⟨by rw [get?_cons]; simp, hpk, ?_⟩
          intro j hj1 hj2
          rw [get?_cons, if_neg (by omega)]
          exact hn j hj2
        · simp at h
      · rintro ⟨h1, h2, h3⟩
        rw [get?_cons] at h1
        split at h1
        · rename_i e
          simp only [Option.some.injEq] at h1
          simp only
          rw [if_pos (by omega), e, ← h1]
        · rw [hn b h2] at h1; simp at h1

/-- Appending behind the last key. -/
theorem insert_last {V : Type} {m : OMap Nat V} {k : Nat} {v : V} (h : ∀ p ∈ m, p.1 < k) :
    insert m k v = m ++ [(k, v)] := by
  induction m with
  | nil => rfl
  | cons p m ih =>
    obtain ⟨p1, p2⟩ := p
    have h1 : p1 < k := h (p1, p2) (by simp)
    unfold insert
    rw [if_neg (by omega), if_neg (by simp; omega), ih (fun q hq => h q (by simp [hq]))]
    rfl

end OMap

/-! ### Columns: lookup -/

namespace ColHeaders

/-- What `valid` looks up, in terms of `get?`. -/
theorem valid_some {m : ColHeaders} (hm : Sorted m) {col : Nat} {h : ColHeader} :
    m.valid col = some h ↔ ∃ b, get? m b = some h ∧ b ≤ col ∧ col < b + h.span
      ∧ ∀ j, b < j → j ≤ col → get? m j = none := by
  unfold valid
  cases hl : lastLe m col with
  | none =>
    have := lastLe_none_get?.mp hl
    simp only [reduceCtorEq, false_iff, not_exists]
    rintro b ⟨h1, h2, h3, h4⟩
    rw [this b h2] at h1; simp at h1
  | some q =>
    obtain ⟨b, v⟩ := q
    have hb := (lastLe_some hm).mp hl
    simp only [Option.ite_none_right_eq_some, Option.some.injEq]
    constructor
    · rintro ⟨⟨h1, h2⟩, rfl⟩
      exact ⟨b, hb.1, h1, h2, hb.2.2⟩
    · rintro ⟨b', h1, h2, h3, h4⟩
      have := (lastLe_some hm).mpr ⟨h1, h2, h4⟩
      rw [hl] at this
      simp only [Option.some.injEq, Prod.mk.injEq] at this
      obtain ⟨rfl, rfl⟩ := this
      exact ⟨⟨h2, h3⟩, rfl⟩

theorem observe_of_some {m : ColHeaders} {col : Nat} {h : ColHeader} (e : m.valid col = some h) :
    m.observe col = ⟨h.style, h.cellstyle, h.visible, h.width⟩ := by
  simp [observe, colstyle, colCellstyle, colVisible, colWidth, e]

theorem observe_of_none {m : ColHeaders} {col : Nat} (e : m.valid col = none) :
    m.observe col = {} := by
  simp [observe, colstyle, colCellstyle, colVisible, colWidth, e]

/-- Attributes of a header. -/
def _root_.Verif.ColHeader.obs (h : ColHeader) : ColObs := ⟨h.style, h.cellstyle, h.visible, h.width⟩

theorem observe_eq (m : ColHeaders) (col : Nat) :
    m.observe col = ((m.valid col).map ColHeader.obs).getD {} := by
  cases e : m.valid col with
  | none => rw [observe_of_none e]; rfl
  | some h => rw [observe_of_some e]; rfl

theorem _root_.Verif.ColHeader.limitedEq_iff (a b : ColHeader) :
    a.limitedEq b = true ↔ a.obs = b.obs := by
  simp only [ColHeader.limitedEq, ColHeader.obs, ColObs.mk.injEq, Bool.and_eq_true,
    decide_eq_true_eq, and_assoc]

/-- The effect of a call on a stored header. -/
def _root_.Verif.ColOp.apply (h : ColHeader) : ColOp → ColHeader
  | .setStyle _ s => { h with style := some s }
  | .clearStyle _ => { h with style := none }
  | .setCellstyle _ s => { h with cellstyle := some s }
  | .clearCellstyle _ => { h with cellstyle := none }
  | .setVisible _ v => { h with visible := v }
  | .setWidth _ w => { h with width := w }

theorem step_eq (m : ColHeaders) (op : ColOp) : m.step op = m.modify op.col (fun h => op.apply h) := by
  cases op <;> rfl

theorem apply_obs (h : ColHeader) (op : ColOp) : (op.apply h).obs = h.obs.after op := by
  cases op <;> rfl

@[simp] theorem apply_span (h : ColHeader) (op : ColOp) : (op.apply h).span = h.span := by
  cases op <;> rfl

theorem WF.sorted {m : ColHeaders} (h : m.WF) : Sorted m := h.1

theorem WF.disj {m : ColHeaders} (h : m.WF) {b b' : Nat} {x x' : ColHeader}
    (hb : get? m b = some x) (hb' : get? m b' = some x') (hlt : b < b') : b + x.span ≤ b' := by
  have h1 := (get?_eq_some_iff h.1).mp hb
  have h2 := (get?_eq_some_iff h.1).mp hb'
  obtain ⟨hs, hp, hd⟩ := h
  clear hb hb' hp
  induction m with
  | nil => simp at h1
  | cons p m ih =>
    rcases List.mem_cons.mp h1 with e1 | e1 <;> rcases List.mem_cons.mp h2 with e2 | e2
    · have := e1.trans e2.symm; simp only [Prod.mk.injEq] at this; omega
    · have := (List.pairwise_cons.mp hd).1 _ e2
      rw [← e1] at this; exact this
    · have := hs.head_lt _ e1
      rw [← e2] at this; simp at this; omega
    · exact ih e1 e2 hs.tail (List.pairwise_cons.mp hd).2

theorem WF.pos {m : ColHeaders} (h : m.WF) {b : Nat} {x : ColHeader} (hb : get? m b = some x) :
    1 ≤ x.span := h.2.1 _ (mem_of_get?_eq_some hb)

theorem WF.valid_some {m : ColHeaders} (h : m.WF) {col : Nat} {x : ColHeader} :
    m.valid col = some x ↔ ∃ b, get? m b = some x ∧ b ≤ col ∧ col < b + x.span := by
  rw [ColHeaders.valid_some h.sorted]
  constructor
  · rintro ⟨b, h1, h2, h3, _⟩; exact ⟨b, h1, h2, h3⟩
  · rintro ⟨b, h1, h2, h3⟩
    refine ⟨b, h1, h2, h3, ?_⟩
    intro j hj1 hj2
    cases hg : get? m j with
    | none => rfl
    | some y => have := h.disj h1 hg hj1; omega

theorem find_none {m : ColHeaders} {col : Nat} (hm : Sorted m)
    (h : m.find? (fun p => decide (p.1 ≤ col ∧ col < p.1 + p.2.span)) = none) :
    m.valid col = none := by
  cases hv : m.valid col with
  | none => rfl
  | some x =>
    obtain ⟨b, h1, h2, h3, _⟩ := (ColHeaders.valid_some hm).mp hv
    have := List.find?_eq_none.mp h _ (mem_of_get?_eq_some h1)
    simp at this; omega

/-- What the split map contains, if no stored header covers the column. -/
theorem split_uncovered {m : ColHeaders} (hm : m.WF) {col : Nat} (h : m.valid col = none) :
    m.split col = m.insert col {} ∧ get? m col = none := by
  have hg : get? m col = none := by
    cases hg : get? m col with
    | none => rfl
    | some x =>
      have := hm.valid_some.mpr ⟨col, hg, Nat.le_refl _, by have := hm.pos hg; omega⟩
      rw [h] at this; simp at this
  refine ⟨?_, hg⟩
  unfold split
  rw [hg]
  simp only [Option.filter_none, Option.isSome_none, Bool.false_eq_true, if_false]
  cases hf : m.find? (fun p => decide (p.1 ≤ col ∧ col < p.1 + p.2.span)) with
  | none => rfl
  | some q =>
    exfalso
    obtain ⟨b, x⟩ := q
    have h1 := List.find?_some hf
    have h2 := List.mem_of_find?_eq_some hf
    simp only [decide_eq_true_eq] at h1
    have := hm.valid_some.mpr ⟨b, (get?_eq_some_iff hm.sorted).mpr h2, h1.1, h1.2⟩
    rw [h] at this; simp at this

/-- What the split map contains, if the header `(b, x)` covers the column. -/
theorem split_covered {m : ColHeaders} (hm : m.WF) {col b : Nat} {x : ColHeader}
    (hb : get? m b = some x) (h1 : b ≤ col) (h2 : col < b + x.span) :
    Sorted (m.split col) ∧
    ∀ k, get? (m.split col) k =
      if k = col + 1 ∧ col + 1 < b + x.span then some { x with span := b + x.span - (col + 1) }
      else if k = col then some x
      else if k = b then some { x with span := col - b }
      else get? m k := by
  unfold split
  split
  · rename_i hs
    cases hg : get? m col with
    | none => rw [hg] at hs; simp at hs
    | some y =>
      rw [hg] at hs
      have hsp : y.span = 1 := by simpa [Option.filter] using hs
      have hbc : b = col := by
        rcases Nat.lt_or_ge b col with hlt | hge
        · have := hm.disj hb hg hlt; omega
        · omega
      subst hbc
      rw [hb] at hg
      simp only [Option.some.injEq] at hg
      subst hg
      refine ⟨hm.sorted, fun k => ?_⟩
      rw [if_neg (by omega)]
      split
      · rename_i e; rw [e, hb]
      · rfl
  · have hf : m.find? (fun p => decide (p.1 ≤ col ∧ col < p.1 + p.2.span)) = some (b, x) := by
      cases hf : m.find? (fun p => decide (p.1 ≤ col ∧ col < p.1 + p.2.span)) with
      | none =>
        have := List.find?_eq_none.mp hf _ (mem_of_get?_eq_some hb)
        simp at this; omega
      | some q =>
        obtain ⟨b', x'⟩ := q
        have e1 := List.find?_some hf
        have e2 := (get?_eq_some_iff hm.sorted).mpr (List.mem_of_find?_eq_some hf)
        simp only [decide_eq_true_eq] at e1
        have hbb : b' = b := by
          rcases Nat.lt_trichotomy b b' with hlt | he | hlt
          · have := hm.disj hb e2 hlt; omega
          · exact he.symm
          · have := hm.disj e2 hb hlt; omega
        subst hbb
        rw [hb] at e2
        simp only [Option.some.injEq] at e2
        rw [e2]
    rw [hf]
    simp only
    have hse := hm.sorted.erase b
    refine ⟨?_, fun k => ?_⟩
    · split <;> split <;> first
        | exact ((hse.insert _ _).insert _ _).insert _ _
        | exact (hse.insert _ _).insert _ _
        | exact hse.insert _ _
    · by_cases c1 : 0 < col - b <;> by_cases c2 : 0 < b + x.span - (col + 1) <;>
        simp only [c1, c2, if_true, if_false, get?_insert, get?_erase hm.sorted]
      · by_cases k1 : k = col + 1
        · rw [if_pos k1, if_pos ⟨k1, by omega⟩]
        · rw [if_neg k1, if_neg (fun h => k1 h.1 : ¬ (k = col + 1 ∧ col + 1 < b + x.span))]
          by_cases k2 : k = col
          · rw [if_pos k2, if_pos k2]
          · rw [if_neg k2, if_neg k2]
            by_cases k3 : k = b
            · rw [if_pos k3, if_pos k3]
            · rw [if_neg k3, if_neg k3]; simp [k3]
      · rw [if_neg (by omega : ¬ (k = col + 1 ∧ col + 1 < b + x.span))]
        by_cases k2 : k = col
        · rw [if_pos k2, if_pos k2]
        · rw [if_neg k2, if_neg k2]
          by_cases k3 : k = b
          · rw [if_pos k3, if_pos k3]
          · rw [if_neg k3, if_neg k3]; simp [k3]
      · by_cases k1 : k = col + 1
        · rw [if_pos k1, if_pos ⟨k1, by omega⟩]
        · rw [if_neg k1, if_neg (fun h => k1 h.1 : ¬ (k = col + 1 ∧ col + 1 < b + x.span))]
          by_cases k2 : k = col
          · rw [if_pos k2, if_pos k2]
          · rw [if_neg k2, if_neg k2]
            rw [if_neg (by omega : ¬ k = b), if_neg (by omega : ¬ k = b)]
      · rw [if_neg (by omega : ¬ (k = col + 1 ∧ col + 1 < b + x.span))]
        by_cases k2 : k = col
        · rw [if_pos k2, if_pos k2]
        · rw [if_neg k2, if_neg k2]
          rw [if_neg (by omega : ¬ k = b), if_neg (by omega : ¬ k = b)]

/-- A setter never panics, and its effect on the stored headers. -/
theorem modify_uncovered {m : ColHeaders} (hm : m.WF) {col : Nat} (h : m.valid col = none)
    (f : ColHeader → ColHeader) : m.modify col f = some ((m.insert col {}).insert col (f {})) := by
  unfold modify
  simp only [(split_uncovered hm h).1, get?_insert, if_true]

theorem modify_covered {m : ColHeaders} (hm : m.WF) {col b : Nat} {x : ColHeader}
    (hb : get? m b = some x) (h1 : b ≤ col) (h2 : col < b + x.span) (f : ColHeader → ColHeader) :
    ∃ m', m.modify col f = some m' ∧ Sorted m' ∧
    ∀ k, get? m' k =
      if k = col then some (f x)
      else if k = col + 1 ∧ col + 1 < b + x.span then some { x with span := b + x.span - (col + 1) }
      else if k = b then some { x with span := col - b }
      else get? m k := by
  obtain ⟨hs, hg⟩ := split_covered hm hb h1 h2
  have hc : get? (m.split col) col = some x := by
    rw [hg]; rw [if_neg (by omega), if_pos rfl]
  refine ⟨(m.split col).insert col (f x), ?_, hs.insert _ _, fun k => ?_⟩
  · unfold modify; simp only [hc]
  · rw [get?_insert, hg]
    by_cases k1 : k = col
    · rw [if_pos k1, if_pos k1]
    · simp only [k1, if_false]

/-- One setter call on a sheet whose column spans do not overlap. -/
theorem step_obs {m : ColHeaders} (hm : m.WF) (op : ColOp) :
    ∃ m', m.step op = some m' ∧ m'.observe op.col = (m.observe op.col).after op
    ∧ ((∀ b x, get? m b = some x → b ≤ op.col → op.col < b + x.span →
          x.span = 1 ∨ op.col + 1 < b + x.span) →
        ∀ j, j ≠ op.col → m'.observe j = m.observe j) := by
  rw [step_eq]
  cases hv : m.valid op.col with
  | none =>
    have hg := (split_uncovered hm hv).2
    refine ⟨_, modify_uncovered hm hv _, ?_, ?_⟩
    · rw [observe_of_none hv, observe_eq]
      have : valid ((m.insert op.col {}).insert op.col (op.apply {})) op.col
          = some (op.apply {}) := by
        rw [valid_some ((hm.sorted.insert _ _).insert _ _)]
        refine ⟨op.col, by rw [get?_insert, if_pos rfl], Nat.le_refl _, by simp, ?_⟩
        intro j h1 h2; omega
      rw [this]
      simp only [Option.map_some, Option.getD_some, apply_obs]
      rfl
    · intro _ j hj
      have key : ∀ y, valid ((m.insert op.col {}).insert op.col (op.apply {})) j = some y
          ↔ m.valid j = some y := by
        intro y
        rw [valid_some ((hm.sorted.insert _ _).insert _ _), hm.valid_some]
        constructor
        · rintro ⟨b, h1, h2, h3, h4⟩
          rw [get?_insert] at h1
          split at h1
          · rename_i e
            simp only [Option.some.injEq] at h1
            subst h1; subst e
            simp at h3; omega
          · rw [get?_insert, if_neg (by assumption)] at h1
            exact ⟨b, h1, h2, h3⟩
        · rintro ⟨b, h1, h2, h3⟩
          have hbc : b ≠ op.col := by intro e; rw [e, hg] at h1; simp at h1
          refine ⟨b, by rw [get?_insert, if_neg hbc, get?_insert, if_neg hbc]; exact h1, h2, h3, ?_⟩
          intro i hi1 hi2
          rw [get?_insert, get?_insert]
          have : i ≠ op.col := by
            intro e
            have := hm.valid_some.mpr (⟨b, h1, by omega, by omega⟩ :
              ∃ b, get? m b = some y ∧ b ≤ op.col ∧ op.col < b + y.span)
            rw [hv] at this; simp at this
          rw [if_neg this, if_neg this]
          cases hgi : get? m i with
          | none => rfl
          | some z => have := hm.disj h1 hgi hi1; omega
      rw [observe_eq, observe_eq]
      congr 2
      cases h1 : m.valid j with
      | some y => exact (key y).mpr h1
      | none =>
        cases h2 : valid ((m.insert op.col {}).insert op.col (op.apply {})) j with
        | none => rfl
        | some y => rw [(key y).mp h2] at h1; simp at h1
  | some x =>
    obtain ⟨b, hb, h1, h2⟩ := hm.valid_some.mp hv
    obtain ⟨m', hm', hs', hg'⟩ := modify_covered hm hb h1 h2 (fun h => op.apply h)
    refine ⟨m', hm', ?_, ?_⟩
    · have : m'.valid op.col = some (op.apply x) := by
        rw [valid_some hs']
        refine ⟨op.col, by rw [hg', if_pos rfl], Nat.le_refl _, ?_, fun j _ _ => by omega⟩
        have := hm.pos hb
        simp; omega
      rw [observe_eq, observe_eq, this, hv]
      simp only [Option.map_some, Option.getD_some, apply_obs]
    · intro hlast j hj
      have hcond := hlast b x hb h1 h2
      have hx := hm.pos hb
      rw [observe_eq, observe_eq]
      congr 1
      cases hvj : m.valid j with
      | some y =>
        obtain ⟨b0, g0, l0, u0⟩ := hm.valid_some.mp hvj
        have hmax : ∀ i, b0 < i → i ≤ j → get? m i = none := by
          intro i i1 i2
          cases hgi : get? m i with
          | none => rfl
          | some z => have := hm.disj g0 hgi i1; omega
        rcases Nat.lt_trichotomy b0 b with hlt | he | hgt
        · have hd := hm.disj g0 hb hlt
          have : m'.valid j = some y := by
            rw [valid_some hs']
            refine ⟨b0, ?_, l0, u0, ?_⟩
            · rw [hg', if_neg (by omega), if_neg (by omega), if_neg (by omega)]; exact g0
            · intro i i1 i2
              rw [hg', if_neg (by omega), if_neg (by omega), if_neg (by omega)]
              exact hmax i i1 i2
          rw [this]
        · subst he
          rw [hb] at g0
          simp only [Option.some.injEq] at g0
          subst g0
          rcases Nat.lt_or_ge j op.col with hjl | hjg
          · have : m'.valid j = some { x with span := op.col - b0 } := by
              rw [valid_some hs']
              refine ⟨b0, ?_, l0, by simp only; omega, ?_⟩
              · rw [hg', if_neg (by omega), if_neg (by omega), if_pos rfl]
              · intro i i1 i2
                rw [hg', if_neg (by omega), if_neg (by omega), if_neg (by omega)]
                exact hmax i i1 i2
            rw [this]; rfl
          · have : m'.valid j = some { x with span := b0 + x.span - (op.col + 1) } := by
              rw [valid_some hs']
              refine ⟨op.col + 1, ?_, by omega, by simp only; omega, ?_⟩
              · rw [hg', if_neg (by omega), if_pos ⟨rfl, by omega⟩]
              · intro i i1 i2
                rw [hg', if_neg (by omega), if_neg (by omega), if_neg (by omega)]
                exact hmax i (by omega) i2
            rw [this]; rfl
        · have hd := hm.disj hb g0 hgt
          have : m'.valid j = some y := by
            rw [valid_some hs']
            refine ⟨b0, ?_, l0, u0, ?_⟩
            · rw [hg', if_neg (by omega), if_neg (by omega), if_neg (by omega)]; exact g0
            · intro i i1 i2
              rw [hg', if_neg (by omega), if_neg (by omega), if_neg (by omega)]
              exact hmax i i1 i2
          rw [this]
      | none =>
        have hno : ∀ b0 y, get? m b0 = some y → b0 ≤ j → ¬ j < b0 + y.span := by
          intro b0 y g0 l0 u0
          have := hm.valid_some.mpr ⟨b0, g0, l0, u0⟩
          rw [hvj] at this; simp at this
        have hnb := hno b x hb
        cases hvj' : m'.valid j with
        | none => rfl
        | some y =>
          exfalso
          obtain ⟨b1, g1, l1, u1, mx1⟩ := (valid_some hs').mp hvj'
          rw [hg'] at g1
          split at g1
          · rename_i e
            simp only [Option.some.injEq] at g1
            subst g1
            simp only [apply_span] at u1
            rcases hcond with hone | hright
            · omega
            · have := mx1 (op.col + 1) (by omega) (by omega)
              rw [hg', if_neg (by omega), if_pos ⟨rfl, hright⟩] at this
              simp at this
          · split at g1
            · rename_i e
              simp only [Option.some.injEq] at g1
              subst g1
              simp only at u1
              omega
            · split at g1
              · rename_i e
                simp only [Option.some.injEq] at g1
                subst g1
                simp only at u1
                omega
              · exact hno b1 y g1 l1 u1

/-- All stored spans are 1: the headers a sheet has that was built by setter calls. -/
def Ones (m : ColHeaders) : Prop := Sorted m ∧ ∀ p ∈ m, p.2.span = 1

theorem Ones.wf {m : ColHeaders} (h : m.Ones) : m.WF := by
  refine ⟨h.1, fun p hp => by rw [h.2 p hp]; exact Nat.le_refl _, ?_⟩
  have := h.1
  obtain ⟨_, h2⟩ := h
  induction m with
  | nil => exact List.Pairwise.nil
  | cons p m ih =>
    refine List.pairwise_cons.mpr ⟨?_, ih this.tail this.tail (fun q hq => h2 q (by simp [hq]))⟩
    intro q hq
    have := this.head_lt q hq
    rw [h2 p (by simp)]
    simp at this
    omega

theorem Ones.step {m m' : ColHeaders} (h : m.Ones) {op : ColOp} (hs : m.step op = some m') :
    m'.Ones := by
  rw [step_eq] at hs
  have hspan : ∀ y : ColHeader, y.span = 1 → (op.apply y).span = 1 := by intro y; simp
  cases hv : m.valid op.col with
  | none =>
    rw [modify_uncovered h.wf hv] at hs
    simp only [Option.some.injEq] at hs
    subst hs
    refine ⟨(h.1.insert _ _).insert _ _, ?_⟩
    intro p hp
    rcases mem_insert hp with e | hp
    · rw [e]; simp
    · rcases mem_insert hp with e | hp
      · rw [e]
      · exact h.2 p hp
  | some x =>
    obtain ⟨b, hb, h1, h2⟩ := h.wf.valid_some.mp hv
    have hx : x.span = 1 := h.2 _ (mem_of_get?_eq_some hb)
    obtain ⟨m'', hm', hs', hg'⟩ := modify_covered h.wf hb h1 h2 (fun h => op.apply h)
    rw [hm'] at hs
    simp only [Option.some.injEq] at hs
    subst hs
    refine ⟨hs', ?_⟩
    intro p hp
    have hp' := (get?_eq_some_iff hs').mpr hp
    rw [hg'] at hp'
    split at hp'
    · simp only [Option.some.injEq] at hp'
      rw [← hp']; simp [hx]
    · rw [if_neg (by omega), if_neg (by omega)] at hp'
      exact h.2 _ (mem_of_get?_eq_some hp')

theorem Ones.run {m : ColHeaders} (h : m.Ones) (ops : List ColOp) :
    ∃ m', m.run ops = some m' ∧ m'.Ones ∧ ∀ c, m'.observe c = colSpec (m.observe c) c ops := by
  induction ops generalizing m with
  | nil => exact ⟨m, rfl, h, fun _ => rfl⟩
  | cons op ops ih =>
    obtain ⟨m1, h1, ho, hother⟩ := step_obs h.wf op
    have hones := h.step h1
    obtain ⟨m2, h2, hones2, hobs⟩ := ih hones
    refine ⟨m2, by simp only [ColHeaders.run, h1]; exact h2, hones2, ?_⟩
    intro c
    rw [hobs]
    by_cases e : op.col = c
    · subst e
      simp only [colSpec, List.filter_cons, decide_true, if_true, List.foldl_cons, ho]
    · have := hother (fun b x hb _ _ => Or.inl (h.2 _ (mem_of_get?_eq_some hb))) c (fun h => e h.symm)
      simp only [colSpec, List.filter_cons, e, decide_false, Bool.false_eq_true, if_false, this]

/-! ### Merging equal columns -/

/-- `dedupLoop` without the accumulator. -/
def dedupL (cur : Nat × ColHeader) : List (Nat × ColHeader) → List (Nat × ColHeader)
  | [] => [cur]
  | p :: rest =>
    if cur.2.limitedEq p.2 then
      dedupL (cur.1, { cur.2 with span := cur.2.span + p.2.span }) rest
    else cur :: dedupL p rest

theorem dedupLoop_eq (cur : Nat × ColHeader) (rest : List (Nat × ColHeader)) (acc : ColHeaders)
    (hs : Sorted (acc ++ cur :: rest)) : dedupLoop cur rest acc = acc ++ dedupL cur rest := by
  induction rest generalizing cur acc with
  | nil =>
    unfold dedupLoop dedupL
    apply insert_last
    intro p hp
    have := (List.pairwise_append.mp hs).2.2 p hp cur (by simp)
    simpa using this
  | cons p rest ih =>
    unfold dedupLoop dedupL
    split
    · apply ih
      have hsub : Sorted (acc ++ (cur :: rest)) :=
        hs.sublist (List.Sublist.append_left (List.Sublist.cons_cons _ (List.sublist_cons_self _ _)) _)
      obtain ⟨a, b, c⟩ := List.pairwise_append.mp hsub
      refine List.pairwise_append.mpr ⟨a, ?_, ?_⟩
      · obtain ⟨b1, b2⟩ := List.pairwise_cons.mp b
        exact List.pairwise_cons.mpr ⟨fun q hq => b1 q hq, b2⟩
      · intro x hx y hy
        rcases List.mem_cons.mp hy with e | e
        · rw [e]; exact c x hx cur (by simp)
        · exact c x hx y (by simp [e])
    · have hins : acc.insert cur.1 cur.2 = acc ++ [cur] := by
        apply insert_last
        intro q hq
        have := (List.pairwise_append.mp hs).2.2 q hq cur (by simp)
        simpa using this
      rw [hins, ih]
      · simp
      · simpa using hs

theorem dedup_cons (p : Nat × ColHeader) (rest : List (Nat × ColHeader)) (hs : Sorted (p :: rest)) :
    dedup (p :: rest) = dedupL p rest := by
  have := dedupLoop_eq p rest [] (by simpa using hs)
  simpa [dedup] using this

theorem lastLe_dedupL (cur : Nat × ColHeader) (rest : List (Nat × ColHeader)) (j : Nat)
    (hs : Sorted (cur :: rest)) :
    lastLe (dedupL cur rest) j = none ↔ j < cur.1 := by
  induction rest generalizing cur with
  | nil => simp [dedupL, lastLe_eq_none]
  | cons p rest ih =>
    have hcp : cur.1 < p.1 := by simpa using hs.head_lt p (by simp)
    unfold dedupL
    split
    · rw [ih]
      obtain ⟨b1, b2⟩ := List.pairwise_cons.mp hs
      exact List.pairwise_cons.mpr ⟨fun q hq => b1 q (by simp [hq]), (List.pairwise_cons.mp b2).2⟩
    · rw [lastLe_cons]
      have := ih p hs.tail
      cases hl : lastLe (dedupL p rest) j with
      | none =>
        have := this.mp hl
        simp only
        split
        · simp; omega
        · simp; omega
      | some q =>
        have : ¬ j < p.1 := by rw [← this, hl]; simp
        simp; omega

theorem valid_eq (m : ColHeaders) (j : Nat) : m.valid j = match lastLe m j with
    | some q => if q.1 ≤ j ∧ j < q.1 + q.2.span then some q.2 else none
    | none => none := by
  unfold valid
  cases lastLe m j <;> rfl

theorem dedupL_obs (cur : Nat × ColHeader) (rest : List (Nat × ColHeader)) (j : Nat)
    (hs : Sorted (cur :: rest)) (hg : NoGap (cur :: rest)) :
    ((ColHeaders.valid (dedupL cur rest) j).map ColHeader.obs)
      = ((ColHeaders.valid (cur :: rest) j).map ColHeader.obs) := by
  induction rest generalizing cur with
  | nil => rfl
  | cons p rest ih =>
    have hcp : cur.1 < p.1 := by simpa using hs.head_lt p (by simp)
    obtain ⟨hg1, hg2⟩ := hg
    unfold dedupL
    split
    · rename_i he
      have hadj := hg1 he
      rw [ColHeader.limitedEq_iff] at he
      rw [ih]
      · rw [valid_eq, valid_eq, lastLe_cons, lastLe_cons, lastLe_cons]
        cases hl : lastLe rest j with
        | some q => rfl
        | none =>
          simp only
          by_cases c1 : p.1 ≤ j
          · rw [if_pos c1, if_pos (by omega)]
            simp only
            by_cases c2 : j < p.1 + p.2.span
            · rw [if_pos ⟨by omega, by omega⟩, if_pos ⟨c1, c2⟩]
              simp only [Option.map_some, ← he]; rfl
            · rw [if_neg (by omega), if_neg (by omega)]
          · rw [if_neg c1]
            by_cases c2 : cur.1 ≤ j
            · rw [if_pos c2, if_pos c2]
              simp only
              rw [if_pos ⟨by omega, by omega⟩, if_pos ⟨by omega, by omega⟩]
              rfl
            · rw [if_neg c2, if_neg c2]
      · obtain ⟨b1, b2⟩ := List.pairwise_cons.mp hs
        exact List.pairwise_cons.mpr ⟨fun q hq => b1 q (by simp [hq]), (List.pairwise_cons.mp b2).2⟩
      · cases rest with
        | nil => trivial
        | cons q rest =>
          refine ⟨?_, hg2.2⟩
          intro heq
          have h1 := hg2.1
          rw [ColHeader.limitedEq_iff] at heq h1
          have := h1 (he.symm.trans heq)
          simp only
          omega
    · have h1 := lastLe_dedupL p rest j hs.tail
      have h2 := ih p hs.tail hg2
      rw [valid_eq, lastLe_cons]
      rw [valid_eq (cur :: p :: rest), lastLe_cons (m := p :: rest)]
      rw [valid_eq, valid_eq] at h2
      have h3 : lastLe (p :: rest) j = none ↔ j < p.1 := by
        rw [lastLe_eq_none]
        constructor
        · intro h; exact h p (by simp)
        · intro h q hq
          rcases List.mem_cons.mp hq with e | e
          · rw [e]; exact h
          · have : p.1 < q.1 := by simpa using hs.tail.head_lt q e
            omega
      cases e1 : lastLe (dedupL p rest) j with
      | none =>
        have e2 := h3.mpr (h1.mp e1)
        rw [e2]
      | some q1 =>
        cases e2 : lastLe (p :: rest) j with
        | none => rw [h1.mpr (h3.mp e2)] at e1; simp at e1
        | some q2 =>
          rw [e1, e2] at h2
          exact h2

end ColHeaders

end Verif
