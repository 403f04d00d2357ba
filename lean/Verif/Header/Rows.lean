import Verif.Header.Lemmas

/-! Lemmas about row headers. -/

set_option autoImplicit false

namespace Verif

open OMap

namespace RowHeaders

theorem valid_some {m : RowHeaders} (hm : Sorted m) {row : Nat} {h : RowHeader} :
    m.valid row = some h ↔ ∃ b, get? m b = some h ∧ b ≤ row ∧ row < b + h.span
      ∧ ∀ j, b < j → j ≤ row → get? m j = none := by
  unfold valid
  cases hl : lastLe m row with
  | none =>
    have := lastLe_none_get?.mp hl
    simp only [reduceCtorEq, false_iff, not_exists]
    rintro b ⟨h1, h2, h3, h4⟩
    rw [this b h2] at h1; simp at h1
  | some q =>
    obtain ⟨b, v⟩ := q
    have hb := (lastLe_some hm).mp hl
    simp only [Option.ite_none_right_eq_some, Option.some.injEq]
    constructor
    · rintro ⟨⟨h1, h2⟩, rfl⟩
      exact ⟨b, hb.1, h1, h2, hb.2.2⟩
    · rintro ⟨b', h1, h2, h3, h4⟩
      have := (lastLe_some hm).mpr ⟨h1, h2, h4⟩
      rw [hl] at this
      simp only [Option.some.injEq, Prod.mk.injEq] at this
      obtain ⟨rfl, rfl⟩ := this
      exact ⟨⟨h2, h3⟩, rfl⟩

/-- Attributes of a header. -/
def _root_.Verif.RowHeader.obs (h : RowHeader) : RowObs :=
  ⟨h.style, h.cellstyle, h.visible, h.repeat, h.height⟩

theorem observe_eq (m : RowHeaders) (row : Nat) :
    m.observe row = ((m.valid row).map RowHeader.obs).getD {} := by
  cases e : m.valid row <;>
    simp [observe, rowstyle, rowCellstyle, rowVisible, rowRepeat, rowHeight, e, RowHeader.obs]

/-- The effect of a call on a stored header. -/
def _root_.Verif.RowOp.apply (h : RowHeader) : RowOp → RowHeader
  | .setStyle _ s => { h with style := some s }
  | .clearStyle _ => { h with style := none }
  | .setCellstyle _ s => { h with cellstyle := some s }
  | .clearCellstyle _ => { h with cellstyle := none }
  | .setVisible _ v => { h with visible := v }
  | .setRepeat _ n => { h with «repeat» := n }
  | .setHeight _ w => { h with height := w }

theorem step_eq (m : RowHeaders) (op : RowOp) :
    m.step op = if op.rejected then none else m.modify op.row (fun h => op.apply h) := by
  cases op <;> simp [step, RowOp.rejected, RowOp.row, RowOp.apply]

theorem apply_obs (h : RowHeader) (hr : 1 ≤ h.repeat) (op : RowOp) :
    (op.apply h).obs = h.obs.after op := by
  have : h.obs.touch = h.obs := by
    unfold RowObs.touch
    rw [if_neg (show ¬ h.obs.repeat = 0 from by show ¬ h.repeat = 0; omega)]
  cases op <;> simp only [RowObs.after, this] <;> rfl

theorem apply_obs_fresh (op : RowOp) : (op.apply {}).obs = ({} : RowObs).after op := by
  cases op <;> rfl

@[simp] theorem apply_span (h : RowHeader) (op : RowOp) : (op.apply h).span = h.span := by
  cases op <;> rfl

theorem apply_repeat {h : RowHeader} {op : RowOp} (hop : op.rejected = false)
    (h1 : 1 ≤ h.repeat) : 1 ≤ (op.apply h).repeat := by
  cases op <;> simp [RowOp.apply, RowOp.rejected] at * <;> omega

/-- In terms of `get?`. -/
structure WFG (m : RowHeaders) : Prop where
  sorted : Sorted m
  rep : ∀ {b x}, get? m b = some x → 1 ≤ x.repeat
  disj : ∀ {b b' x x'}, get? m b = some x → get? m b' = some x' → b < b' → b + x.span ≤ b'

theorem wf_iff (m : RowHeaders) : m.WF ↔ WFG m := by
  constructor
  · rintro ⟨h1, h2, h3⟩
    refine ⟨h1, fun hb => h2 _ (mem_of_get?_eq_some hb), ?_⟩
    intro b b' x x' hb hb' hlt
    have e1 := (get?_eq_some_iff h1).mp hb
    have e2 := (get?_eq_some_iff h1).mp hb'
    clear hb hb' h2
    induction m with
    | nil => simp at e1
    | cons p m ih =>
      rcases List.mem_cons.mp e1 with f1 | f1 <;> rcases List.mem_cons.mp e2 with f2 | f2
      · have := f1.trans f2.symm; simp only [Prod.mk.injEq] at this; omega
      · have := (List.pairwise_cons.mp h3).1 _ f2
        rw [← f1] at this; exact this
      · have := h1.head_lt _ f1
        rw [← f2] at this; simp at this; omega
      · exact ih h1.tail (List.pairwise_cons.mp h3).2 f1 f2
  · intro h
    refine ⟨h.sorted, fun p hp => h.rep ((get?_eq_some_iff h.sorted).mpr hp), ?_⟩
    have hs := h.sorted
    have hd : ∀ p ∈ m, ∀ q ∈ m, p.1 < q.1 → p.1 + p.2.span ≤ q.1 := fun p hp q hq hlt =>
      h.disj ((get?_eq_some_iff hs).mpr hp) ((get?_eq_some_iff hs).mpr hq) hlt
    clear h
    induction m with
    | nil => exact List.Pairwise.nil
    | cons p m ih =>
      refine List.pairwise_cons.mpr ⟨?_, ih hs.tail (fun a ha b hb => hd a (by simp [ha]) b (by simp [hb]))⟩
      intro q hq
      exact hd p (by simp) q (by simp [hq]) (by simpa using hs.head_lt q hq)

theorem WFG.valid_some {m : RowHeaders} (h : WFG m) {row : Nat} {x : RowHeader} :
    m.valid row = some x ↔ ∃ b, get? m b = some x ∧ b ≤ row ∧ row < b + x.span := by
  rw [RowHeaders.valid_some h.sorted]
  constructor
  · rintro ⟨b, h1, h2, h3, _⟩; exact ⟨b, h1, h2, h3⟩
  · rintro ⟨b, h1, h2, h3⟩
    refine ⟨b, h1, h2, h3, ?_⟩
    intro j hj1 hj2
    cases hg : get? m j with
    | none => rfl
    | some y => have := h.disj h1 hg hj1; omega

theorem WFG.valid_none {m : RowHeaders} (h : WFG m) {row : Nat} :
    m.valid row = none ↔ ∀ b x, get? m b = some x → b ≤ row → ¬ row < b + x.span := by
  constructor
  · intro hv b x h1 h2 h3
    have := h.valid_some.mpr ⟨b, h1, h2, h3⟩
    rw [hv] at this; simp at this
  · intro hn
    cases hv : m.valid row with
    | none => rfl
    | some x =>
      obtain ⟨b, h1, h2, h3⟩ := h.valid_some.mp hv
      exact absurd h3 (hn b x h1 h2)

theorem modify_uncovered {m : RowHeaders} {row : Nat} (h : m.valid row = none)
    (f : RowHeader → RowHeader) : m.modify row f = some ((m.insert row {}).insert row (f {})) := by
  have hsp : m.split row = m.insert row {} := by
    unfold valid at h
    unfold split
    cases hl : lastLe m row with
    | none => rfl
    | some q =>
      rw [hl] at h
      obtain ⟨b, x⟩ := q
      simp only [ite_eq_right_iff, reduceCtorEq, imp_false] at h
      simp only [h, if_false]
  unfold modify
  simp only [hsp, get?_insert, if_true]

theorem modify_covered {m : RowHeaders} (hm : WFG m) {row b : Nat} {x : RowHeader}
    (hb : get? m b = some x) (h1 : b ≤ row) (h2 : row < b + x.span) (f : RowHeader → RowHeader) :
    ∃ m', m.modify row f = some m' ∧ Sorted m' ∧
    ∀ k, get? m' k =
      if k = row then some (f { x with span := 1 })
      else if k = row + 1 then some { x with span := b + x.span - (row + 1) }
      else if k = b then some { x with span := row - b }
      else get? m k := by
  have hl : lastLe m row = some (b, x) := by
    rw [lastLe_some hm.sorted]
    refine ⟨hb, h1, ?_⟩
    intro j j1 j2
    cases hg : get? m j with
    | none => rfl
    | some y => have := hm.disj hb hg j1; omega
  have hsplit : Sorted (m.split row) ∧ ∀ k, get? (m.split row) k =
      if k = row + 1 then some { x with span := b + x.span - (row + 1) }
      else if k = row then some { x with span := 1 }
      else if k = b then some { x with span := row - b }
      else get? m k := by
    unfold split
    rw [hl]
    simp only
    rw [if_pos ⟨h1, h2⟩]
    by_cases c : b < row
    · rw [if_pos c]
      exact ⟨((hm.sorted.insert _ _).insert _ _).insert _ _, fun k => by simp only [get?_insert]⟩
    · rw [if_neg c]
      have : b = row := by omega
      subst this
      refine ⟨(hm.sorted.insert _ _).insert _ _, fun k => ?_⟩
      simp only [get?_insert]
      by_cases k2 : k = b
      · simp [k2]
      · simp [k2]
  have hc : get? (m.split row) row = some { x with span := 1 } := by
    rw [hsplit.2, if_neg (by omega), if_pos rfl]
  refine ⟨(m.split row).insert row (f { x with span := 1 }), ?_, hsplit.1.insert _ _, ?_⟩
  · unfold modify; simp only [hc]
  · intro k
    rw [get?_insert, hsplit.2]
    by_cases k1 : k = row
    · simp [k1]
    · simp only [k1, if_false]

/-- One setter call. -/
theorem step_obs {m : RowHeaders} (hm : WFG m) (op : RowOp) (hop : op.rejected = false) :
    ∃ m', m.step op = some m' ∧ WFG m'
    ∧ m'.observe op.row = (m.observe op.row).after op
    ∧ (∃ x, m'.valid op.row = some x ∧ get? m' op.row = some x ∧ x.span = 1)
    ∧ (∀ k, k ≠ op.row → ∀ x, get? m' k = some x →
        (∃ y, get? m k = some y ∧ x.span ≤ y.span) ∨
        (k = op.row + 1 ∧ ∃ b y, get? m b = some y ∧ b ≤ op.row ∧ op.row + 1 + x.span = b + y.span))
    ∧ ((∀ b x y, get? m b = some x → b ≤ op.row → op.row < b + x.span →
          get? m (op.row + 1) = some y → y.span = 0) →
        ∀ j, j ≠ op.row → m'.observe j = m.observe j)
    ∧ ∀ j, j < op.row → m'.observe j = m.observe j := by
  rw [step_eq, hop]
  simp only [Bool.false_eq_true, if_false]
  have lift : ∀ {m' : RowHeaders}, WFG m' → ∀ j,
      (∀ y, m.valid j = some y → ∃ b y', get? m' b = some y' ∧ b ≤ j ∧ j < b + y'.span ∧ y'.obs = y.obs) →
      (∀ b y', get? m' b = some y' → b ≤ j → j < b + y'.span → (m.valid j).isSome) →
      m'.observe j = m.observe j := by
    intro m' hm' j k1 k2
    rw [observe_eq, observe_eq]
    congr 1
    cases hv : m.valid j with
    | some y =>
      obtain ⟨b, y', g, l, u, e⟩ := k1 y hv
      rw [hm'.valid_some.mpr ⟨b, g, l, u⟩]
      simp [e]
    | none =>
      cases hv' : m'.valid j with
      | none => rfl
      | some y' =>
        obtain ⟨b, g, l, u⟩ := hm'.valid_some.mp hv'
        have := k2 b y' g l u
        rw [hv] at this; simp at this
  cases hv : m.valid op.row with
  | none =>
    have hno := hm.valid_none.mp hv
    have hget : ∀ k, get? ((m.insert op.row {}).insert op.row (op.apply {})) k
        = if k = op.row then some (op.apply {}) else get? m k := by
      intro k
      rw [get?_insert, get?_insert]
      by_cases e : k = op.row
      · simp [e]
      · simp [e]
    have hs' : Sorted ((m.insert op.row {}).insert op.row (op.apply {})) :=
      (hm.sorted.insert _ _).insert _ _
    have hwf : WFG ((m.insert op.row {}).insert op.row (op.apply {})) := by
      refine ⟨hs', ?_, ?_⟩
      · intro b x hb
        rw [hget] at hb
        split at hb
        · simp only [Option.some.injEq] at hb
          rw [← hb]
          exact apply_repeat hop (Nat.le_refl _)
        · exact hm.rep hb
      · intro b b' x x' hb hb' hlt
        rw [hget] at hb hb'
        split at hb
        · simp only [Option.some.injEq] at hb
          rw [← hb, apply_span]
          simp only
          omega
        · split at hb'
          · have := hno b x hb (by omega); omega
          · exact hm.disj hb hb' hlt
    have hval : RowHeaders.valid ((m.insert op.row {}).insert op.row (op.apply {})) op.row
        = some (op.apply {}) :=
      hwf.valid_some.mpr ⟨op.row, by rw [hget, if_pos rfl], Nat.le_refl _, by simp⟩
    have hothers : ∀ j, j ≠ op.row →
        RowHeaders.observe ((m.insert op.row {}).insert op.row (op.apply {})) j = m.observe j := by
      intro j hj
      apply lift hwf
      · intro y hy
        obtain ⟨b, g, l, u⟩ := hm.valid_some.mp hy
        refine ⟨b, y, ?_, l, u, rfl⟩
        rw [hget]
        split
        · rename_i e
          subst e
          exact absurd (show op.row < op.row + y.span by omega) (hno _ y g (Nat.le_refl _))
        · exact g
      · intro b y' g l u
        rw [hget] at g
        split at g
        · simp only [Option.some.injEq] at g
          rw [← g, apply_span] at u
          simp only at u
          omega
        · rw [hm.valid_some.mpr ⟨b, g, l, u⟩]; rfl
    refine ⟨_, modify_uncovered hv _, hwf, ?_, ?_, ?_, fun _ => hothers,
      fun j hj => hothers j (by omega)⟩
    · rw [observe_eq, observe_eq, hval, hv]
      simp only [Option.map_some, Option.getD_some, Option.map_none, Option.getD_none]
      exact apply_obs_fresh op
    · exact ⟨_, hval, by rw [hget, if_pos rfl], by simp⟩
    · intro k hk x hx
      rw [hget, if_neg hk] at hx
      exact Or.inl ⟨x, hx, Nat.le_refl _⟩
  | some x =>
    obtain ⟨b, hb, h1, h2⟩ := hm.valid_some.mp hv
    obtain ⟨m', hm', hs', hget⟩ := modify_covered hm hb h1 h2 (fun h => op.apply h)
    have hxr := hm.rep hb
    have hwf : WFG m' := by
      refine ⟨hs', ?_, ?_⟩
      · intro c y hc
        rw [hget] at hc
        split at hc
        · simp only [Option.some.injEq] at hc
          rw [← hc]
          exact apply_repeat hop hxr
        · split at hc
          · simp only [Option.some.injEq] at hc; rw [← hc]; exact hxr
          · split at hc
            · simp only [Option.some.injEq] at hc; rw [← hc]; exact hxr
            · exact hm.rep hc
      · intro c c' y y' hc hc' hlt
        have keyc' : c' = op.row ∨ c' = op.row + 1 ∨ c' = b ∨ (c' ≠ b ∧ get? m c' = some y') := by
          rw [hget] at hc'
          by_cases e1 : c' = op.row
          · exact Or.inl e1
          · by_cases e2 : c' = op.row + 1
            · exact Or.inr (Or.inl e2)
            · by_cases e3 : c' = b
              · exact Or.inr (Or.inr (Or.inl e3))
              · rw [if_neg e1, if_neg e2, if_neg e3] at hc'
                exact Or.inr (Or.inr (Or.inr ⟨e3, hc'⟩))
        rw [hget] at hc
        split at hc
        · simp only [Option.some.injEq] at hc
          rw [← hc, apply_span]
          simp only; omega
        · split at hc
          · simp only [Option.some.injEq] at hc
            rw [← hc]
            simp only
            rcases keyc' with e | e | e | ⟨e, e'⟩
            · omega
            · omega
            · omega
            · have := hm.disj hb e' (by omega); omega
          · split at hc
            · simp only [Option.some.injEq] at hc
              rw [← hc]
              simp only
              rcases keyc' with e | e | e | ⟨e, e'⟩
              · omega
              · omega
              · omega
              · have := hm.disj hb e' (by omega); omega
            · rename_i n1 n2 n3
              rcases keyc' with e | e | e | ⟨e, e'⟩
              · rcases Nat.lt_or_ge c b with hl | hg
                · have := hm.disj hc hb hl; omega
                · have := hm.disj hb hc (by omega); omega
              · rcases Nat.lt_or_ge c b with hl | hg
                · have := hm.disj hc hb hl; omega
                · have := hm.disj hb hc (by omega); omega
              · have := hm.disj hc hb (by omega); omega
              · exact hm.disj hc e' hlt
    have hval : m'.valid op.row = some (op.apply { x with span := 1 }) :=
      hwf.valid_some.mpr ⟨op.row, by rw [hget, if_pos rfl], Nat.le_refl _, by simp⟩
    have hlow : ∀ j, j < op.row → m'.observe j = m.observe j := by
      intro j hj
      apply lift hwf
      · intro y hy
        obtain ⟨c, g, l, u⟩ := hm.valid_some.mp hy
        by_cases e : c = b
        · subst e
          rw [hb] at g
          simp only [Option.some.injEq] at g
          subst g
          exact ⟨c, { x with span := op.row - c },
            by rw [hget, if_neg (by omega), if_neg (by omega), if_pos rfl], l,
            by simp only; omega, rfl⟩
        · exact ⟨c, y, by rw [hget, if_neg (by omega), if_neg (by omega), if_neg e]; exact g, l, u, rfl⟩
      · intro c y' g l u
        rw [hget, if_neg (by omega), if_neg (by omega)] at g
        split at g
        · rename_i e
          subst e
          simp only [Option.some.injEq] at g
          rw [hm.valid_some.mpr ⟨c, hb, l, by omega⟩]; rfl
        · rw [hm.valid_some.mpr ⟨c, g, l, u⟩]; rfl
    refine ⟨m', hm', hwf, ?_, ?_, ?_, ?_, hlow⟩
    · rw [observe_eq, observe_eq, hval, hv]
      simp only [Option.map_some, Option.getD_some]
      rw [apply_obs _ (by simpa using hxr)]
      rfl
    · exact ⟨_, hval, by rw [hget, if_pos rfl], by simp⟩
    · intro k hk y hy
      rw [hget, if_neg hk] at hy
      split at hy
      · rename_i e
        simp only [Option.some.injEq] at hy
        refine Or.inr ⟨e, b, x, hb, h1, ?_⟩
        rw [← hy]; simp only; omega
      · split at hy
        · rename_i e
          simp only [Option.some.injEq] at hy
          refine Or.inl ⟨x, by rw [e]; exact hb, ?_⟩
          rw [← hy]; simp only; omega
        · exact Or.inl ⟨y, hy, Nat.le_refl _⟩
    · intro hcond j hj
      rcases Nat.lt_or_ge j op.row with hlt | hge
      · exact hlow j hlt
      · apply lift hwf
        · intro y hy
          obtain ⟨c, g, l, u⟩ := hm.valid_some.mp hy
          by_cases e : c = b
          · subst e
            rw [hb] at g
            simp only [Option.some.injEq] at g
            subst g
            exact ⟨op.row + 1, { x with span := c + x.span - (op.row + 1) },
              by rw [hget, if_neg (by omega), if_pos rfl], by omega,
              by simp only; omega, rfl⟩
          · refine ⟨c, y, ?_, l, u, rfl⟩
            have hc1 : c ≠ op.row := by
              intro ec
              rcases Nat.lt_or_ge c b with hl | hg
              · have := hm.disj g hb hl; omega
              · have := hm.disj hb g (by omega); omega
            have hc2 : c ≠ op.row + 1 := by
              intro ec
              have := hcond b x y hb h1 h2 (by rw [← ec]; exact g)
              omega
            rw [hget, if_neg hc1, if_neg hc2, if_neg e]; exact g
        · intro c y' g l u
          rw [hget] at g
          split at g
          · simp only [Option.some.injEq] at g
            rw [← g, apply_span] at u
            simp only at u
            omega
          · split at g
            · simp only [Option.some.injEq] at g
              rw [← g] at u
              simp only at u
              rw [hm.valid_some.mpr ⟨b, hb, by omega, by omega⟩]; rfl
            · split at g
              · simp only [Option.some.injEq] at g
                rw [← g] at u
                simp only at u
                omega
              · rw [hm.valid_some.mpr ⟨c, g, l, u⟩]; rfl

end RowHeaders

end Verif
