import Verif.Grid.Clone

/-!
# The row headers while reading
-/

set_option autoImplicit false

namespace Verif

open OMap

/-- Does the row element carry an attribute besides the repeat count? -/
def RowTag.styled (t : RowTag) : Bool :=
  t.style.isSome || t.cellstyle.isSome || t.visibility.isSome

/-- The header made of the attributes. -/
def RowTag.hdr (t : RowTag) : RowHeader :=
  { style := t.style, cellstyle := t.cellstyle
    visible := t.visibility.getD .visible, «repeat» := t.repeated.getD 1 }

/-- Headers at a row boundary. -/
structure HInv (m : RowHeaders) (row : Nat) : Prop where
  sorted : Sorted m
  le : ∀ {k h}, get? m k = some h → k ≤ row
  span : ∀ {k h}, get? m k = some h → h.span ≤ 1
  last : ∀ {h}, get? m row = some h → h.span = 0
  rep : ∀ {k h}, get? m k = some h → 1 ≤ h.repeat

theorem hinv_nil (row : Nat) : HInv [] row :=
  ⟨sorted_nil, by simp, by simp, by simp, by simp⟩

/-- The header map after a tile, key by key. -/
def hdrAfter (m : RowHeaders) (t : Tile) (has : Bool) (k : Nat) : Option RowHeader :=
  if k = t.row then
    if has then some { (if t.tag.styled then t.tag.hdr else {}) with «repeat» := t.rep }
    else if t.tag.styled then some t.tag.hdr else get? m k
  else if k = t.row + 1 ∧ has = true ∧ t.tag.styled = true then some { t.tag.hdr with span := 0 }
  else get? m k

theorem hdrTile_spec (o : ReadOpts) (cols : ColHeaders) (m m' : RowHeaders) (t : Tile)
    (hm : HInv m t.row) (ht : t.tag.repeated.getD 1 = t.rep) (hr : 1 ≤ t.rep)
    (h : hdrTile o cols m t = some m') :
    HInv m' (t.row + t.rep) ∧ ∀ k, get? m' k = hdrAfter m t (t.has o cols) k := by
  have key : Sorted m' ∧ ∀ k, get? m' k = hdrAfter m t (t.has o cols) k := by
    unfold hdrTile at h
    simp only at h
    have hra : (readRowAttr m t.row t.tag).1
        = if t.tag.styled then OMap.insert m t.row t.tag.hdr else m := by
      unfold readRowAttr RowTag.styled
      simp only
      split <;> rfl
    rw [hra] at h
    by_cases hst : t.tag.styled = true
    · rw [if_pos hst] at h
      by_cases hh : t.has o cols = true
      · rw [if_pos hh] at h
        simp only [RowHeaders.step, if_neg (show ¬ t.rep = 0 by omega)] at h
        have hwf : RowHeaders.WFG (OMap.insert m t.row t.tag.hdr) := by
          refine ⟨hm.sorted.insert _ _, ?_, ?_⟩
          · intro b x hb
            rw [get?_insert] at hb
            split at hb
            · simp only [Option.some.injEq] at hb
              rw [← hb]
              show 1 ≤ t.tag.repeated.getD 1
              omega
            · exact hm.rep hb
          · intro b b' x x' hb _ hlt
            rw [get?_insert] at hb
            split at hb
            · simp only [Option.some.injEq] at hb
              rw [← hb]
              show b + 1 ≤ b'
              omega
            · have := hm.span hb; omega
        obtain ⟨m2, e1, e2, e3⟩ := RowHeaders.modify_covered hwf (row := t.row) (b := t.row)
          (x := t.tag.hdr) (by rw [get?_insert, if_pos rfl]) (Nat.le_refl _)
          (show t.row < t.row + 1 by omega) (fun h => { h with «repeat» := t.rep })
        rw [e1] at h
        simp only [Option.some.injEq] at h
        subst h
        refine ⟨e2, ?_⟩
        intro k
        rw [e3 k]
        unfold hdrAfter
        rw [hst, hh]
        by_cases hk : k = t.row
        · simp only [if_pos hk, if_true]
          rfl
        · simp only [if_neg hk, and_true]
          by_cases hk2 : k = t.row + 1
          · simp only [if_pos hk2]
            refine congrArg some ?_
            have : t.row + t.tag.hdr.span - (t.row + 1) = 0 := by
              show t.row + 1 - (t.row + 1) = 0
              omega
            rw [this]
          · simp only [if_neg hk2, get?_insert, if_neg hk]
      · rw [if_neg hh] at h
        simp only [Option.some.injEq] at h
        subst h
        refine ⟨hm.sorted.insert _ _, ?_⟩
        intro k
        rw [get?_insert]
        unfold hdrAfter
        have hh' : t.has o cols = false := by simpa using hh
        rw [hh', hst]
        by_cases hk : k = t.row <;> simp [hk]
    · rw [if_neg hst] at h
      have hst' : t.tag.styled = false := by simpa using hst
      by_cases hh : t.has o cols = true
      · rw [if_pos hh] at h
        simp only [RowHeaders.step, if_neg (show ¬ t.rep = 0 by omega)] at h
        have hv : RowHeaders.valid m t.row = none := by
          cases hv : RowHeaders.valid m t.row with
          | none => rfl
          | some x =>
            rw [RowHeaders.valid_some hm.sorted] at hv
            obtain ⟨b, b1, b2, b3, _⟩ := hv
            have s1 := hm.span b1
            by_cases e : b = t.row
            · subst e
              have := hm.last b1
              omega
            · omega
        rw [RowHeaders.modify_uncovered hv] at h
        simp only [Option.some.injEq] at h
        subst h
        refine ⟨(hm.sorted.insert _ _).insert _ _, ?_⟩
        intro k
        simp only [get?_insert]
        unfold hdrAfter
        rw [hh, hst']
        by_cases hk : k = t.row <;> simp [hk]
      · rw [if_neg hh] at h
        simp only [Option.some.injEq] at h
        subst h
        refine ⟨hm.sorted, ?_⟩
        intro k
        unfold hdrAfter
        have hh' : t.has o cols = false := by simpa using hh
        rw [hh', hst']
        simp
  obtain ⟨k1, k2⟩ := key
  refine ⟨?_, k2⟩
  have hall : ∀ {k h}, get? m' k = some h →
      k ≤ t.row + t.rep ∧ h.span ≤ 1 ∧ (k = t.row + t.rep → h.span = 0) ∧ 1 ≤ h.repeat := by
    intro k h hk
    rw [k2] at hk
    unfold hdrAfter at hk
    split at hk
    · rename_i e
      split at hk
      · simp only [Option.some.injEq] at hk
        rw [← hk]
        refine ⟨by omega, ?_, by omega, hr⟩
        split
        · exact Nat.le_refl 1
        · exact Nat.le_refl 1
      · split at hk
        · simp only [Option.some.injEq] at hk
          rw [← hk]
          refine ⟨by omega, Nat.le_refl 1, by omega, ?_⟩
          show 1 ≤ t.tag.repeated.getD 1
          omega
        · have := hm.le hk; have := hm.span hk; have := hm.rep hk
          exact ⟨by omega, by omega, by omega, by omega⟩
    · split at hk
      · rename_i e
        simp only [Option.some.injEq] at hk
        rw [← hk]
        refine ⟨by omega, by simp, fun _ => rfl, ?_⟩
        show 1 ≤ t.tag.repeated.getD 1
        omega
      · have := hm.le hk; have := hm.span hk; have := hm.rep hk
        exact ⟨by omega, by omega, by omega, by omega⟩
  exact ⟨k1, fun h => (hall h).1, fun h => (hall h).2.1, fun h => (hall h).2.2.1 rfl,
    fun h => (hall h).2.2.2⟩

/-- Keys below the boundary are not touched by later tiles. -/
theorem hdrTiles_spec (o : ReadOpts) (cols : ColHeaders) (l : List Tile) :
    ∀ (m m' : RowHeaders) (a b : Nat), HInv m a → TileChain a l b →
    (∀ t ∈ l, t.tag.repeated.getD 1 = t.rep) → hdrTiles o cols m l = some m' →
    HInv m' b ∧ (∀ k, k < a → get? m' k = get? m k)
    ∧ ∀ t ∈ l, t.has o cols = true →
      get? m' t.row = some { (if t.tag.styled then t.tag.hdr else {}) with «repeat» := t.rep } := by
  induction l with
  | nil =>
    intro m m' a b hm hc _ h
    simp only [hdrTiles, Option.some.injEq] at h
    simp only [TileChain] at hc
    subst h; subst hc
    exact ⟨hm, fun _ _ => rfl, by simp⟩
  | cons t l ih =>
    intro m m' a b hm hc htag h
    simp only [hdrTiles] at h
    split at h
    · rename_i m1 h1
      obtain ⟨c1, c2, c3⟩ := hc
      subst c1
      obtain ⟨g1, g2⟩ := hdrTile_spec o cols m m1 t hm (htag t (by simp)) c2 h1
      obtain ⟨i1, i2, i3⟩ := ih m1 m' _ b g1 c3 (fun x hx => htag x (by simp [hx])) h
      refine ⟨i1, ?_, ?_⟩
      · intro k hk
        rw [i2 k (by omega), g2 k]
        unfold hdrAfter
        rw [if_neg (by omega), if_neg (by omega)]
      · intro x hx hh
        rcases List.mem_cons.mp hx with e | e
        · subst e
          rw [i2 _ (by omega), g2]
          unfold hdrAfter
          rw [if_pos rfl, if_pos hh]
        · exact i3 x e hh
    · simp at h

end Verif
