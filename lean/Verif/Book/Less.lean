import Verif.Book.NameProps

/-!
# Stores with less in them

What can be added to a store can be added to one that has seen less: generated names are found there, too.
-/

set_option autoImplicit false

namespace Verif.Book

open Codec

variable {β : Type}

/-- The store `a` has seen less than `b`: its counters are not ahead, and of the names that `b` will try it has none that
`b` has not. -/
structure Less (a b : Stores β) : Prop where
  count : ∀ k : Kind, startCount a.autonum k.prefix ≤ startCount b.autonum k.prefix
  bound : ∀ k : Kind, startCount b.autonum k.prefix ≤ u32Max1
  names : ∀ (k : Kind) (i : Nat), startCount b.autonum k.prefix ≤ i → (a.store k).contains (k.prefix ++ decNat i) = true →
    (b.store k).contains (k.prefix ++ decNat i) = true

theorem startCount_insert (m : HMap Str Nat) (k k' : Kind) (c : Nat) :
    startCount (m.insert k.prefix c) k'.prefix = if k' = k then c + 1 else startCount m k'.prefix := by
  unfold startCount
  by_cases h : k' = k
  · subst h
    rw [HMap.get?_insert, if_pos rfl, if_pos rfl]
  · rw [HMap.get?_insert, if_neg (fun e => h (prefix_inj _ _ e.symm)), if_neg h]

theorem has_insert {K V : Type} [DecidableEq K] (m : HMap K V) (k j : K) (v : V) :
    (m.insert k v).contains j = true ↔ k = j ∨ m.contains j = true := by
  unfold HMap.contains
  rw [HMap.get?_insert]
  by_cases h : k = j <;> simp [h]

/-- A store is at most as full as itself, if its counters are within their range. -/
theorem less_empty (b : Stores β) (h : ∀ k : Kind, startCount b.autonum k.prefix ≤ u32Max1) : Less {} b :=
  ⟨fun k => Nat.zero_le _, h, fun k i _ hc => by cases hc⟩

theorem less_add {a b b' : Stores β} (h : Less a b) (k : Kind) (s : Style β) (n : Str) (hb : b.add k s = .ok (b', n)) :
    ∃ a' n', a.add k s = .ok (a', n') ∧ Less a' b' := by
  unfold Stores.add at hb ⊢
  by_cases hs : s.name = []
  · rw [if_pos hs] at hb ⊢
    unfold autoName at hb ⊢
    rcases search_spec k.prefix (fun n => (b.store k).contains n) ((b.store k).length + 1) _ (h.bound k) with
      ⟨c, a1, a2, a3, a4, a5⟩ | ⟨a1, _⟩ | ⟨a1, _⟩
    · rw [a1] at hb
      simp only [Except.ok.injEq, Prod.mk.injEq] at hb
      obtain ⟨rfl, rfl⟩ := hb
      have hle : startCount a.autonum k.prefix ≤ u32Max1 := Nat.le_trans (h.count k) (h.bound k)
      have hfree : (a.store k).contains (k.prefix ++ decNat c) = false := by
        cases hc : (a.store k).contains (k.prefix ++ decNat c) with
        | false => rfl
        | true => rw [h.names k c a2 hc] at a3; cases a3
      rcases search_spec k.prefix (fun n => (a.store k).contains n) ((a.store k).length + 1) _ hle with
        ⟨d, b1, b2, b3, b4, b5⟩ | ⟨_, b2⟩ | ⟨b1, _⟩
      · have hd : d ≤ c := by
          rcases Nat.lt_or_ge c d with hlt | hge
          · have := b5 c (Nat.le_trans (h.count k) a2) hlt
            simp only [hfree] at this
            cases this
          · exact hge
        rw [b1]
        refine ⟨_, _, rfl, ?_, ?_, ?_⟩
        · intro k'
          show startCount (a.autonum.insert k.prefix d) k'.prefix ≤ startCount (b.autonum.insert k.prefix c) k'.prefix
          rw [startCount_insert, startCount_insert]
          split
          · omega
          · exact h.count k'
        · intro k'
          show startCount (b.autonum.insert k.prefix c) k'.prefix ≤ u32Max1
          rw [startCount_insert]
          split
          · omega
          · exact h.bound k'
        · intro k' i hi hc
          have hi : startCount (b.autonum.insert k.prefix c) k'.prefix ≤ i := hi
          rw [startCount_insert] at hi
          rw [get_setStore] at hc ⊢
          by_cases e : k' = k
          · subst e
            rw [if_pos rfl] at hc hi ⊢
            rw [has_insert] at hc ⊢
            rcases hc with hc | hc
            · have := name_inj _ _ _ hc
              omega
            · exact .inr (h.names k' i (by omega) hc)
          · rw [if_neg e] at hc hi ⊢
            exact h.names k' i hi hc
      · have := b2 c (Nat.le_trans (h.count k) a2) a4
        simp only [hfree] at this
        cases this
      · exact absurd b1 (search_ends _ _ _ hle)
    · rw [a1] at hb; cases hb
    · rw [a1] at hb; cases hb
  · rw [if_neg hs] at hb ⊢
    simp only [Except.ok.injEq, Prod.mk.injEq] at hb
    obtain ⟨rfl, rfl⟩ := hb
    refine ⟨_, _, rfl, h.count, h.bound, ?_⟩
    intro k' i hi hc
    rw [get_setStore] at hc ⊢
    by_cases e : k' = k
    · subst e
      rw [if_pos rfl] at hc ⊢
      rw [has_insert] at hc ⊢
      exact hc.imp id (h.names k' i hi)
    · rw [if_neg e] at hc ⊢
      exact h.names k' i hi hc

/-- The counters stay within their range. -/
theorem count_add {b b' : Stores β} (h : ∀ k : Kind, startCount b.autonum k.prefix ≤ u32Max1) (k : Kind) (s : Style β)
    (n : Str) (hb : b.add k s = .ok (b', n)) : ∀ k : Kind, startCount b'.autonum k.prefix ≤ u32Max1 := by
  obtain ⟨_, _, _, g⟩ := less_add (less_empty b h) k s n hb
  exact g.bound

end Verif.Book
