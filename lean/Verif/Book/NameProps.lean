import Verif.Book.Names

/-!
# C40, C41: generated style names are fresh, style stores are maps
-/

set_option autoImplicit false

namespace Verif.Book

open Codec

variable {β : Type}

/-! ## The search for a name -/

theorem search_spec (pre : Str) (used : Str → Bool) : ∀ (fuel cnt : Nat), cnt ≤ u32Max1 →
    (∃ c, searchName pre used fuel cnt = .ok c ∧ cnt ≤ c ∧ used (pre ++ decNat c) = false
      ∧ c < u32Max1 ∧ ∀ i, cnt ≤ i → i < c → used (pre ++ decNat i) = true)
    ∨ (searchName pre used fuel cnt = .error .overflow
      ∧ ∀ i, cnt ≤ i → i < u32Max1 → used (pre ++ decNat i) = true)
    ∨ (searchName pre used fuel cnt = .error .endless
      ∧ ∀ i, cnt ≤ i → i < cnt + fuel → used (pre ++ decNat i) = true) := by
  intro fuel
  induction fuel with
  | zero =>
    intro cnt _
    exact .inr (.inr ⟨rfl, fun i h1 h2 => by omega⟩)
  | succ fuel ih =>
    intro cnt hle
    unfold searchName
    by_cases hm : cnt = u32Max1
    · rw [if_pos hm]
      exact .inr (.inl ⟨rfl, fun i h1 h2 => by omega⟩)
    · rw [if_neg hm]
      cases hu : used (pre ++ decNat cnt) with
      | false => exact .inl ⟨cnt, by simp, Nat.le_refl _, hu, by omega, fun i h1 h2 => by omega⟩
      | true =>
        simp only [if_true]
        have hext : ∀ i, cnt ≤ i → i ≠ cnt → cnt + 1 ≤ i := by intro i h1 h2; omega
        rcases ih (cnt + 1) (by omega) with ⟨c, h1, h2, h3, h4, h5⟩ | ⟨h1, h2⟩ | ⟨h1, h2⟩
        · refine .inl ⟨c, h1, by omega, h3, h4, ?_⟩
          intro i hi hc
          by_cases he : i = cnt
          · subst he; exact hu
          · exact h5 i (hext i hi he) hc
        · refine .inr (.inl ⟨h1, ?_⟩)
          intro i hi hc
          by_cases he : i = cnt
          · subst he; exact hu
          · exact h2 i (hext i hi he) hc
        · refine .inr (.inr ⟨h1, ?_⟩)
          intro i hi hc
          by_cases he : i = cnt
          · subst he; exact hu
          · exact h2 i (hext i hi he) (by omega)

theorem name_inj (pre : Str) (i j : Nat) (h : pre ++ decNat i = pre ++ decNat j) : i = j :=
  decNat_inj (List.append_cancel_left h)

/-- If all the names of `n` numbers are in a list, it has at least `n` entries. -/
theorem names_count (pre : Str) (cnt n : Nat) (l : List Str)
    (h : ∀ i, cnt ≤ i → i < cnt + n → pre ++ decNat i ∈ l) : n ≤ l.length := by
  have hmem : ∀ x ∈ (List.range n).map (fun i => pre ++ decNat (cnt + i)), x ∈ l := by
    intro x hx
    obtain ⟨i, hi, rfl⟩ := List.mem_map.1 hx
    exact h _ (by omega) (by have := List.mem_range.1 hi; omega)
  have hnd : ((List.range n).map (fun i => pre ++ decNat (cnt + i))).Nodup := by
    rw [List.Nodup, List.pairwise_map]
    refine List.Pairwise.imp ?_ (List.nodup_range (n := n))
    intro a b hab he
    have := name_inj _ _ _ he
    omega
  have := nodup_length_le _ _ hnd hmem
  simpa using this

/-- The search never runs out of rounds. -/
theorem search_ends (pre : Str) (styles : HMap Str (Style β)) (cnt : Nat) (h : cnt ≤ u32Max1) :
    searchName pre (fun n => styles.contains n) (styles.length + 1) cnt ≠ .error .endless := by
  intro he
  rcases search_spec pre (fun n => styles.contains n) (styles.length + 1) cnt h with
    ⟨c, h1, _⟩ | ⟨h1, _⟩ | ⟨_, h2⟩
  · rw [he] at h1; cases h1
  · rw [he] at h1; cases h1
  · have := names_count pre cnt (styles.length + 1) styles.keys (by
      intro i hi hc
      exact (HMap.mem_keys styles _).2 (h2 i hi hc))
    unfold HMap.keys at this
    rw [List.length_map] at this
    omega

theorem prefix_inj (a b : Kind) (h : a.prefix = b.prefix) : a = b := by
  revert h
  cases a <;> cases b <;> decide +kernel

/-! ## Histories -/

/-- All that was ever added: the names `E k`; the counters only passed such names. -/
def Seen (b : Stores β) (E : Kind → List Str) : Prop :=
  (∀ k n, n ∈ (b.store k).keys → n ∈ E k)
  ∧ (∀ k c, b.autonum.get? k.prefix = some c → c < u32Max1 ∧ ∀ i, i ≤ c → k.prefix ++ decNat i ∈ E k)

theorem get_setStore (b : Stores β) (k k' : Kind) (m : HMap Str (Style β)) :
    (b.setStore k m).store k' = if k' = k then m else b.store k' := rfl

/-- Adding a style without name: the name is new, nothing else changes. -/
theorem add_auto (b : Stores β) (E : Kind → List Str) (hs : Seen b E) (k : Kind) (body : β)
    (hlen : (E k).length < u32Max1) :
    ∃ c b', b.add k ⟨[], body⟩ = .ok (b', k.prefix ++ decNat c)
      ∧ b.get? k (k.prefix ++ decNat c) = none
      ∧ b'.autonum = b.autonum.insert k.prefix c ∧ c < u32Max1
      ∧ (∀ i, i < c → k.prefix ++ decNat i ∈ E k)
      ∧ b'.store = fun k' => if k' = k then (b.store k).insert (k.prefix ++ decNat c) ⟨k.prefix ++ decNat c, body⟩
          else b.store k' := by
  have hstart : ∃ cnt, startCount b.autonum k.prefix = cnt
      ∧ cnt ≤ u32Max1 ∧ ∀ i, i < cnt → k.prefix ++ decNat i ∈ E k := by
    unfold startCount
    cases hc : b.autonum.get? k.prefix with
    | none => exact ⟨0, rfl, Nat.zero_le _, fun i hi => by omega⟩
    | some n =>
      obtain ⟨h1, h2⟩ := hs.2 k n hc
      exact ⟨n + 1, rfl, h1, fun i hi => h2 i (by omega)⟩
  obtain ⟨cnt, h1, h2, h3⟩ := hstart
  have hused : ∀ n, (fun n => (b.store k).contains n) n = true → n ∈ E k :=
    fun n hn => hs.1 k n ((HMap.mem_keys _ _).2 hn)
  rcases search_spec k.prefix (fun n => (b.store k).contains n) ((b.store k).length + 1) cnt h2 with
    ⟨c, a1, a2, a3, a4, a5⟩ | ⟨_, a2⟩ | ⟨a1, _⟩
  · refine ⟨c, ({ b with autonum := b.autonum.insert k.prefix c } : Stores β).setStore k
      ((b.store k).insert (k.prefix ++ decNat c) ⟨k.prefix ++ decNat c, body⟩), ?_, ?_, rfl, a4, ?_, rfl⟩
    · unfold Stores.add autoName
      rw [if_pos rfl]
      simp only
      rw [h1, a1]
    · unfold Stores.get?
      have : (b.store k).contains (k.prefix ++ decNat c) = false := a3
      unfold HMap.contains at this
      cases hg : HMap.get? (b.store k) (k.prefix ++ decNat c) with
      | none => rfl
      | some s => rw [hg] at this; cases this
    · intro i hi
      by_cases hlt : i < cnt
      · exact h3 i hlt
      · exact hused _ (a5 i (by omega) hi)
  · exfalso
    have := names_count k.prefix 0 u32Max1 (E k) (by
      intro i _ hi
      by_cases hlt : i < cnt
      · exact h3 i hlt
      · exact hused _ (a2 i (by omega) (by omega)))
    omega
  · exact absurd a1 (search_ends k.prefix (b.store k) cnt h2)

/-- The names after one more call. -/
def grow (E : Kind → List Str) (k : Kind) (n : Str) : Kind → List Str :=
  fun k' => if k' = k then n :: E k' else E k'

theorem grow_len (E : Kind → List Str) (k k' : Kind) (n : Str) : (grow E k n k').length ≤ (E k').length + 1 := by
  unfold grow; split <;> simp

theorem grow_mem (E : Kind → List Str) (k k' : Kind) (n m : Str) (h : m ∈ E k') : m ∈ grow E k n k' := by
  unfold grow; split
  · exact List.mem_cons_of_mem _ h
  · exact h

theorem grow_self (E : Kind → List Str) (k : Kind) (n : Str) : n ∈ grow E k n k := by
  unfold grow; rw [if_pos rfl]; exact List.mem_cons_self

theorem keys_insert (m : HMap Str (Style β)) (n j : Str) (s : Style β) (h : j ∈ (m.insert n s).keys) :
    j = n ∨ j ∈ m.keys := by
  rcases List.mem_cons.1 (show j ∈ n :: HMap.keys (HMap.remove m n) from h) with h | h
  · exact .inl h
  · exact .inr (HMap.keys_remove m n j h)

/-- One call keeps the invariant and does not fail. -/
theorem step_seen (b : Stores β) (E : Kind → List Str) (hs : Seen b E) (o : StoreOp β) (N : Nat)
    (hE : ∀ k, (E k).length ≤ N) (hN : N < u32Max1) :
    ∃ b' r E', b.step o = .ok (b', r) ∧ Seen b' E' ∧ ∀ k, (E' k).length ≤ N + 1 := by
  cases o with
  | remove k n =>
    refine ⟨_, _, E, rfl, ⟨?_, hs.2⟩, fun k => by have := hE k; omega⟩
    intro k' m hm
    unfold Stores.remove at hm
    simp only [get_setStore] at hm
    split at hm
    · rename_i h; subst h; exact hs.1 k' m (HMap.keys_remove _ _ _ hm)
    · exact hs.1 k' m hm
  | modify k n f =>
    refine ⟨_, _, E, rfl, ⟨?_, hs.2⟩, fun k => by have := hE k; omega⟩
    intro k' m hm
    unfold Stores.modify at hm
    simp only [get_setStore] at hm
    split at hm
    · rename_i h; subst h; rw [HMap.keys_modify] at hm; exact hs.1 k' m hm
    · exact hs.1 k' m hm
  | add k s =>
    obtain ⟨name, body⟩ := s
    by_cases hn : name = []
    · subst hn
      obtain ⟨c, b', h1, h2, h3, h4, h5, h6⟩ := add_auto b E hs k body (by have := hE k; omega)
      refine ⟨b', some (k.prefix ++ decNat c), grow E k (k.prefix ++ decNat c), ?_, ⟨?_, ?_⟩, ?_⟩
      · show (match b.add k ⟨[], body⟩ with | .ok (b, r) => _ | .error e => _) = _
        rw [h1]
      · intro k' m hm
        rw [h6] at hm
        simp only at hm
        split at hm
        · rename_i h
          subst h
          rcases keys_insert _ _ _ _ hm with rfl | hm
          · exact grow_self E k' _
          · exact grow_mem E k' k' _ m (hs.1 k' m hm)
        · exact grow_mem E k k' _ m (hs.1 k' m hm)
      · intro k' c' hc'
        rw [h3, HMap.get?_insert] at hc'
        split at hc'
        · rename_i h
          obtain rfl := prefix_inj _ _ h
          obtain rfl := Option.some.inj hc'
          refine ⟨h4, ?_⟩
          intro i hi
          by_cases he : i = c
          · subst he; exact grow_self E k _
          · exact grow_mem E k k _ _ (h5 i (by omega))
        · obtain ⟨g1, g2⟩ := hs.2 k' c' hc'
          exact ⟨g1, fun i hi => grow_mem E k k' _ _ (g2 i hi)⟩
      · intro k'
        have := grow_len E k k' (k.prefix ++ decNat c)
        have := hE k'
        omega
    · refine ⟨b.setStore k ((b.store k).insert name ⟨name, body⟩), some name, grow E k name, ?_, ⟨?_, ?_⟩, ?_⟩
      · show (match b.add k ⟨name, body⟩ with | .ok (b, r) => _ | .error e => _) = _
        unfold Stores.add
        rw [if_neg hn]
      · intro k' m hm
        simp only [get_setStore] at hm
        split at hm
        · rename_i h
          subst h
          rcases keys_insert _ _ _ _ hm with rfl | hm
          · exact grow_self E k' _
          · exact grow_mem E k' k' _ m (hs.1 k' m hm)
        · exact grow_mem E k k' _ m (hs.1 k' m hm)
      · intro k' c hc
        obtain ⟨g1, g2⟩ := hs.2 k' c hc
        exact ⟨g1, fun i hi => grow_mem E k k' _ _ (g2 i hi)⟩
      · intro k'
        have := grow_len E k k' name
        have := hE k'
        omega

theorem run_seen (os : List (StoreOp β)) : ∀ (b : Stores β) (E : Kind → List Str) (N : Nat), Seen b E →
    (∀ k, (E k).length ≤ N) → N + os.length ≤ u32Max1 →
    ∃ b' rs E', b.run os = .ok (b', rs) ∧ Seen b' E' ∧ ∀ k, (E' k).length ≤ N + os.length := by
  induction os with
  | nil => intro b E N hs hE _; exact ⟨b, [], E, rfl, hs, hE⟩
  | cons o os ih =>
    intro b E N hs hE hN
    simp only [List.length_cons] at hN
    obtain ⟨b1, r, E1, h1, h2, h3⟩ := step_seen b E hs o N hE (by omega)
    obtain ⟨b2, rs, E2, h4, h5, h6⟩ := ih b1 E1 (N + 1) h2 h3 (by omega)
    refine ⟨b2, r :: rs, E2, ?_, h5, fun k => by have := h6 k; simp only [List.length_cons]; omega⟩
    unfold Stores.run
    rw [h1]
    simp only
    rw [h4]

theorem new_seen : Seen ({} : Stores β) (fun _ => []) :=
  ⟨(fun k n h => by cases h), (fun k c h => by cases h)⟩

/-! ## C40 -/

/-- **C40**: after any history of fewer than 2³² calls, adding a style without a name works: it gets a name
that no style of its kind has, it is found under this name, and no style of any kind is changed or lost. -/
theorem C40_fresh (os : List (StoreOp β)) (h : os.length < 4294967296) (k : Kind) (body : β) :
    ∃ b rs b' r, ({} : Stores β).run os = .ok (b, rs) ∧ b.step (.add k ⟨[], body⟩) = .ok (b', some r)
      ∧ r ≠ [] ∧ b.get? k r = none ∧ b'.get? k r = some ⟨r, body⟩
      ∧ ∀ k' n, (k', n) ≠ (k, r) → b'.get? k' n = b.get? k' n := by
  obtain ⟨b, rs, E, h1, h2, h3⟩ := run_seen os {} (fun _ => []) 0 (new_seen (β := β)) (fun _ => Nat.le_refl _)
    (by unfold u32Max1; omega)
  obtain ⟨c, b', a1, a2, a3, a4, a5, a6⟩ := add_auto b E h2 k body (by have := h3 k; unfold u32Max1; omega)
  refine ⟨b, rs, b', k.prefix ++ decNat c, h1, ?_, ?_, a2, ?_, ?_⟩
  · show (match b.add k ⟨[], body⟩ with | .ok (b, r) => _ | .error e => _) = _
    rw [a1]
  · intro he
    exact decNat_ne c (List.append_eq_nil_iff.1 he).2
  · unfold Stores.get?
    rw [a6]
    simp only [if_true]
    rw [HMap.get?_insert, if_pos rfl]
  · intro k' n hne
    unfold Stores.get?
    rw [a6]
    simp only
    split
    · rename_i hk
      subst hk
      rw [HMap.get?_insert, if_neg]
      intro e
      exact hne (by rw [e])
    · rfl

/-- Concrete case: `ce0` and `ce1` are taken, the style gets the name `ce2`. -/
example : (match ({} : Stores Nat).run [.add .cell ⟨"ce1".toList, 1⟩, .add .cell ⟨[], 2⟩, .remove .row "ce0".toList,
    .add .row ⟨"ce2".toList, 3⟩, .add .cell ⟨[], 4⟩] with
    | .ok (_, rs) => rs
    | .error _ => []) = [some "ce1".toList, some "ce0".toList, none, some "ce2".toList, some "ce2".toList] := by
  decide +kernel

/-- C40, for every state of the stores, whatever way it came about (e.g. from a file): if the counter does
not overflow the name is new, and nothing else changes. -/
theorem C40_any_state (b b' : Stores β) (k : Kind) (body : β) (r : Str)
    (h : b.add k ⟨[], body⟩ = .ok (b', r)) :
    b.get? k r = none ∧ b'.get? k r = some ⟨r, body⟩
      ∧ ∀ k' n, (k', n) ≠ (k, r) → b'.get? k' n = b.get? k' n := by
  unfold Stores.add autoName at h
  rw [if_pos rfl] at h
  simp only at h
  generalize hcnt : startCount b.autonum k.prefix = cnt at h
  cases hs : searchName k.prefix (fun n => (b.store k).contains n) ((b.store k).length + 1) cnt with
  | error e => rw [hs] at h; cases h
  | ok c =>
    rw [hs] at h
    simp only at h
    have hfree : ∀ (fuel cnt c : Nat), searchName k.prefix (fun n => (b.store k).contains n) fuel cnt = .ok c →
        (b.store k).contains (k.prefix ++ decNat c) = false := by
      intro fuel
      induction fuel with
      | zero => intro cnt c h; cases h
      | succ fuel ih =>
        intro cnt c h
        unfold searchName at h
        split at h
        · cases h
        · split at h
          · exact ih _ _ h
          · rename_i hu
            cases h
            simpa using hu
    have hc := hfree _ _ _ hs
    obtain ⟨rfl, rfl⟩ := Prod.mk.inj (Except.ok.inj h)
    refine ⟨?_, ?_, ?_⟩
    · unfold Stores.get?
      unfold HMap.contains at hc
      cases hg : HMap.get? (b.store k) (k.prefix ++ decNat c) with
      | none => rfl
      | some s => rw [hg] at hc; cases hc
    · unfold Stores.get?
      rw [get_setStore, if_pos rfl, HMap.get?_insert, if_pos rfl]
    · intro k' n hne
      unfold Stores.get?
      rw [get_setStore]
      split
      · rename_i hk
        subst hk
        rw [HMap.get?_insert, if_neg]
        intro e
        exact hne (by rw [e])
      · rfl

/-! ## C41 -/

/-- Specification: what is found under a name after a history, given the references that `add` returned: the
style last added with this reference, with the changes made to it since, unless it was removed. -/
def lastAdded (k : Kind) (n : Str) : Option (Style β) → List (StoreOp β) → List (Option Str) → Option (Style β)
  | r, .add k' s :: os, some m :: rs =>
    lastAdded k n (if k' = k ∧ m = n then some { s with name := m } else r) os rs
  | r, .remove k' m :: os, _ :: rs => lastAdded k n (if k' = k ∧ m = n then none else r) os rs
  | r, .modify k' m f :: os, _ :: rs => lastAdded k n (if k' = k ∧ m = n then r.map f else r) os rs
  | r, _, _ => r

theorem add_get (b b' : Stores β) (k : Kind) (s : Style β) (r : Str) (h : b.add k s = .ok (b', r)) :
    (s.name ≠ [] → r = s.name)
    ∧ ∀ k' n, b'.get? k' n = if k = k' ∧ r = n then some { s with name := r } else b.get? k' n := by
  have key : ∀ (b0 : Stores β) (hb0 : b0.store = b.store), b' = b0.setStore k ((b.store k).insert r { s with name := r }) →
      ∀ k' n, b'.get? k' n = if k = k' ∧ r = n then some { s with name := r } else b.get? k' n := by
    intro b0 hb0 hb' k' n
    subst hb'
    unfold Stores.get?
    rw [get_setStore, hb0]
    by_cases hk : k' = k
    · subst hk
      rw [if_pos rfl, HMap.get?_insert]
      by_cases hn : r = n
      · rw [if_pos hn, if_pos ⟨rfl, hn⟩]
      · rw [if_neg hn, if_neg (fun h => hn h.2)]
    · rw [if_neg hk, if_neg (fun h => hk h.1.symm)]
  unfold Stores.add at h
  split at h
  · rename_i hn
    refine ⟨fun h' => absurd hn h', ?_⟩
    cases ha : autoName b.autonum k.prefix (b.store k) with
    | error e => rw [ha] at h; cases h
    | ok p =>
      obtain ⟨an, m⟩ := p
      rw [ha] at h
      simp only at h
      obtain ⟨h1, rfl⟩ := Prod.mk.inj (Except.ok.inj h)
      exact key { b with autonum := an } rfl h1.symm
  · obtain ⟨h1, rfl⟩ := Prod.mk.inj (Except.ok.inj h)
    exact ⟨fun _ => rfl, key b rfl h1.symm⟩

theorem run_get (os : List (StoreOp β)) : ∀ (b b' : Stores β) (rs : List (Option Str)),
    b.run os = .ok (b', rs) → ∀ k n, b'.get? k n = lastAdded k n (b.get? k n) os rs := by
  induction os with
  | nil =>
    intro b b' rs h k n
    cases h
    rfl
  | cons o os ih =>
    intro b b' rs h k n
    unfold Stores.run at h
    cases hs : b.step o with
    | error e => rw [hs] at h; cases h
    | ok p =>
      obtain ⟨b1, r⟩ := p
      rw [hs] at h
      simp only at h
      cases hr : b1.run os with
      | error e => rw [hr] at h; cases h
      | ok q =>
        obtain ⟨b2, rs'⟩ := q
        rw [hr] at h
        simp only at h
        obtain ⟨rfl, rfl⟩ := Prod.mk.inj (Except.ok.inj h)
        rw [ih b1 b2 rs' hr k n]
        cases o with
        | add k' s =>
          simp only [Stores.step] at hs
          cases ha : b.add k' s with
          | error e => rw [ha] at hs; cases hs
          | ok q =>
            obtain ⟨b3, m⟩ := q
            rw [ha] at hs
            simp only at hs
            obtain ⟨rfl, rfl⟩ := Prod.mk.inj (Except.ok.inj hs)
            rw [(add_get b b3 k' s m ha).2 k n]
            rfl
        | remove k' m =>
          obtain ⟨rfl, rfl⟩ := Prod.mk.inj (Except.ok.inj hs)
          show lastAdded k n (((b.remove k' m).1).get? k n) os rs' = lastAdded k n _ os rs'
          congr 1
          unfold Stores.remove Stores.get?
          rw [get_setStore]
          by_cases hk : k = k'
          · subst hk
            rw [if_pos rfl, HMap.get?_remove]
            by_cases hn : m = n
            · rw [if_pos hn, if_pos ⟨rfl, hn⟩]
            · rw [if_neg hn, if_neg (fun h => hn h.2)]
          · rw [if_neg hk, if_neg (fun h => hk h.1.symm)]
        | modify k' m f =>
          obtain ⟨rfl, rfl⟩ := Prod.mk.inj (Except.ok.inj hs)
          show lastAdded k n ((b.modify k' m f).get? k n) os rs' = lastAdded k n _ os rs'
          congr 1
          unfold Stores.modify Stores.get?
          rw [get_setStore]
          by_cases hk : k = k'
          · subst hk
            rw [if_pos rfl, HMap.get?_modify]
            by_cases hn : m = n
            · rw [if_pos hn, if_pos ⟨rfl, hn⟩]
            · rw [if_neg hn, if_neg (fun h => hn h.2)]
          · rw [if_neg hk, if_neg (fun h => hk h.1.symm)]

/-- **C41**: after any history of fewer than 2³² calls, looking up a reference gives the style last added
under it, with the changes made since, or nothing if it was removed; styles under other names and of other
kinds are untouched. -/
theorem C41_map (os : List (StoreOp β)) (h : os.length < 4294967296) :
    ∃ b rs, ({} : Stores β).run os = .ok (b, rs) ∧ ∀ k n, b.get? k n = lastAdded k n none os rs := by
  obtain ⟨b, rs, _, h1, _, _⟩ := run_seen os {} (fun _ => []) 0 (new_seen (β := β)) (fun _ => Nat.le_refl _)
    (by unfold u32Max1; omega)
  exact ⟨b, rs, h1, run_get os {} b rs h1⟩

/-- C41: the reference returned from `add` finds the style just added; a style with a name keeps it. -/
theorem C41_reference (b b' : Stores β) (k : Kind) (s : Style β) (r : Str) (h : b.add k s = .ok (b', r)) :
    b'.get? k r = some { s with name := r } ∧ (s.name ≠ [] → r = s.name) := by
  refine ⟨?_, (add_get b b' k s r h).1⟩
  rw [(add_get b b' k s r h).2, if_pos ⟨rfl, rfl⟩]

/-- C41: `remove` gives the style that was there. -/
theorem C41_remove (b : Stores β) (k : Kind) (n : Str) :
    (b.remove k n).2 = b.get? k n ∧ (b.remove k n).1.get? k n = none := by
  refine ⟨rfl, ?_⟩
  unfold Stores.remove Stores.get?
  rw [get_setStore, if_pos rfl, HMap.get?_remove, if_pos rfl]

/-- Renaming a style with `*_mut` and `set_name` does not move it: it is found under its old name only, and
its reference (`style_ref`) is wrong. -/
theorem C41_rename_counterexample :
    ∃ b, (({} : Stores Nat).run [.add .cell ⟨"a".toList, 1⟩, .modify .cell "a".toList (fun s => { s with name := "b".toList })])
        = .ok (b, [some "a".toList, none])
      ∧ (b.get? .cell "a".toList).map (·.name) = some "b".toList ∧ (b.get? .cell "b".toList).isNone = true := by
  exact ⟨_, rfl, by decide, by decide⟩

end Verif.Book
