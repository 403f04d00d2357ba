import Verif.Book.HMap

/-!
# The insertion-ordered maps of the configuration (src/config.rs)
-/

set_option autoImplicit false

namespace Verif.Config

open Book

/-- `ConfigMap`, src/config.rs:99-102: the entries in the order of insertion, and the position of each
key. -/
structure CMap (α : Type) where
  index : HMap Str Nat := []
  values : List (Str × α) := []

namespace CMap

variable {α : Type}

/-- `ConfigMap::insert`, src/config.rs:120-139; `none` is the `unreachable!()`. -/
def insert (m : CMap α) (k : Str) (v : α) : Option (CMap α) :=
  match m.index.get? k with
  | some i =>
    match m.values[i]? with
    | some e => some { m with values := m.values.set i (e.1, v) }
    | none => none
  | none =>
    let values := m.values ++ [(k, v)]
    some ⟨m.index.insert k (values.length - 1), values⟩

/-- `ConfigMap::get`, src/config.rs:142-153. -/
def get (m : CMap α) (k : Str) : Option α :=
  match m.index.get? k with
  | some i => m.values[i]?.map (·.2)
  | none => none

/-- `ConfigMap::get_or_create`, src/config.rs:156-174, with a change of the item that is returned; `none`
is the panic of `unwrap`. -/
def getOrCreate (m : CMap α) (k : Str) (d : α) (f : α → α) : Option (CMap α) :=
  let (i, m) : Nat × CMap α :=
    match m.index.get? k with
    | some i => (i, m)
    | none => (m.values.length, ⟨m.index.insert k m.values.length, m.values ++ [(k, d)]⟩)
  match m.values[i]? with
  | some e => some { m with values := m.values.set i (e.1, f e.2) }
  | none => none

/-- `ConfigMap::iter`, src/config.rs:113-117, 177-191. -/
def iter (m : CMap α) : List (Str × α) := m.values

end CMap

/-! ## What such a map is -/

/-- The value of a key. -/
def lookup {α : Type} : List (Str × α) → Str → Option α
  | [], _ => none
  | (k, v) :: m, j => if k = j then some v else lookup m j

/-- The value of a key is replaced where it is, or a new one comes last. -/
def put {α : Type} : List (Str × α) → Str → α → List (Str × α)
  | [], k, v => [(k, v)]
  | (j, w) :: m, k, v => if j = k then (j, v) :: m else (j, w) :: put m k v

/-- The keys are different. -/
def Distinct {α : Type} (m : List (Str × α)) : Prop := (m.map (·.1)).Nodup

/-- The operations on a map. -/
inductive MapOp (α : Type) where
  | insert (k : Str) (v : α)
  | getOrCreate (k : Str) (d : α) (f : α → α)

/-- The operations of the code. -/
def runMap {α : Type} : CMap α → List (MapOp α) → Option (CMap α)
  | m, [] => some m
  | m, .insert k v :: os => (m.insert k v).bind (runMap · os)
  | m, .getOrCreate k d f :: os => (m.getOrCreate k d f).bind (runMap · os)

/-- What they are to do. -/
def runSpec {α : Type} : List (Str × α) → List (MapOp α) → List (Str × α)
  | m, [] => m
  | m, .insert k v :: os => runSpec (put m k v) os
  | m, .getOrCreate k d f :: os => runSpec (put m k (f ((lookup m k).getD d))) os

/-! ## Lemmas -/

section
variable {α : Type}

theorem lookup_put (m : List (Str × α)) (k j : Str) (v : α) :
    lookup (put m k v) j = if k = j then some v else lookup m j := by
  induction m with
  | nil => rfl
  | cons e m ih =>
    obtain ⟨a, w⟩ := e
    rw [put]
    by_cases h : a = k
    · subst h
      rw [if_pos rfl, lookup, lookup]
      by_cases hj : a = j
      · rw [if_pos hj, if_pos hj]
      · rw [if_neg hj, if_neg hj, if_neg hj]
    · rw [if_neg h, lookup, lookup, ih]
      by_cases hj : a = j
      · subst hj; rw [if_pos rfl, if_pos rfl, if_neg (Ne.symm h)]
      · rw [if_neg hj, if_neg hj]

theorem lookup_none (m : List (Str × α)) (k : Str) : lookup m k = none ↔ k ∉ m.map (·.1) := by
  induction m with
  | nil => simp [lookup]
  | cons e m ih =>
    obtain ⟨a, w⟩ := e
    rw [lookup]
    by_cases h : a = k
    · simp [h]
    · rw [if_neg h, ih]; simp [Ne.symm h]

theorem lookup_mem (m : List (Str × α)) (k : Str) (v : α) (h : lookup m k = some v) : (k, v) ∈ m := by
  induction m with
  | nil => cases h
  | cons e m ih =>
    obtain ⟨a, w⟩ := e
    rw [lookup] at h
    by_cases hk : a = k
    · rw [if_pos hk] at h; cases h; subst hk; exact List.mem_cons_self
    · rw [if_neg hk] at h; exact List.mem_cons_of_mem _ (ih h)

theorem mem_lookup (m : List (Str × α)) (hd : Distinct m) (k : Str) (v : α) (h : (k, v) ∈ m) :
    lookup m k = some v := by
  induction m with
  | nil => cases h
  | cons e m ih =>
    obtain ⟨a, w⟩ := e
    have hd' := List.nodup_cons.1 hd
    rw [lookup]
    rcases List.mem_cons.1 h with e | h
    · cases e; rw [if_pos rfl]
    · have : a ≠ k := by
        rintro rfl
        exact hd'.1 (List.mem_map.2 ⟨_, h, rfl⟩)
      rw [if_neg this]; exact ih hd'.2 h

theorem put_keys (m : List (Str × α)) (k : Str) (v : α) :
    (put m k v).map (·.1) = if k ∈ m.map (·.1) then m.map (·.1) else m.map (·.1) ++ [k] := by
  induction m with
  | nil => simp [put]
  | cons e m ih =>
    obtain ⟨a, w⟩ := e
    rw [put]
    by_cases h : a = k
    · simp [h]
    · rw [if_neg h, List.map_cons, ih]
      rw [List.map_cons]
      by_cases hm : k ∈ m.map (·.1)
      · rw [if_pos hm, if_pos (List.mem_cons_of_mem _ hm)]
      · rw [if_neg hm, if_neg]
        · rfl
        · intro hh
          rcases List.mem_cons.1 hh with e | e
          · exact h e.symm
          · exact hm e

theorem distinct_put (m : List (Str × α)) (k : Str) (v : α) (h : Distinct m) : Distinct (put m k v) := by
  unfold Distinct
  rw [put_keys]
  split
  · exact h
  · rename_i hm
    rw [List.nodup_append]
    refine ⟨h, by simp, ?_⟩
    intro a ha b hb e
    simp only [List.mem_singleton] at hb
    subst hb; subst e
    exact hm ha

theorem put_new (m : List (Str × α)) (k : Str) (v : α) (h : k ∉ m.map (·.1)) : put m k v = m ++ [(k, v)] := by
  induction m with
  | nil => rfl
  | cons e m ih =>
    obtain ⟨a, w⟩ := e
    rw [put, if_neg (fun e => h (by simp [e])), ih (fun hm => h (List.mem_cons_of_mem _ hm))]
    rfl

theorem put_at (m : List (Str × α)) (hd : Distinct m) (i : Nat) (k : Str) (w v : α) (h : m[i]? = some (k, w)) :
    put m k v = m.set i (k, v) := by
  induction m generalizing i with
  | nil => cases h
  | cons e m ih =>
    obtain ⟨a, u⟩ := e
    have hd' := List.nodup_cons.1 hd
    cases i with
    | zero =>
      simp only [List.getElem?_cons_zero, Option.some.injEq, Prod.mk.injEq] at h
      rw [put, if_pos h.1, h.1]; rfl
    | succ i =>
      rw [List.getElem?_cons_succ] at h
      have : a ≠ k := by
        rintro rfl
        exact hd'.1 (List.mem_map.2 ⟨_, List.mem_of_getElem? h, rfl⟩)
      rw [put, if_neg this, ih hd'.2 i h]; rfl

theorem lookup_at (m : List (Str × α)) (hd : Distinct m) (i : Nat) (k : Str) (w : α) (h : m[i]? = some (k, w)) :
    lookup m k = some w := mem_lookup m hd k w (List.mem_of_getElem? h)

/-- The index is that of the entries. -/
def CMap.Inv (m : CMap α) : Prop :=
  Distinct m.values ∧ ∀ k i, m.index.get? k = some i ↔ (m.values[i]?.map (·.1)) = some k

theorem CMap.inv_new : ({} : CMap α).Inv := by
  refine ⟨List.nodup_nil, ?_⟩
  intro k i
  simp [HMap.get?]

theorem CMap.get_eq (m : CMap α) (h : m.Inv) (k : Str) : m.get k = lookup m.values k := by
  unfold CMap.get
  cases hi : m.index.get? k with
  | none =>
    symm
    rw [lookup_none]
    intro hm
    obtain ⟨e, he, hk⟩ := List.mem_map.1 hm
    obtain ⟨i, hi'⟩ := List.mem_iff_getElem?.1 he
    have := (h.2 k i).2 (by rw [hi']; exact congrArg some hk)
    rw [hi] at this; cases this
  | some i =>
    have := (h.2 k i).1 hi
    cases he : m.values[i]? with
    | none => rw [he] at this; cases this
    | some e =>
      rw [he] at this
      simp only [Option.map_some, Option.some.injEq] at this ⊢
      rw [lookup_at m.values h.1 i k e.2 (by rw [he, ← this])]
      simp [he]

/-- An entry that exists. -/
theorem CMap.set_inv (m : CMap α) (h : m.Inv) (k : Str) (i : Nat) (hi : m.index.get? k = some i) :
    ∃ w, m.values[i]? = some (k, w) ∧ ∀ v, CMap.Inv { m with values := m.values.set i (k, v) }
      ∧ m.values.set i (k, v) = put m.values k v := by
  have := (h.2 k i).1 hi
  cases he : m.values[i]? with
  | none => rw [he] at this; cases this
  | some e =>
    rw [he] at this
    obtain ⟨k', w⟩ := e
    simp only [Option.map_some, Option.some.injEq] at this
    subst this
    refine ⟨w, rfl, ?_⟩
    intro v
    have hp := put_at m.values h.1 i k' w v he
    refine ⟨⟨?_, ?_⟩, hp.symm⟩
    · show Distinct (m.values.set i (k', v))
      rw [← hp]; exact distinct_put _ _ _ h.1
    · intro j n
      show m.index.get? j = some n ↔ ((m.values.set i (k', v))[n]?.map (·.1)) = some j
      rw [h.2 j n, List.getElem?_set]
      by_cases hn : i = n
      · subst hn
        rw [he]
        have hlt : i < m.values.length := by
          have := List.getElem?_eq_some_iff.1 he
          exact this.1
        simp [hlt]
      · rw [if_neg hn]

/-- An entry that is new. -/
theorem CMap.push_inv (m : CMap α) (h : m.Inv) (k : Str) (hi : m.index.get? k = none) (v : α) :
    CMap.Inv ⟨m.index.insert k m.values.length, m.values ++ [(k, v)]⟩
      ∧ m.values ++ [(k, v)] = put m.values k v := by
  have hk : k ∉ m.values.map (·.1) := by
    intro hm
    obtain ⟨e, he, hk⟩ := List.mem_map.1 hm
    obtain ⟨i, hi'⟩ := List.mem_iff_getElem?.1 he
    have := (h.2 k i).2 (by rw [hi']; exact congrArg some hk)
    rw [hi] at this; cases this
  have hp := put_new m.values k v hk
  refine ⟨⟨?_, ?_⟩, hp.symm⟩
  · show Distinct (m.values ++ [(k, v)])
    rw [← hp]; exact distinct_put _ _ _ h.1
  · intro j n
    show (m.index.insert k m.values.length).get? j = some n ↔ ((m.values ++ [(k, v)])[n]?.map (·.1)) = some j
    rw [HMap.get?_insert]
    by_cases hj : k = j
    · subst hj
      rw [if_pos rfl]
      constructor
      · intro e
        have e := Option.some.inj e
        subst e
        simp
      · intro e
        by_cases hn : n < m.values.length
        · rw [List.getElem?_append_left hn] at e
          rw [← h.2] at e
          rw [hi] at e; cases e
        · rw [List.getElem?_append_right (by omega)] at e
          by_cases hz : n - m.values.length = 0
          · exact congrArg some (by omega)
          · exfalso
            have : n - m.values.length = (n - m.values.length - 1) + 1 := by omega
            rw [this] at e
            simp at e
    · rw [if_neg hj, h.2]
      by_cases hn : n < m.values.length
      · rw [List.getElem?_append_left hn]
      · rw [List.getElem?_append_right (by omega), List.getElem?_eq_none (by omega)]
        constructor
        · intro e; cases e
        · intro e
          by_cases hz : n - m.values.length = 0
          · rw [hz] at e; simp at e; exact absurd e hj
          · have : n - m.values.length = (n - m.values.length - 1) + 1 := by omega
            rw [this] at e
            simp at e

theorem CMap.insert_spec (m : CMap α) (h : m.Inv) (k : Str) (v : α) :
    ∃ m', m.insert k v = some m' ∧ m'.Inv ∧ m'.values = put m.values k v := by
  unfold CMap.insert
  cases hi : m.index.get? k with
  | some i =>
    obtain ⟨w, he, hw⟩ := CMap.set_inv m h k i hi
    simp only [he]
    exact ⟨_, rfl, (hw v).1, (hw v).2⟩
  | none =>
    obtain ⟨h1, h2⟩ := CMap.push_inv m h k hi v
    simp only [List.length_append, List.length_cons, List.length_nil, Nat.zero_add, Nat.add_sub_cancel]
    exact ⟨_, rfl, h1, h2⟩

theorem CMap.getOrCreate_spec (m : CMap α) (h : m.Inv) (k : Str) (d : α) (f : α → α) :
    ∃ m', m.getOrCreate k d f = some m' ∧ m'.Inv ∧ m'.values = put m.values k (f ((lookup m.values k).getD d)) := by
  unfold CMap.getOrCreate
  cases hi : m.index.get? k with
  | some i =>
    obtain ⟨w, he, hw⟩ := CMap.set_inv m h k i hi
    simp only [he]
    rw [lookup_at m.values h.1 i k w he]
    exact ⟨_, rfl, (hw (f w)).1, (hw (f w)).2⟩
  | none =>
    obtain ⟨h1, h2⟩ := CMap.push_inv m h k hi d
    have hi' : (m.index.insert k m.values.length).get? k = some m.values.length := by
      rw [HMap.get?_insert, if_pos rfl]
    obtain ⟨w, he, hw⟩ := CMap.set_inv _ h1 k m.values.length hi'
    have hwd : w = d := by
      simp at he; exact he.symm
    subst hwd
    simp only [he]
    have hl : lookup m.values k = none := by rw [← CMap.get_eq m h, CMap.get, hi]
    rw [hl]
    refine ⟨_, rfl, (hw (f w)).1, ?_⟩
    show (m.values ++ [(k, w)]).set m.values.length (k, f w) = _
    rw [(hw (f w)).2]
    show put (m.values ++ [(k, w)]) k (f w) = put m.values k (f w)
    have hk : k ∉ m.values.map (·.1) := (lookup_none _ _).1 hl
    rw [put_new m.values k (f w) hk]
    have gen : ∀ l : List (Str × α), k ∉ l.map (·.1) → put (l ++ [(k, w)]) k (f w) = l ++ [(k, f w)] := by
      intro l
      induction l with
      | nil => intro _; simp [put]
      | cons e l ih =>
        intro hk
        obtain ⟨a, u⟩ := e
        rw [List.cons_append, put, if_neg (fun e => hk (by simp [e])), ih (fun hm => hk (List.mem_cons_of_mem _ hm))]
        rfl
    exact gen m.values hk

/-- **C45, the maps.**  For every history: nothing panics; iterating gives the entries in the order in
which their keys came first, each with its last value; and `get` returns the value of the key. -/
theorem C45_map (os : List (MapOp α)) : ∃ m, runMap ({} : CMap α) os = some m
    ∧ m.iter = runSpec [] os ∧ ∀ k, m.get k = lookup (runSpec [] os) k := by
  have key : ∀ (os : List (MapOp α)) (m : CMap α), m.Inv →
      ∃ m', runMap m os = some m' ∧ m'.Inv ∧ m'.values = runSpec m.values os := by
    intro os
    induction os with
    | nil => intro m h; exact ⟨m, rfl, h, rfl⟩
    | cons o os ih =>
      intro m h
      cases o with
      | insert k v =>
        obtain ⟨m1, e1, h1, v1⟩ := CMap.insert_spec m h k v
        obtain ⟨m2, e2, h2, v2⟩ := ih m1 h1
        exact ⟨m2, by rw [runMap, e1]; exact e2, h2, by rw [runSpec, ← v1]; exact v2⟩
      | getOrCreate k d f =>
        obtain ⟨m1, e1, h1, v1⟩ := CMap.getOrCreate_spec m h k d f
        obtain ⟨m2, e2, h2, v2⟩ := ih m1 h1
        exact ⟨m2, by rw [runMap, e1]; exact e2, h2, by rw [runSpec, ← v1]; exact v2⟩
  obtain ⟨m, e, h, v⟩ := key os {} CMap.inv_new
  refine ⟨m, e, v, ?_⟩
  intro k
  rw [CMap.get_eq m h, v]

/-- Three operations. -/
example : (runMap ({} : CMap Nat) [.insert "a".toList 1, .getOrCreate "b".toList 5 (· + 1), .insert "a".toList 3]).map CMap.iter
    = some [("a".toList, 3), ("b".toList, 6)] := by decide

end

end Verif.Config
