import Verif.Base

/-!
# Hash maps

`HashMap<K, V>` of the Rust standard library is modelled as an association list with one entry per key.
The order of the entries is not observable: nothing that is proved depends on it.
-/

set_option autoImplicit false

namespace Verif.Book

/-- `HashMap`. -/
abbrev HMap (K V : Type) := List (K × V)

namespace HMap

variable {K V : Type} [DecidableEq K]

/-- `HashMap::get`. -/
def get? : HMap K V → K → Option V
  | [], _ => none
  | (k, v) :: m, j => if k = j then some v else get? m j

/-- `HashMap::remove`. -/
def remove (m : HMap K V) (k : K) : HMap K V := m.filter (fun e => e.1 ≠ k)

/-- `HashMap::insert`. -/
def insert (m : HMap K V) (k : K) (v : V) : HMap K V := (k, v) :: remove m k

/-- `HashMap::contains_key`. -/
def contains (m : HMap K V) (k : K) : Bool := (get? m k).isSome

/-- `HashMap::get_mut` with a change of the value. -/
def modify (m : HMap K V) (k : K) (f : V → V) : HMap K V := m.map (fun e => if e.1 = k then (k, f e.2) else e)

/-- `HashMap::keys`. -/
def keys (m : HMap K V) : List K := m.map Prod.fst

theorem get?_remove (m : HMap K V) (k j : K) : get? (remove m k) j = if k = j then none else get? m j := by
  induction m with
  | nil => simp [remove, get?]
  | cons e m ih =>
    obtain ⟨a, v⟩ := e
    unfold remove at *
    by_cases h : a = k
    · rw [List.filter_cons_of_neg (by simpa using h), ih, get?]
      subst h
      by_cases hj : a = j
      · rw [if_pos hj, if_pos hj]
      · rw [if_neg hj, if_neg hj, if_neg hj]
    · rw [List.filter_cons_of_pos (by simpa using h), get?, get?, ih]
      by_cases hj : a = j
      · subst hj
        rw [if_pos rfl, if_pos rfl, if_neg (Ne.symm h)]
      · rw [if_neg hj, if_neg hj]

theorem get?_insert (m : HMap K V) (k j : K) (v : V) :
    get? (insert m k v) j = if k = j then some v else get? m j := by
  unfold insert
  rw [get?, get?_remove]
  split <;> rfl

theorem get?_modify (m : HMap K V) (k j : K) (f : V → V) :
    get? (modify m k f) j = if k = j then (get? m j).map f else get? m j := by
  induction m with
  | nil => simp [modify, get?]
  | cons e m ih =>
    obtain ⟨a, v⟩ := e
    unfold modify at *
    rw [List.map_cons]
    by_cases h : a = k
    · subst h
      rw [if_pos rfl, get?, get?, ih]
      by_cases hj : a = j
      · simp [hj]
      · simp [hj]
    · simp only [if_neg h]
      rw [get?, get?, ih]
      by_cases hj : a = j
      · subst hj; rw [if_pos rfl, if_pos rfl, if_neg (Ne.symm h)]
      · rw [if_neg hj, if_neg hj]

theorem mem_keys (m : HMap K V) (k : K) : k ∈ keys m ↔ contains m k = true := by
  induction m with
  | nil => simp [keys, contains, get?]
  | cons e m ih =>
    obtain ⟨a, v⟩ := e
    unfold keys contains at *
    rw [List.map_cons, List.mem_cons, ih, get?]
    by_cases h : a = k
    · subst h; simp
    · rw [if_neg h]
      constructor
      · rintro (h' | h')
        · exact absurd h'.symm h
        · exact h'
      · exact .inr

theorem keys_modify (m : HMap K V) (k : K) (f : V → V) : keys (modify m k f) = keys m := by
  unfold keys modify
  rw [List.map_map]
  apply List.map_congr_left
  intro e _
  show Prod.fst (if e.1 = k then (k, f e.2) else e) = e.1
  split
  · rename_i h; exact h.symm
  · rfl

theorem keys_remove (m : HMap K V) (k j : K) (h : j ∈ keys (remove m k)) : j ∈ keys m := by
  unfold keys remove at *
  obtain ⟨e, he, rfl⟩ := List.mem_map.1 h
  exact List.mem_map.2 ⟨e, (List.mem_filter.1 he).1, rfl⟩

/-- One entry per key. -/
def Distinct (m : HMap K V) : Prop := (keys m).Nodup

theorem distinct_remove (m : HMap K V) (k : K) (h : Distinct m) : Distinct (remove m k) :=
  List.Sublist.nodup (List.Sublist.map _ List.filter_sublist) h

theorem distinct_insert (m : HMap K V) (k : K) (v : V) (h : Distinct m) : Distinct (insert m k v) := by
  show (k :: keys (remove m k)).Nodup
  refine List.nodup_cons.2 ⟨?_, distinct_remove m k h⟩
  intro hm
  obtain ⟨e, he, hk⟩ := List.mem_map.1 hm
  have := (List.mem_filter.1 he).2
  simp [hk] at this

theorem get?_mem (m : HMap K V) (k : K) (v : V) (h : get? m k = some v) : (k, v) ∈ m := by
  induction m with
  | nil => cases h
  | cons e m ih =>
    obtain ⟨a, w⟩ := e
    rw [get?] at h
    split at h
    · rename_i hk
      obtain rfl := Option.some.inj h
      rw [hk]
      exact List.mem_cons_self
    · exact List.mem_cons_of_mem _ (ih h)

theorem get?_of_mem (m : HMap K V) (hd : Distinct m) (k : K) (v : V) (h : (k, v) ∈ m) : get? m k = some v := by
  induction m with
  | nil => cases h
  | cons e m ih =>
    obtain ⟨a, w⟩ := e
    have hd' := List.nodup_cons.1 hd
    rw [get?]
    rcases List.mem_cons.1 h with h | h
    · cases h; rw [if_pos rfl]
    · rw [if_neg, ih hd'.2 h]
      intro e
      subst e
      exact hd'.1 (List.mem_map.2 ⟨_, h, rfl⟩)

end HMap

/-- A list without duplicates within another list is not longer. -/
theorem nodup_length_le {α : Type} [DecidableEq α] : ∀ (l m : List α), l.Nodup → (∀ x ∈ l, x ∈ m) →
    l.length ≤ m.length := by
  intro l
  induction l with
  | nil => intro m _ _; exact Nat.zero_le _
  | cons a l ih =>
    intro m hn hs
    have hn' := List.nodup_cons.1 hn
    have ha : a ∈ m := hs a List.mem_cons_self
    have := ih (m.erase a) hn'.2 (by
      intro x hx
      have hxa : x ≠ a := by
        intro e; subst e; exact hn'.1 hx
      exact (List.mem_erase_of_ne hxa).2 (hs x (List.mem_cons_of_mem _ hx)))
    rw [List.length_erase_of_mem ha] at this
    have : 0 < m.length := List.length_pos_of_mem ha
    simp only [List.length_cons]
    omega

end Verif.Book
