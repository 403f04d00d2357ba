/-!
# Ordered maps

`BTreeMap<K, V>` of the Rust standard library is modelled as an association list that is strictly
increasing in its keys.  The operations used by the code (`insert`, `get`, `remove`,
`entry(..).or_default()`, `range`, `keys`, `last`) are the functions below.
-/

set_option autoImplicit false
set_option linter.unusedSectionVars false

namespace Verif

/-- Strings are lists of characters (Unicode scalar values), as for Rust's `str::chars`. -/
abbrev Str := List Char

/-- Equality of results is decidable. -/
instance decEqExcept {ε α : Type} [DecidableEq ε] [DecidableEq α] : DecidableEq (Except ε α)
  | .ok a, .ok b => if h : a = b then isTrue (by rw [h]) else isFalse (by simpa using h)
  | .error a, .error b => if h : a = b then isTrue (by rw [h]) else isFalse (by simpa using h)
  | .ok _, .error _ => isFalse (by simp)
  | .error _, .ok _ => isFalse (by simp)

/-- A key type with a decidable strict total order (`Ord` in Rust). -/
class Key (K : Type) [DecidableEq K] where
  lt : K → K → Bool
  lt_irrefl : ∀ a, lt a a = false
  lt_trans : ∀ a b c, lt a b = true → lt b c = true → lt a c = true
  lt_tri : ∀ a b, lt a b = true ∨ a = b ∨ lt b a = true

instance : Key Nat where
  lt a b := decide (a < b)
  lt_irrefl := by intro a; simp
  lt_trans := by intro a b c; simp; omega
  lt_tri := by intro a b; simp; omega

/-- `(u32, u32)` is ordered lexicographically: row first, then column. -/
instance : Key (Nat × Nat) where
  lt a b := decide (a.1 < b.1) || (decide (a.1 = b.1) && decide (a.2 < b.2))
  lt_irrefl := by intro a; simp
  lt_trans := by intro ⟨a, a'⟩ ⟨b, b'⟩ ⟨c, c'⟩; simp; omega
  lt_tri := by
    intro ⟨a, a'⟩ ⟨b, b'⟩
    simp only [Bool.or_eq_true, decide_eq_true_eq, Bool.and_eq_true, Prod.mk.injEq]
    omega

@[simp] theorem Key.lt_nat (a b : Nat) : (Key.lt a b = true) = (a < b) := by
  show (decide (a < b) = true) = _; simp

theorem Key.lt_pair (a b : Nat × Nat) :
    (Key.lt a b = true) ↔ (a.1 < b.1 ∨ (a.1 = b.1 ∧ a.2 < b.2)) := by
  show ((decide (a.1 < b.1) || (decide (a.1 = b.1) && decide (a.2 < b.2))) = true) ↔ _
  simp

theorem Key.lt_pair_false (a b : Nat × Nat) :
    (Key.lt a b = false) ↔ ¬ (a.1 < b.1 ∨ (a.1 = b.1 ∧ a.2 < b.2)) := by
  rw [← Key.lt_pair, Bool.not_eq_true]

theorem Key.ne_of_lt {K : Type} [DecidableEq K] [Key K] {a b : K} (h : Key.lt a b = true) : a ≠ b := by
  intro e; subst e; simp [Key.lt_irrefl] at h

theorem Key.not_lt_of_lt {K : Type} [DecidableEq K] [Key K] {a b : K} (h : Key.lt a b = true) : Key.lt b a = false := by
  cases hb : Key.lt b a
  · rfl
  · have := Key.lt_trans _ _ _ h hb
    simp [Key.lt_irrefl] at this

/-- Ordered map: an association list, strictly increasing in its keys (see `OMap.Sorted`). -/
abbrev OMap (K V : Type) := List (K × V)

namespace OMap

variable {K V : Type} [DecidableEq K] [Key K]

/-- Strictly increasing keys. -/
def Sorted (m : OMap K V) : Prop := m.Pairwise (fun a b => Key.lt a.1 b.1 = true)

/-- `BTreeMap::get`. -/
def get? (m : OMap K V) (k : K) : Option V :=
  match m with
  | [] => none
  | (k', v) :: m => if k = k' then some v else get? m k

/-- `BTreeMap::insert`. -/
def insert (m : OMap K V) (k : K) (v : V) : OMap K V :=
  match m with
  | [] => [(k, v)]
  | (k', v') :: m =>
    if k = k' then (k, v) :: m
    else if Key.lt k k' then (k, v) :: (k', v') :: m
    else (k', v') :: insert m k v

/-- `BTreeMap::remove`. -/
def erase (m : OMap K V) (k : K) : OMap K V :=
  match m with
  | [] => []
  | (k', v') :: m => if k = k' then m else (k', v') :: erase m k

/-- `BTreeMap::contains_key`. -/
def contains (m : OMap K V) (k : K) : Bool := (get? m k).isSome

@[simp] theorem get?_nil (k : K) : get? ([] : OMap K V) k = none := rfl

theorem get?_cons (p : K × V) (m : OMap K V) (k : K) :
    get? (p :: m) k = if k = p.1 then some p.2 else get? m k := rfl

theorem sorted_nil : Sorted ([] : OMap K V) := List.Pairwise.nil

theorem Sorted.tail {p : K × V} {m : OMap K V} (h : Sorted (p :: m)) : Sorted m :=
  (List.pairwise_cons.mp h).2

theorem Sorted.head_lt {p : K × V} {m : OMap K V} (h : Sorted (p :: m)) :
    ∀ q ∈ m, Key.lt p.1 q.1 = true := (List.pairwise_cons.mp h).1

theorem get?_eq_none_of_not_mem {m : OMap K V} {k : K} (h : ∀ p ∈ m, p.1 ≠ k) :
    get? m k = none := by
  induction m with
  | nil => rfl
  | cons p m ih =>
    rw [get?_cons, if_neg (fun e => h p (by simp) e.symm)]
    exact ih (fun q hq => h q (by simp [hq]))

theorem get?_eq_some_iff {m : OMap K V} (hm : Sorted m) {k : K} {v : V} :
    get? m k = some v ↔ (k, v) ∈ m := by
  induction m with
  | nil => simp
  | cons p m ih =>
    rw [get?_cons]
    split
    · rename_i e
      constructor
      · intro h; simp at h; subst e; subst h; simp
      · intro h
        rcases List.mem_cons.mp h with h | h
        · rw [← h]
        · have := hm.head_lt _ h
          subst e
          simp [Key.lt_irrefl] at this
    · rename_i e
      rw [ih hm.tail]
      constructor
      · intro h; exact List.mem_cons_of_mem _ h
      · intro h
        rcases List.mem_cons.mp h with h | h
        · exact absurd (by rw [← h]) e
        · exact h

theorem mem_of_get?_eq_some {m : OMap K V} {k : K} {v : V} (h : get? m k = some v) :
    (k, v) ∈ m := by
  induction m with
  | nil => simp at h
  | cons p m ih =>
    rw [get?_cons] at h
    split at h
    · rename_i e; simp at h; subst e; subst h; simp
    · exact List.mem_cons_of_mem _ (ih h)

theorem get?_isSome_of_mem {m : OMap K V} {p : K × V} (h : p ∈ m) :
    (get? m p.1).isSome := by
  induction m with
  | nil => simp at h
  | cons q m ih =>
    rw [get?_cons]
    split
    · simp
    · rename_i e
      rcases List.mem_cons.mp h with h | h
      · exact absurd (by rw [h]) e
      · exact ih h

theorem get?_insert (m : OMap K V) (k k' : K) (v : V) :
    get? (insert m k v) k' = if k' = k then some v else get? m k' := by
  induction m with
  | nil => simp [insert, get?_cons]
  | cons p m ih =>
    obtain ⟨p1, p2⟩ := p
    unfold insert
    split
    · rename_i e; subst e
      simp only [get?_cons]
      split <;> simp
    · rename_i e
      split
      · simp only [get?_cons]
      · simp only [get?_cons, ih]
        split
        · rename_i e2; subst e2
          rw [if_neg (fun h => e h.symm)]
        · rfl

theorem mem_insert {m : OMap K V} {k : K} {v : V} {q : K × V} (h : q ∈ insert m k v) :
    q = (k, v) ∨ q ∈ m := by
  induction m with
  | nil => simp [insert] at h; exact Or.inl h
  | cons p m ih =>
    obtain ⟨p1, p2⟩ := p
    unfold insert at h
    split at h
    · rcases List.mem_cons.mp h with h | h
      · exact Or.inl h
      · exact Or.inr (List.mem_cons_of_mem _ h)
    · split at h
      · rcases List.mem_cons.mp h with h | h
        · exact Or.inl h
        · exact Or.inr h
      · rcases List.mem_cons.mp h with h | h
        · exact Or.inr (by simp [h])
        · rcases ih h with h | h
          · exact Or.inl h
          · exact Or.inr (List.mem_cons_of_mem _ h)

theorem Sorted.insert {m : OMap K V} (hm : Sorted m) (k : K) (v : V) :
    Sorted (OMap.insert m k v) := by
  induction m with
  | nil => simp [OMap.insert, Sorted]
  | cons p m ih =>
    obtain ⟨p1, p2⟩ := p
    have h1 := hm.head_lt
    unfold OMap.insert
    split
    · rename_i e; subst e
      exact List.pairwise_cons.mpr ⟨h1, hm.tail⟩
    · rename_i e
      split
      · rename_i hlt
        refine List.pairwise_cons.mpr ⟨?_, hm⟩
        intro q hq
        rcases List.mem_cons.mp hq with h | h
        · subst h; exact hlt
        · exact Key.lt_trans _ _ _ hlt (h1 _ h)
      · rename_i hlt
        refine List.pairwise_cons.mpr ⟨?_, ih hm.tail⟩
        intro q hq
        rcases mem_insert hq with h | h
        · subst h
          rcases Key.lt_tri k p1 with h | h | h
          · exact absurd h hlt
          · exact absurd h e
          · exact h
        · exact h1 _ h

theorem mem_erase {m : OMap K V} {k : K} {q : K × V} (h : q ∈ erase m k) : q ∈ m := by
  induction m with
  | nil => simp [erase] at h
  | cons p m ih =>
    obtain ⟨p1, p2⟩ := p
    unfold erase at h
    split at h
    · exact List.mem_cons_of_mem _ h
    · rcases List.mem_cons.mp h with h | h
      · simp [h]
      · exact List.mem_cons_of_mem _ (ih h)

theorem Sorted.erase {m : OMap K V} (hm : Sorted m) (k : K) : Sorted (OMap.erase m k) := by
  induction m with
  | nil => simp [OMap.erase, Sorted]
  | cons p m ih =>
    obtain ⟨p1, p2⟩ := p
    unfold OMap.erase
    split
    · exact hm.tail
    · refine List.pairwise_cons.mpr ⟨?_, ih hm.tail⟩
      intro q hq
      exact hm.head_lt _ (mem_erase hq)

theorem get?_erase {m : OMap K V} (hm : Sorted m) (k k' : K) :
    get? (erase m k) k' = if k' = k then none else get? m k' := by
  induction m with
  | nil => simp [erase]
  | cons p m ih =>
    obtain ⟨p1, p2⟩ := p
    unfold erase
    split
    · rename_i e; subst e
      rw [get?_cons]
      split
      · rename_i e2; subst e2
        apply get?_eq_none_of_not_mem
        intro q hq e3
        have := hm.head_lt _ hq
        simp [e3, Key.lt_irrefl] at this
      · rfl
    · rename_i e
      simp only [get?_cons, ih hm.tail]
      split
      · rename_i e2; subst e2
        rw [if_neg (fun h => e h.symm)]
      · rfl

/-- Two sorted maps with the same lookups are equal. -/
theorem ext_of_get? {m n : OMap K V} (hm : Sorted m) (hn : Sorted n)
    (h : ∀ k, get? m k = get? n k) : m = n := by
  induction m generalizing n with
  | nil =>
    cases n with
    | nil => rfl
    | cons q n => have := h q.1; simp [get?_cons] at this
  | cons p m ih =>
    cases n with
    | nil => have := h p.1; simp [get?_cons] at this
    | cons q n =>
      have hpq : p.1 = q.1 := by
        rcases Key.lt_tri p.1 q.1 with hl | he | hl
        · have h1 := h p.1
          have : get? (q :: n) p.1 = none := by
            apply get?_eq_none_of_not_mem
            intro r hr e
            rcases List.mem_cons.mp hr with hr | hr
            · subst hr; rw [← e] at hl; simp [Key.lt_irrefl] at hl
            · have := Key.lt_trans _ _ _ hl (hn.head_lt _ hr)
              rw [e] at this; simp [Key.lt_irrefl] at this
          rw [this] at h1; simp [get?_cons] at h1
        · exact he
        · have h1 := h q.1
          have : get? (p :: m) q.1 = none := by
            apply get?_eq_none_of_not_mem
            intro r hr e
            rcases List.mem_cons.mp hr with hr | hr
            · subst hr; rw [← e] at hl; simp [Key.lt_irrefl] at hl
            · have := Key.lt_trans _ _ _ hl (hm.head_lt _ hr)
              rw [e] at this; simp [Key.lt_irrefl] at this
          rw [this] at h1; simp [get?_cons] at h1
      have hv : p.2 = q.2 := by
        have := h p.1
        rw [get?_cons, get?_cons, if_pos rfl, if_pos hpq] at this
        simpa using this
      have ht : m = n := by
        apply ih hm.tail hn.tail
        intro k
        by_cases e : k = p.1
        · rw [get?_eq_none_of_not_mem, get?_eq_none_of_not_mem]
          · intro r hr e2
            have := hn.head_lt _ hr
            rw [e2, e, hpq] at this; simp [Key.lt_irrefl] at this
          · intro r hr e2
            have := hm.head_lt _ hr
            rw [e2, e] at this; simp [Key.lt_irrefl] at this
        · have := h k
          rw [get?_cons, get?_cons, if_neg e, if_neg (hpq ▸ e)] at this
          exact this
      obtain ⟨p1, p2⟩ := p
      obtain ⟨q1, q2⟩ := q
      simp only at hpq hv
      subst hpq; subst hv; subst ht; rfl

end OMap
end Verif
