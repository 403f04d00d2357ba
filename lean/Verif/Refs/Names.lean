import Verif.Refs.Format
import Verif.Refs.Parse

/-!
# Column and row names: lemmas
-/

set_option autoImplicit false

namespace Verif.Refs

/-! ## Columns -/

theorem letter_toNat : ∀ d, d < 26 → (letterChar d).toNat = 65 + d := by decide

theorem letter_upper : ∀ d, d < 26 → isUpper (letterChar d) = true := by decide

theorem digit_toNat : ∀ d, d < 10 → (digitChar d).toNat = 48 + d := by decide

theorem digit_isDigit : ∀ d, d < 10 → isDigit (digitChar d) = true := by decide

theorem letter_of_upper (c : Char) (h : isUpper c = true) : letterChar (c.toNat - 65) = c := by
  simp only [isUpper, Bool.and_eq_true, decide_eq_true_eq] at h
  unfold letterChar
  rw [show 65 + (c.toNat - 65) = c.toNat by omega]
  exact Char.ofNat_toNat c

theorem digit_of_isDigit (c : Char) (h : isDigit c = true) : digitChar (c.toNat - 48) = c := by
  simp only [isDigit, Bool.and_eq_true, decide_eq_true_eq] at h
  unfold digitChar
  rw [show 48 + (c.toNat - 48) = c.toNat by omega]
  exact Char.ofNat_toNat c

theorem colDigits_zero : colDigits 0 = [] := by
  unfold colDigits; simp

theorem colDigits_lt (n : Nat) : ∀ d ∈ colDigits n, d < 26 := by
  induction n using Nat.strongRecOn with
  | _ n ih =>
    intro d hd
    unfold colDigits at hd
    split at hd
    · rename_i hn
      split at hd
      · rcases List.mem_cons.mp hd with h | h
        · omega
        · exact ih _ (by omega) d h
      · rcases List.mem_cons.mp hd with h | h
        · omega
        · exact ih _ (by omega) d h
    · simp at hd

/-- The number a column name stands for, last letter first. -/
def leVal : List Nat → Nat
  | [] => 0
  | d :: ds => 26 * leVal ds + d + 1

theorem leVal_colDigits (n : Nat) : leVal (colDigits n) = n := by
  induction n using Nat.strongRecOn with
  | _ n ih =>
    unfold colDigits
    split
    · rename_i hn
      split
      · rename_i h0
        simp only [leVal]
        rw [ih _ (by omega)]
        omega
      · rename_i h0
        simp only [leVal]
        rw [ih _ (by omega)]
        omega
    · simp only [leVal]; omega

theorem colDigits_leVal (ds : List Nat) (h : ∀ d ∈ ds, d < 26) : colDigits (leVal ds) = ds := by
  induction ds with
  | nil => exact colDigits_zero
  | cons d ds ih =>
    have hd := h d List.mem_cons_self
    have ih' := ih (fun x hx => h x (List.mem_cons_of_mem _ hx))
    have e : leVal (d :: ds) = 26 * leVal ds + d + 1 := rfl
    rw [e]
    unfold colDigits
    rw [dif_pos (by omega)]
    by_cases h25 : d = 25
    · rw [if_pos (by omega), show (26 * leVal ds + d + 1) / 26 - 1 = leVal ds by omega, ih', h25]
    · rw [if_neg (by omega), show (26 * leVal ds + d + 1) / 26 = leVal ds by omega, ih',
        show (26 * leVal ds + d + 1) % 26 - 1 = d by omega]

theorem colBuf_eq (col : Nat) : colBuf col = colDigits (col + 1) := by
  unfold colBuf
  split
  · rename_i h
    subst h
    conv => rhs; unfold colDigits
    rfl
  · rfl

/-- The same number, first letter first, starting from `acc`. -/
def beVal (acc : Nat) (ds : List Nat) : Nat := ds.foldl (fun a d => a * 26 + d + 1) acc

theorem beVal_append (acc : Nat) (a b : List Nat) : beVal acc (a ++ b) = beVal (beVal acc a) b := by
  simp [beVal, List.foldl_append]

theorem beVal_reverse (ds : List Nat) : beVal 0 ds.reverse = leVal ds := by
  induction ds with
  | nil => rfl
  | cons d ds ih =>
    rw [List.reverse_cons, beVal_append, ih]
    simp only [beVal, List.foldl_cons, List.foldl_nil, leVal]
    omega

theorem le_beVal (ds : List Nat) : ∀ acc, acc ≤ beVal acc ds := by
  induction ds with
  | nil => intro acc; exact Nat.le_refl _
  | cons d ds ih =>
    intro acc
    have := ih (acc * 26 + d + 1)
    simp only [beVal, List.foldl_cons] at this ⊢
    omega

theorem colStep_fits (m : Ints) (acc d : Nat) (hd : d < 26) (h : acc * 26 + d + 1 ≤ m.max) :
    colStep m acc (letterChar d) = .ok (acc * 26 + d + 1) := by
  unfold colStep
  rw [if_pos (letter_upper d hd), letter_toNat d hd, show 65 + d - 65 = d by omega]
  by_cases h25 : d = 25
  · rw [if_pos h25]
    unfold Ints.fit
    rw [if_pos (show acc + 1 ≤ m.max by omega)]
    simp only
    rw [if_pos (show (acc + 1) * 26 ≤ m.max by omega)]
    simp only
    rw [if_pos (show (acc + 1) * 26 + 0 ≤ m.max by omega)]
    congr 1; omega
  · rw [if_neg h25]
    unfold Ints.fit
    rw [if_pos (show acc * 26 ≤ m.max by omega)]
    simp only
    rw [if_pos (show acc * 26 + (d + 1) ≤ m.max by omega)]
    congr 1

theorem colLoop_fits (m : Ints) (ds : List Nat) (hds : ∀ d ∈ ds, d < 26) :
    ∀ acc, beVal acc ds ≤ m.max → colLoop m acc (ds.map letterChar) = .ok (beVal acc ds) := by
  induction ds with
  | nil => intro acc _; rfl
  | cons d ds ih =>
    intro acc h
    have h1 := le_beVal ds (acc * 26 + d + 1)
    have h2 : beVal acc (d :: ds) = beVal (acc * 26 + d + 1) ds := rfl
    rw [h2] at h ⊢
    simp only [List.map_cons, colLoop]
    rw [colStep_fits m acc d (hds d List.mem_cons_self) (by omega)]
    exact ih (fun x hx => hds x (List.mem_cons_of_mem _ hx)) _ h

theorem fmtColName_eq (col : Nat) : fmtColName col = (colDigits (col + 1)).reverse.map letterChar := by
  unfold fmtColName; rw [colBuf_eq, List.map_reverse]

theorem colFromName_fmt (m : Ints) (col : Nat) (h : col < m.max) :
    colFromName m (fmtColName col) = .ok col := by
  have hv : beVal 0 (colDigits (col + 1)).reverse = col + 1 := by
    rw [beVal_reverse, leVal_colDigits]
  unfold colFromName
  rw [fmtColName_eq, colLoop_fits m _ (fun d hd => colDigits_lt _ d (List.mem_reverse.mp hd)) 0
    (by rw [hv]; omega), hv]
  rfl

theorem fmtColName_upper (col : Nat) : ∀ c ∈ fmtColName col, isUpper c = true := by
  intro c hc
  rw [fmtColName_eq] at hc
  obtain ⟨d, hd, rfl⟩ := List.mem_map.mp hc
  exact letter_upper d (colDigits_lt _ d (List.mem_reverse.mp hd))

theorem colDigits_ne_nil (n : Nat) (h : 0 < n) : colDigits n ≠ [] := by
  intro e
  have := leVal_colDigits n
  rw [e] at this
  simp [leVal] at this
  omega

theorem fmtColName_ne_nil (col : Nat) : fmtColName col ≠ [] := by
  rw [fmtColName_eq]
  simp [colDigits_ne_nil]

theorem fmtColName_inj (a b : Nat) (h : fmtColName a = fmtColName b) : a = b := by
  have ha := colFromName_fmt ⟨a + b + 1, true⟩ a (by simp only; omega)
  have hb := colFromName_fmt ⟨a + b + 1, true⟩ b (by simp only; omega)
  rw [h, hb] at ha
  exact (Except.ok.inj ha).symm

/-- Every text of capital letters is the name of a column. -/
theorem fmtColName_surj (s : Str) (hs : s ≠ []) (hu : ∀ c ∈ s, isUpper c = true) :
    ∃ col, fmtColName col = s := by
  let ds := (s.map fun c => c.toNat - 65).reverse
  have hds : ∀ d ∈ ds, d < 26 := by
    intro d hd
    obtain ⟨c, hc, rfl⟩ := List.mem_map.mp (List.mem_reverse.mp hd)
    have := hu c hc
    simp only [isUpper, Bool.and_eq_true, decide_eq_true_eq] at this
    omega
  have hpos : 0 < leVal ds := by
    cases hd : ds with
    | nil =>
      have : s = [] := by
        have : s.map (fun c => c.toNat - 65) = [] := by
          rw [← List.reverse_eq_nil_iff]; exact hd
        exact List.map_eq_nil_iff.mp this
      exact absurd this hs
    | cons d t => simp only [leVal]; omega
  refine ⟨leVal ds - 1, ?_⟩
  rw [fmtColName_eq, show leVal ds - 1 + 1 = leVal ds by omega, colDigits_leVal ds hds]
  show ((s.map fun c => c.toNat - 65).reverse.reverse).map letterChar = s
  rw [List.reverse_reverse, List.map_map]
  conv => rhs; rw [← List.map_id s]
  apply List.map_congr_left
  intro c hc
  exact letter_of_upper c (hu c hc)

/-! The number of letters. -/

theorem leVal_lower (ds : List Nat) : (26 ^ ds.length - 1) / 25 ≤ leVal ds := by
  have key : ∀ ds : List Nat, 26 ^ ds.length ≤ 25 * leVal ds + 1 := by
    intro ds
    induction ds with
    | nil => simp [leVal]
    | cons d ds ih => simp only [List.length_cons, Nat.pow_succ, leVal]; omega
  have := key ds
  omega

theorem fmtColName_fits (col : Nat) (h : col ≤ u32Max) : (colBuf col).length ≤ 7 := by
  rw [colBuf_eq]
  have h1 := leVal_lower (colDigits (col + 1))
  rw [leVal_colDigits] at h1
  rcases Nat.lt_or_ge 7 (colDigits (col + 1)).length with hl | hl
  · exfalso
    have h2 : 26 ^ 8 ≤ 26 ^ (colDigits (col + 1)).length := Nat.pow_le_pow_right (by omega) hl
    have h3 : (26 : Nat) ^ 8 = 208827064576 := by decide
    rw [h3] at h2
    unfold u32Max at h
    omega
  · exact hl

/-! The order of the names. -/

theorem beVal_lt (s : List Nat) : ∀ (t : List Nat) (a b : Nat), s.length = t.length →
    (∀ d ∈ s, d < 26) → a < b → beVal a s < beVal b t := by
  induction s with
  | nil =>
    intro t a b hl _ h
    have : t = [] := List.length_eq_zero_iff.mp hl.symm
    subst this; exact h
  | cons d s ih =>
    intro t a b hl hs h
    cases t with
    | nil => simp at hl
    | cons e t =>
      have hd := hs d List.mem_cons_self
      show beVal (a * 26 + d + 1) s < beVal (b * 26 + e + 1) t
      exact ih t _ _ (by simpa using hl) (fun x hx => hs x (List.mem_cons_of_mem _ hx)) (by omega)

theorem beVal_shorter (s t : List Nat) (hs : ∀ d ∈ s, d < 26) (h : s.length < t.length) :
    beVal 0 s < beVal 0 t := by
  have e : t = t.take (t.length - s.length) ++ t.drop (t.length - s.length) :=
    (List.take_append_drop _ _).symm
  rw [e, beVal_append]
  apply beVal_lt _ _ _ _ _ hs
  · cases hp : t.take (t.length - s.length) with
    | nil =>
      have := congrArg List.length hp
      simp at this; omega
    | cons d p =>
      have := le_beVal p (0 * 26 + d + 1)
      show 0 < beVal (0 * 26 + d + 1) p
      omega
  · simp; omega

/-! ## Rows -/

theorem rowDigits_lt (n : Nat) : ∀ d ∈ rowDigits n, d < 10 := by
  induction n using Nat.strongRecOn with
  | _ n ih =>
    intro d hd
    unfold rowDigits at hd
    split at hd
    · rcases List.mem_cons.mp hd with h | h
      · omega
      · exact ih _ (by omega) d h
    · simp at hd

def leVal10 : List Nat → Nat
  | [] => 0
  | d :: ds => 10 * leVal10 ds + d

theorem leVal10_rowDigits (n : Nat) : leVal10 (rowDigits n) = n := by
  induction n using Nat.strongRecOn with
  | _ n ih =>
    unfold rowDigits
    split
    · simp only [leVal10]
      rw [ih _ (by omega)]
      omega
    · simp only [leVal10]; omega

theorem decVal_append (s : Str) (c : Char) : decVal (s ++ [c]) = decVal s * 10 + (c.toNat - 48) := by
  simp [decVal, List.foldl_append]

theorem decVal_digits (ds : List Nat) (h : ∀ d ∈ ds, d < 10) :
    decVal (ds.map digitChar).reverse = leVal10 ds := by
  induction ds with
  | nil => rfl
  | cons d ds ih =>
    rw [List.map_cons, List.reverse_cons, decVal_append,
      ih (fun x hx => h x (List.mem_cons_of_mem _ hx)), digit_toNat d (h d List.mem_cons_self)]
    simp only [leVal10]
    omega

theorem decVal_fmtRowName (row : Nat) : decVal (fmtRowName row) = row + 1 := by
  unfold fmtRowName
  rw [decVal_digits _ (rowDigits_lt _), leVal10_rowDigits]

theorem rowFromName_fmt (m : Ints) (row : Nat) :
    rowFromName m (fmtRowName row) = if row < m.max then .ok row else .error .other := by
  unfold rowFromName
  rw [decVal_fmtRowName]
  by_cases h : row < m.max
  · rw [if_pos (by omega), if_pos (by omega), if_pos h]; rfl
  · rw [if_neg (by omega), if_neg h]

theorem fmtRowName_digits (row : Nat) : ∀ c ∈ fmtRowName row, isDigit c = true := by
  intro c hc
  unfold fmtRowName at hc
  obtain ⟨d, hd, rfl⟩ := List.mem_map.mp (List.mem_reverse.mp hc)
  exact digit_isDigit d (rowDigits_lt _ d hd)

theorem fmtRowName_ne_nil (row : Nat) : fmtRowName row ≠ [] := by
  intro e
  have := decVal_fmtRowName row
  rw [e] at this
  simp [decVal] at this

theorem fmtRowName_inj (a b : Nat) (h : fmtRowName a = fmtRowName b) : a = b := by
  have ha := decVal_fmtRowName a
  rw [h, decVal_fmtRowName] at ha
  omega

/-- The first digit is not zero. -/
theorem rowDigits_last (n : Nat) : ∀ d ∈ (rowDigits n).getLast?, d ≠ 0 := by
  induction n using Nat.strongRecOn with
  | _ n ih =>
    intro d hd
    unfold rowDigits at hd
    split at hd
    · rename_i hn
      cases hr : rowDigits (n / 10) with
      | nil =>
        rw [hr] at hd
        simp at hd
        have := leVal10_rowDigits (n / 10)
        rw [hr] at this
        simp [leVal10] at this
        omega
      | cons e r =>
        rw [hr, List.getLast?_cons_cons] at hd
        exact ih (n / 10) (by omega) d (by rw [hr]; exact hd)
    · simp at hd

theorem leVal10_lower (ds : List Nat) (h : ∀ d ∈ ds.getLast?, d ≠ 0) (hne : ds ≠ []) :
    10 ^ (ds.length - 1) ≤ leVal10 ds := by
  induction ds with
  | nil => exact absurd rfl hne
  | cons d ds ih =>
    cases ds with
    | nil =>
      have := h d (by simp)
      simp only [List.length_cons, List.length_nil, leVal10]
      simp; omega
    | cons e r =>
      have h1 := ih (by rw [List.getLast?_cons_cons] at h; exact h) (by simp)
      simp only [List.length_cons, Nat.add_sub_cancel, leVal10] at h1 ⊢
      rw [Nat.pow_succ]
      omega

theorem fmtRowName_fits (row : Nat) (h : row ≤ u32Max) : (rowDigits (row + 1)).length ≤ 10 := by
  have hne : rowDigits (row + 1) ≠ [] := by
    intro e
    have := leVal10_rowDigits (row + 1)
    rw [e] at this; simp [leVal10] at this
  have h1 := leVal10_lower _ (rowDigits_last (row + 1)) hne
  rw [leVal10_rowDigits] at h1
  rcases Nat.lt_or_ge 10 (rowDigits (row + 1)).length with hl | hl
  · exfalso
    have h2 : 10 ^ 10 ≤ 10 ^ ((rowDigits (row + 1)).length - 1) :=
      Nat.pow_le_pow_right (by omega) (by omega)
    have h3 : (10 : Nat) ^ 10 = 10000000000 := by decide
    rw [h3] at h2
    unfold u32Max at h
    omega
  · exact hl

end Verif.Refs
