import Verif.Refs.Text

/-!
# Numbers and switches as text (src/io/parse.rs, and Rust's `Display` for integers and `bool`)
-/

set_option autoImplicit false

namespace Verif.Codec

open Verif.Refs (digitChar isDigit decVal)

/-- The decimal digits of a number, with enough fuel. -/
def decFuel : Nat → Nat → Str
  | 0, n => [digitChar (n % 10)]
  | f + 1, n => if n < 10 then [digitChar n] else decFuel f (n / 10) ++ [digitChar (n % 10)]

/-- `Display` for the unsigned integers of Rust. -/
def decNat (n : Nat) : Str := decFuel n n

/-- `Display` for the signed integers of Rust. -/
def decInt (z : Int) : Str := if z < 0 then '-' :: decNat z.natAbs else decNat z.natAbs

/-- `{:0w}`: padded with zeros to a width. -/
def pad (w n : Nat) : Str := List.replicate (w - (decNat n).length) '0' ++ decNat n

/-- `str::parse` for an unsigned integer type, on texts of digits only: an empty text and a value
that is too large are errors. -/
def parseNatMax (max : Nat) (s : Str) : Option Nat :=
  if s = [] then none else if decVal s ≤ max then some (decVal s) else none

/-- `token_u32`, src/io/parse.rs:209-220, with `all_digits`, 398-405. -/
def parseU32 (s : Str) : Option Nat :=
  if s.all isDigit then parseNatMax 4294967295 s else none

/-- `sign_all_digits`, src/io/parse.rs:408-421. -/
def signAllDigits : Str → Bool
  | [] => false
  | c :: s => (c == '-' || isDigit c) && s.all isDigit

/-- `str::parse` for a signed integer type of `bits` bits on the texts `sign_all_digits` accepts. -/
def parseIntBits (bits : Nat) : Str → Option Int
  | '-' :: s =>
    if s = [] then none else if decVal s ≤ 2 ^ (bits - 1) then some (- (decVal s : Int)) else none
  | s => if s = [] then none else if decVal s < 2 ^ (bits - 1) then some (decVal s) else none

/-- `token_i16`, `token_i32`, `token_i64`, src/io/parse.rs:195-206, 223-248. -/
def parseInt (bits : Nat) (s : Str) : Option Int :=
  if signAllDigits s then parseIntBits bits s else none

/-- `Display` for `bool`, and `if *b { "true" } else { "false" }`. -/
def fmtBool (b : Bool) : Str := if b then "true".toList else "false".toList

/-- `token_bool`, src/io/parse.rs:186-192. -/
def parseBool (s : Str) : Option Bool :=
  if s = "true".toList then some true else if s = "false".toList then some false else none

/-! ## Lemmas -/

theorem decFuel_digits (f : Nat) : ∀ n, ∀ c ∈ decFuel f n, isDigit c = true := by
  induction f with
  | zero =>
    intro n c hc
    simp only [decFuel, List.mem_singleton] at hc
    subst hc
    exact Refs.digit_isDigit _ (by omega)
  | succ f ih =>
    intro n c hc
    unfold decFuel at hc
    split at hc
    · simp only [List.mem_singleton] at hc; subst hc; exact Refs.digit_isDigit _ (by assumption)
    · rw [List.mem_append] at hc
      rcases hc with hc | hc
      · exact ih _ c hc
      · simp only [List.mem_singleton] at hc; subst hc; exact Refs.digit_isDigit _ (by omega)

theorem decNat_digits (n : Nat) : ∀ c ∈ decNat n, isDigit c = true := decFuel_digits n n

theorem decFuel_ne (f n : Nat) : decFuel f n ≠ [] := by
  cases f with
  | zero => simp [decFuel]
  | succ f => unfold decFuel; split <;> simp

theorem decNat_ne (n : Nat) : decNat n ≠ [] := decFuel_ne n n

theorem decVal_single (d : Nat) (h : d < 10) : decVal [digitChar d] = d := by
  show 0 * 10 + ((digitChar d).toNat - 48) = d
  rw [Refs.digit_toNat d h]; omega

theorem decFuel_val (f : Nat) : ∀ n, n ≤ f → decVal (decFuel f n) = n := by
  induction f with
  | zero =>
    intro n hn
    have : n = 0 := by omega
    subst this
    rfl
  | succ f ih =>
    intro n hn
    unfold decFuel
    split
    · exact decVal_single n (by assumption)
    · rw [Refs.decVal_append, ih _ (by omega), Refs.digit_toNat _ (by omega)]; omega

theorem decVal_decNat (n : Nat) : decVal (decNat n) = n := decFuel_val n n (Nat.le_refl _)

theorem decNat_inj {a b : Nat} (h : decNat a = decNat b) : a = b := by
  rw [← decVal_decNat a, h, decVal_decNat]

theorem decFuel_length (f : Nat) : ∀ n k, n ≤ f → 10 ^ k ≤ n → n < 10 ^ (k + 1) →
    (decFuel f n).length = k + 1 := by
  induction f with
  | zero =>
    intro n k hn hk _
    have : 0 < 10 ^ k := Nat.pow_pos (by omega)
    omega
  | succ f ih =>
    intro n k hn hk hk'
    unfold decFuel
    split
    · cases k with
      | zero => rfl
      | succ k =>
        have : 10 ≤ 10 ^ (k + 1) := by
          rw [Nat.pow_succ]
          have : 0 < 10 ^ k := Nat.pow_pos (by omega)
          omega
        omega
    · cases k with
      | zero => simp at hk'; omega
      | succ k =>
        rw [List.length_append, ih (n / 10) k (by omega) _ _]
        · rfl
        · rw [Nat.le_div_iff_mul_le (by omega)]; rw [Nat.pow_succ] at hk; exact hk
        · rw [Nat.div_lt_iff_lt_mul (by omega)]; rw [Nat.pow_succ] at hk'; exact hk'

theorem decNat_length (n k : Nat) (h : 10 ^ k ≤ n) (h' : n < 10 ^ (k + 1)) :
    (decNat n).length = k + 1 := decFuel_length n n k (Nat.le_refl _) h h'

theorem decNat_length_small (n : Nat) (h : n < 10) : (decNat n).length = 1 := by
  unfold decNat
  cases n with
  | zero => rfl
  | succ n => unfold decFuel; rw [if_pos h]; rfl

theorem decFuel_length_le (f : Nat) : ∀ n k, n < 10 ^ (k + 1) → (decFuel f n).length ≤ k + 1 := by
  induction f with
  | zero => intro n k _; simp [decFuel]
  | succ f ih =>
    intro n k h
    unfold decFuel
    split
    · simp
    · cases k with
      | zero => simp at h; omega
      | succ k =>
        have := ih (n / 10) k (by rw [Nat.div_lt_iff_lt_mul (by omega)]; rw [Nat.pow_succ] at h; exact h)
        rw [List.length_append]; simp; exact this

theorem decNat_length_le (n k : Nat) (h : n < 10 ^ (k + 1)) : (decNat n).length ≤ k + 1 :=
  decFuel_length_le n n k h

theorem decVal_zeros (k : Nat) (s : Str) : decVal (List.replicate k '0' ++ s) = decVal s := by
  induction k with
  | zero => simp
  | succ k ih =>
    rw [List.replicate_succ, List.cons_append]
    show decVal (List.replicate k '0' ++ s) = _
    exact ih

theorem decVal_pad (w n : Nat) : decVal (pad w n) = n := by
  unfold pad; rw [decVal_zeros, decVal_decNat]

theorem pad_digits (w n : Nat) : ∀ c ∈ pad w n, isDigit c = true := by
  intro c hc
  unfold pad at hc
  rw [List.mem_append] at hc
  rcases hc with hc | hc
  · rw [(List.mem_replicate.1 hc).2]; decide
  · exact decNat_digits n c hc

theorem pad_ne (w n : Nat) : pad w n ≠ [] := by
  unfold pad
  intro h
  exact decNat_ne n (List.append_eq_nil_iff.1 h).2

theorem pad_length (w n : Nat) (h : n < 10 ^ w) (hw : 0 < w) : (pad w n).length = w := by
  obtain ⟨k, rfl⟩ : ∃ k, w = k + 1 := ⟨w - 1, by omega⟩
  have := decNat_length_le n k h
  unfold pad
  simp only [List.length_append, List.length_replicate]
  omega

theorem all_digits_of {s : Str} (h : ∀ c ∈ s, isDigit c = true) : s.all isDigit = true := by
  rw [List.all_eq_true]; exact h

theorem parseU32_dec (n : Nat) (h : n ≤ 4294967295) : parseU32 (decNat n) = some n := by
  unfold parseU32 parseNatMax
  rw [if_pos (all_digits_of (decNat_digits n)), if_neg (decNat_ne n), decVal_decNat, if_pos h]

theorem digit_not_minus {c : Char} (h : isDigit c = true) : c ≠ '-' := by
  intro e; subst e; revert h; decide

theorem parseInt_dec (bits : Nat) (z : Int) (h1 : - (2 ^ (bits - 1) : Int) ≤ z)
    (h2 : z < 2 ^ (bits - 1)) : parseInt bits (decInt z) = some z := by
  have hp : ((2 ^ (bits - 1) : Nat) : Int) = (2 : Int) ^ (bits - 1) := by simp
  unfold parseInt decInt
  by_cases hz : z < 0
  · rw [if_pos hz]
    have hs : signAllDigits ('-' :: decNat z.natAbs) = true := by
      simp only [signAllDigits]
      rw [all_digits_of (decNat_digits _)]; rfl
    rw [if_pos hs]
    simp only [parseIntBits]
    rw [if_neg (decNat_ne _), decVal_decNat, if_pos (by omega)]
    congr 1; omega
  · rw [if_neg hz]
    have hd := decNat_digits z.natAbs
    cases hc : decNat z.natAbs with
    | nil => exact absurd hc (decNat_ne _)
    | cons c s =>
      rw [hc] at hd
      have hs : signAllDigits (c :: s) = true := by
        simp only [signAllDigits]
        rw [hd c List.mem_cons_self, all_digits_of (fun x hx => hd x (List.mem_cons_of_mem _ hx))]
        simp
      rw [if_pos hs]
      have hne := digit_not_minus (hd c List.mem_cons_self)
      have : parseIntBits bits (c :: s) = if c :: s = [] then none else
          if decVal (c :: s) < 2 ^ (bits - 1) then some (decVal (c :: s) : Int) else none := by
        unfold parseIntBits
        split
        · rename_i h; exact absurd (List.cons.inj h).1 hne
        · rfl
      rw [this, ← hc, if_neg (decNat_ne _), decVal_decNat, if_pos (by omega)]
      congr 1; omega

theorem parseBool_fmt (b : Bool) : parseBool (fmtBool b) = some b := by cases b <;> decide

end Verif.Codec
