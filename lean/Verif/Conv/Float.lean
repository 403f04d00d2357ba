import Verif.Types

/-!
# Whole numbers as doubles, and back (Rust's `as`)

`Value::from` turns every number into a double, and `as_i64_opt` and the like turn a double into a whole
number (src/value_.rs). Both are Rust's `as`, which is modelled here on the bits of a double.
-/

set_option autoImplicit false

namespace Verif.Conv

/-- The bits of the double next to a whole number, without the sign: `n as f64` (used in src/value_.rs:553-602).
Halves are rounded to even. Larger numbers than 2^64 do not occur. -/
def magBits (n : Nat) : Nat :=
  if n = 0 then 0
  else if n.log2 ≤ 52 then (n.log2 + 1023) * 2 ^ 52 + (n * 2 ^ (52 - n.log2) - 2 ^ 52)
  else
    let d := 2 ^ (n.log2 - 52)
    let q := n / d
    let r := n % d
    let q' := if d < 2 * r ∨ (2 * r = d ∧ q % 2 = 1) then q + 1 else q
    (n.log2 + 1023) * 2 ^ 52 + (q' - 2 ^ 52)

/-- `z as f64`, src/value_.rs:553-602. -/
def ofInt (z : Int) : F64 := ⟨BitVec.ofNat 64 ((if z < 0 then 2 ^ 63 else 0) + magBits z.natAbs)⟩

/-- The whole part of the double with these exponent bits and these fraction bits. -/
def whole (ex m : Nat) : Nat := if ex < 1023 then 0 else (2 ^ 52 + m) * 2 ^ (ex - 1023) / 2 ^ 52

/-- `f as i64` and the like, src/value_.rs:98-266, for a type with the numbers from `lo` to `hi`: the fraction
is cut off, numbers that do not fit give the least or the greatest number, and NaN gives 0. -/
def toInt (lo hi : Int) (f : F64) : Int :=
  let b := f.bits.toNat
  let ex := b / 2 ^ 52 % 2048
  let m := b % 2 ^ 52
  let neg : Bool := b / 2 ^ 63 == 1
  if ex = 2047 then if m = 0 then (if neg then lo else hi) else 0
  else
    let w : Int := if neg then - (whole ex m : Int) else (whole ex m : Int)
    if w < lo then lo else if hi < w then hi else w

/-! ## Specification -/

/-- The whole numbers a double can hold: at most 53 bits, and zeros after them. -/
def Exact (n : Nat) : Prop := ∃ m k, m < 2 ^ 53 ∧ n = m * 2 ^ k

/-- The nearest number a double can hold, halves to even. -/
def near (n : Nat) : Nat :=
  if n < 2 ^ 53 then n
  else
    let d := 2 ^ (n.log2 - 52)
    (if d < 2 * (n % d) ∨ (2 * (n % d) = d ∧ n / d % 2 = 1) then n / d + 1 else n / d) * d

/-! ## Lemmas -/

/-- What is known of a number of more than 53 bits. -/
theorem big (n : Nat) (h : 2 ^ 53 ≤ n) : ∃ s, n.log2 = 52 + s ∧ 2 ^ 52 ≤ n / 2 ^ s ∧ n / 2 ^ s < 2 ^ 53
    ∧ 2 ^ 52 * 2 ^ s ≤ n := by
  have hn : n ≠ 0 := by intro h0; subst h0; simp at h
  have h1 : 53 ≤ n.log2 := (Nat.le_log2 hn).2 h
  obtain ⟨s, hs⟩ := Nat.exists_eq_add_of_le (show 52 ≤ n.log2 by omega)
  have h2 : 2 ^ (52 + s) ≤ n := by rw [← hs]; exact Nat.log2_self_le hn
  have h3 : n < 2 ^ (53 + s) := by
    have := @Nat.lt_log2_self n
    rw [hs] at this
    rwa [show 53 + s = 52 + s + 1 by omega]
  rw [Nat.pow_add] at h2 h3
  refine ⟨s, hs, ?_, ?_, h2⟩
  · exact (Nat.le_div_iff_mul_le (Nat.two_pow_pos s)).2 h2
  · exact (Nat.div_lt_iff_lt_mul (Nat.two_pow_pos s)).2 h3

theorem whole_of (e q : Nat) (h1 : 2 ^ 52 ≤ q) (h2 : q ≤ 2 ^ 53) (he : e ≤ 64) :
    let b := (e + 1023) * 2 ^ 52 + (q - 2 ^ 52)
    b < 2047 * 2 ^ 52 ∧ whole (b / 2 ^ 52) (b % 2 ^ 52) = q * 2 ^ e / 2 ^ 52 := by
  intro b
  refine ⟨by simp only [b]; omega, ?_⟩
  by_cases hq : q = 2 ^ 53
  · have hb1 : b / 2 ^ 52 = e + 1 + 1023 := by simp only [b]; omega
    have hb2 : b % 2 ^ 52 = 0 := by simp only [b]; omega
    rw [hb1, hb2, hq]
    unfold whole
    rw [if_neg (by omega), show e + 1 + 1023 - 1023 = e + 1 by omega, Nat.pow_succ 2 e]
    have : (2 ^ 52 + 0) * (2 ^ e * 2) = 2 ^ 53 * 2 ^ e := by
      generalize 2 ^ e = d
      omega
    rw [this]
  · have hb1 : b / 2 ^ 52 = e + 1023 := by simp only [b]; omega
    have hb2 : b % 2 ^ 52 = q - 2 ^ 52 := by simp only [b]; omega
    rw [hb1, hb2]
    unfold whole
    rw [if_neg (by omega), show e + 1023 - 1023 = e by omega, show 2 ^ 52 + (q - 2 ^ 52) = q by omega]

theorem mul_pow_div (q s : Nat) : q * 2 ^ (52 + s) / 2 ^ 52 = q * 2 ^ s := by
  rw [Nat.pow_add, show q * (2 ^ 52 * 2 ^ s) = q * 2 ^ s * 2 ^ 52 by
    rw [Nat.mul_comm (2 ^ 52), Nat.mul_assoc]]
  exact Nat.mul_div_cancel _ (by decide)

theorem magBits_whole (n : Nat) (h : n ≤ 2 ^ 64) :
    magBits n < 2047 * 2 ^ 52 ∧ whole (magBits n / 2 ^ 52) (magBits n % 2 ^ 52) = near n := by
  unfold magBits
  by_cases h0 : n = 0
  · subst h0; rw [if_pos rfl]; decide
  rw [if_neg h0]
  have hlog : n.log2 ≤ 64 := by
    have : ¬ 65 ≤ n.log2 := by
      intro hc
      have := (Nat.le_log2 h0).1 hc
      omega
    omega
  by_cases he : n.log2 ≤ 52
  · rw [if_pos he]
    have h1 := Nat.log2_self_le h0
    have h2 := @Nat.lt_log2_self n
    have hp : 2 ^ n.log2 * 2 ^ (52 - n.log2) = 2 ^ 52 := by rw [← Nat.pow_add]; congr 1; omega
    have hn : n < 2 ^ 53 := by
      have : ¬ 53 ≤ n.log2 := by omega
      rw [Nat.le_log2 h0] at this
      omega
    have h3 : 2 ^ 52 ≤ n * 2 ^ (52 - n.log2) := by
      rw [← hp]; exact Nat.mul_le_mul_right _ h1
    have h4 : n * 2 ^ (52 - n.log2) ≤ 2 ^ 53 := by
      have := Nat.mul_le_mul_right (2 ^ (52 - n.log2)) (Nat.le_of_lt h2)
      rw [Nat.pow_succ, Nat.mul_right_comm, hp] at this
      omega
    have := whole_of n.log2 _ h3 h4 hlog
    refine ⟨this.1, this.2.trans ?_⟩
    rw [Nat.mul_assoc, Nat.mul_comm (2 ^ (52 - n.log2)), hp]
    unfold near
    rw [if_pos hn]
    exact Nat.mul_div_cancel _ (by decide)
  · rw [if_neg he]
    have hn : 2 ^ 53 ≤ n := (Nat.le_log2 h0).1 (by omega)
    obtain ⟨s, hs, h1, h2, -⟩ := big n hn
    have hs' : n.log2 - 52 = s := by omega
    unfold near
    rw [if_neg (by omega)]
    simp only [hs']
    generalize hq : (if 2 ^ s < 2 * (n % 2 ^ s) ∨ (2 * (n % 2 ^ s) = 2 ^ s ∧ n / 2 ^ s % 2 = 1)
      then n / 2 ^ s + 1 else n / 2 ^ s) = q
    have hq1 : 2 ^ 52 ≤ q := by rw [← hq]; split <;> omega
    have hq2 : q ≤ 2 ^ 53 := by rw [← hq]; split <;> omega
    have := whole_of n.log2 q hq1 hq2 hlog
    refine ⟨this.1, this.2.trans ?_⟩
    rw [hs]
    exact mul_pow_div q s

theorem exact_multiple (x s : Nat) (hx : Exact x) (h : 2 ^ 52 * 2 ^ s ≤ x) : ∃ y, x = y * 2 ^ s := by
  obtain ⟨m, k, hm, rfl⟩ := hx
  have hk : s ≤ k := by
    apply Decidable.byContradiction
    intro hc
    have h1 : 2 ^ (k + 1) ≤ 2 ^ s := Nat.pow_le_pow_right (by decide) (by omega)
    have h2 : m * 2 ^ k < 2 ^ 53 * 2 ^ k := Nat.mul_lt_mul_of_pos_right hm (Nat.two_pow_pos k)
    rw [Nat.pow_succ 2 k] at h1
    have h3 : 2 ^ 52 * (2 ^ k * 2) ≤ 2 ^ 52 * 2 ^ s := Nat.mul_le_mul_left _ h1
    omega
  obtain ⟨j, rfl⟩ := Nat.exists_eq_add_of_le hk
  exact ⟨m * 2 ^ j, by rw [Nat.pow_add, Nat.mul_assoc, Nat.mul_comm (2 ^ j)]⟩

theorem near_exact (n : Nat) : Exact (near n) := by
  unfold near
  split
  · rename_i h; exact ⟨n, 0, h, by simp⟩
  · rename_i h
    obtain ⟨s, hs, h1, h2, -⟩ := big n (by omega)
    have hs' : n.log2 - 52 = s := by omega
    simp only [hs']
    generalize hq : (if 2 ^ s < 2 * (n % 2 ^ s) ∨ (2 * (n % 2 ^ s) = 2 ^ s ∧ n / 2 ^ s % 2 = 1)
      then n / 2 ^ s + 1 else n / 2 ^ s) = q
    have hq2 : q ≤ 2 ^ 53 := by rw [← hq]; split <;> omega
    by_cases hq3 : q = 2 ^ 53
    · refine ⟨2 ^ 52, s + 1, by decide, ?_⟩
      rw [hq3, show 2 ^ (s + 1) = 2 ^ s * 2 from Nat.pow_succ 2 s]
      generalize 2 ^ s = d
      omega
    · exact ⟨q, s, by omega, rfl⟩

/-- No number a double can hold is nearer. -/
theorem near_nearest (n x : Nat) (hx : Exact x) :
    ((near n : Int) - n).natAbs ≤ ((x : Int) - n).natAbs := by
  unfold near
  split
  · omega
  · rename_i h
    obtain ⟨s, hs, h1, h2, h3⟩ := big n (by omega)
    have hs' : n.log2 - 52 = s := by omega
    simp only [hs']
    have hd : 0 < 2 ^ s := Nat.two_pow_pos s
    have hn : 2 ^ s * (n / 2 ^ s) + n % 2 ^ s = n := Nat.div_add_mod n (2 ^ s)
    have hr : n % 2 ^ s < 2 ^ s := Nat.mod_lt n hd
    have hlow : 2 ^ 52 * 2 ^ s ≤ n / 2 ^ s * 2 ^ s := Nat.mul_le_mul_right _ h1
    have hcase : x ≤ n / 2 ^ s * 2 ^ s ∨ n / 2 ^ s * 2 ^ s + 2 ^ s ≤ x := by
      by_cases hxs : x < 2 ^ 52 * 2 ^ s
      · exact .inl (by omega)
      · obtain ⟨y, rfl⟩ := exact_multiple x s hx (by omega)
        by_cases hy : y ≤ n / 2 ^ s
        · exact .inl (Nat.mul_le_mul_right _ hy)
        · have := Nat.mul_le_mul_right (2 ^ s) (show n / 2 ^ s + 1 ≤ y by omega)
          rw [Nat.add_mul, Nat.one_mul] at this
          exact .inr this
    rw [Nat.mul_comm] at hn
    generalize n / 2 ^ s = q at *
    generalize n % 2 ^ s = r at *
    generalize 2 ^ s = d at *
    split
    · rw [Nat.add_mul, Nat.one_mul]
      generalize q * d = p at *
      omega
    · generalize q * d = p at *
      omega

theorem near_id (n : Nat) : near n = n ↔ Exact n := by
  constructor
  · intro h; rw [← h]; exact near_exact n
  · intro h
    have := near_nearest n n h
    omega

theorem near_mono (a b : Nat) (h : a ≤ b) : near a ≤ near b := by
  have h1 := near_nearest a (near b) (near_exact b)
  have h2 := near_nearest b (near a) (near_exact a)
  by_cases hab : a = b
  · rw [hab]; exact Nat.le_refl _
  · omega

theorem near_small (n : Nat) (h : n ≤ 2 ^ 53) : near n = n := by
  rw [near_id]
  by_cases hn : n = 2 ^ 53
  · exact ⟨1, 53, by decide, by rw [hn, Nat.one_mul]⟩
  · exact ⟨n, 0, by omega, by simp⟩

theorem exact_pow (k : Nat) : Exact (2 ^ k) := ⟨1, k, by decide, by simp⟩

theorem near_le_pow (n k : Nat) (h : n ≤ 2 ^ k) : near n ≤ 2 ^ k := by
  have := near_mono n (2 ^ k) h
  rwa [(near_id _).2 (exact_pow k)] at this

/-- The number a whole number is turned into. -/
def nearInt (z : Int) : Int := if z < 0 then - (near z.natAbs : Int) else (near z.natAbs : Int)

/-- A number kept between two others. -/
def clamp (lo hi w : Int) : Int := if w < lo then lo else if hi < w then hi else w

theorem toInt_ofInt (lo hi z : Int) (h : z.natAbs ≤ 2 ^ 64) :
    toInt lo hi (ofInt z) = clamp lo hi (nearInt z) := by
  obtain ⟨h1, h2⟩ := magBits_whole z.natAbs h
  unfold toInt ofInt clamp nearInt
  simp only [BitVec.toNat_ofNat]
  generalize magBits z.natAbs = b at *
  have hb : b < 2 ^ 63 := by omega
  by_cases hz : z < 0
  · have e1 : (2 ^ 63 + b) % 2 ^ 64 = 2 ^ 63 + b := by omega
    have e2 : (2 ^ 63 + b) / 2 ^ 52 % 2048 = b / 2 ^ 52 := by omega
    have e3 : (2 ^ 63 + b) % 2 ^ 52 = b % 2 ^ 52 := by omega
    have e4 : ((2 ^ 63 + b) / 2 ^ 63 == 1) = true := by
      rw [beq_iff_eq]; omega
    have e5 : ¬ b / 2 ^ 52 = 2047 := by omega
    simp only [if_pos hz, e1, e2, e3, e4, if_neg e5, h2, if_true]
  · have e1 : (0 + b) % 2 ^ 64 = b := by omega
    have e2 : b / 2 ^ 52 % 2048 = b / 2 ^ 52 := by omega
    have e4 : (b / 2 ^ 63 == 1) = false := by
      rw [beq_eq_false_iff_ne]; omega
    have e5 : ¬ b / 2 ^ 52 = 2047 := by omega
    simp only [if_neg hz, e1, e2, e4, if_neg e5, h2]
    rfl

theorem nearInt_mono (a b : Int) (h : a ≤ b) : nearInt a ≤ nearInt b := by
  unfold nearInt
  split
  · split
    · have := near_mono b.natAbs a.natAbs (by omega); omega
    · omega
  · split
    · omega
    · have := near_mono a.natAbs b.natAbs (by omega); omega

end Verif.Conv
