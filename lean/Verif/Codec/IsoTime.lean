import Verif.Codec.TimeProps

/-!
# C101: the dates and durations that are read

Other programs write dates and durations in other forms than this library does: without a time, with
a `Z`, with any number of digits behind the second, with days, or without the parts that are zero.
Here all texts are described that are read, with their meaning.
-/

set_option autoImplicit false

namespace Verif.Codec

open Verif.Refs (digitChar isDigit decVal)

/-! ## Specification -/

/-- Digits, at least one. -/
def Digits (s : Str) : Prop := s ≠ [] ∧ ∀ c ∈ s, isDigit c = true

/-- Digits that are the number of an `i64`. -/
def Number (s : Str) : Prop := Digits s ∧ decVal s ≤ 9223372036854775807

/-- Digits behind the point, in nanoseconds, rounded down. -/
def fraction (f : Str) : Nat := decVal f * 10 ^ 9 / 10 ^ f.length

/-- An optional part of a text. -/
def Opt {α : Type} (p : α → Prop) : Option α → Prop
  | none => True
  | some a => p a

/-- The parts of a duration as text: `P1DT2H3M4.5S`. -/
structure DurText where
  day : Option Str
  /-- What is behind the `T`: hours, minutes, and seconds with the digits behind the point. -/
  time : Option (Option Str × Option Str × Option (Str × Option Str))

/-- Digits and a letter, or nothing. -/
def unit (c : Char) : Option Str → Str
  | none => []
  | some s => s ++ [c]

/-- The point and the digits behind it, or nothing. -/
def point : Option Str → Str
  | none => []
  | some f => '.' :: f

/-- The seconds, or nothing. -/
def secText : Option (Str × Option Str) → Str
  | none => []
  | some (s, f) => s ++ point f ++ ['S']

/-- The time of a duration, or nothing. -/
def timeText : Option (Option Str × Option Str × Option (Str × Option Str)) → Str
  | none => []
  | some (h, m, s) => 'T' :: (unit 'H' h ++ (unit 'M' m ++ secText s))

/-- The text. -/
def DurText.text (d : DurText) : Str := 'P' :: (unit 'D' d.day ++ timeText d.time)

/-- Numbers in all places. -/
def DurText.Good (d : DurText) : Prop :=
  Opt Number d.day ∧ Opt (fun t => Opt Number t.1 ∧ Opt Number t.2.1
    ∧ Opt (fun s : Str × Option Str => Number s.1 ∧ Opt Digits s.2) t.2.2) d.time

/-- The number of an optional part. -/
def num (o : Option Str) : Nat := (o.map decVal).getD 0

/-- The nanoseconds of the seconds. -/
def secNanos : Option (Str × Option Str) → Nat
  | none => 0
  | some (s, f) => decVal s * 10 ^ 9 + (f.map fraction).getD 0

/-- What a duration means, in nanoseconds. -/
def DurText.nanos (d : DurText) : Nat :=
  num d.day * (86400 * 10 ^ 9) + match d.time with
    | none => 0
    | some (h, m, s) => num h * (3600 * 10 ^ 9) + num m * (60 * 10 ^ 9) + secNanos s

/-- The parts of a date as text: `-2024-02-29T23:59:59.5Z`. -/
structure DateText where
  minus : Bool
  year : Str
  month : Str
  day : Str
  /-- Hour, minute, second, and the digits behind the point. -/
  time : Option (Str × Str × Str × Option Str)
  /-- A `Z` at the end. -/
  zulu : Bool

/-- The time of a date, or nothing. -/
def clockText : Option (Str × Str × Str × Option Str) → Str
  | none => []
  | some (h, m, s, f) => 'T' :: (h ++ ':' :: (m ++ ':' :: (s ++ point f)))

/-- The text. -/
def DateText.text (d : DateText) : Str :=
  (if d.minus then ['-'] else []) ++ (d.year ++ '-' :: (d.month ++ '-' :: (d.day
    ++ (clockText d.time ++ if d.zulu then ['Z'] else []))))

/-- Numbers in all places. -/
def DateText.Good (d : DateText) : Prop :=
  Number d.year ∧ Number d.month ∧ Number d.day
    ∧ Opt (fun t => Number t.1 ∧ Number t.2.1 ∧ Number t.2.2.1 ∧ Opt Digits t.2.2.2) d.time

/-- The year with its sign. -/
def DateText.theYear (d : DateText) : Int := if d.minus then - (decVal d.year : Int) else decVal d.year

/-- Hour, minute, second and nanosecond; midnight if there is no time. -/
def DateText.clock (d : DateText) : Nat × Nat × Nat × Nat :=
  match d.time with
  | none => (0, 0, 0, 0)
  | some (h, m, s, f) => (decVal h, decVal m, decVal s, (f.map fraction).getD 0)

/-- The day exists in the calendar, and the time on the clock; a minute may have a leap second. -/
def DateText.Exists (d : DateText) : Prop :=
  -262143 ≤ d.theYear ∧ d.theYear ≤ 262142 ∧ 1 ≤ decVal d.month ∧ decVal d.month ≤ 12
    ∧ 1 ≤ decVal d.day ∧ decVal d.day ≤ daysInMonth d.theYear (decVal d.month)
    ∧ d.clock.1 ≤ 23 ∧ d.clock.2.1 ≤ 59 ∧ d.clock.2.2.1 ≤ 60

/-- What a date means.  A leap second is kept as second 59 with a second of nanoseconds more. -/
def DateText.value (d : DateText) : DateTime :=
  if d.clock.2.2.1 = 60 then
    ⟨d.theYear, decVal d.month, decVal d.day, d.clock.1, d.clock.2.1, 59, 1000000000 + d.clock.2.2.2⟩
  else
    ⟨d.theYear, decVal d.month, decVal d.day, d.clock.1, d.clock.2.1, d.clock.2.2.1, d.clock.2.2.2⟩

/-! ## Digits behind the point -/

theorem nanoVal_take (k : Nat) : ∀ (s : Str) (v : Nat), nanoVal k s v = nanoVal k (s.take k) v := by
  induction k with
  | zero => intro s v; simp [nanoVal]
  | succ k ih =>
    intro s v
    cases s with
    | nil => rfl
    | cons c s => rw [List.take_succ_cons, nanoVal, nanoVal, ih]

theorem decVal_append (a b : Str) : decVal (a ++ b) = decVal a * 10 ^ b.length + decVal b := by
  have : decVal (a ++ b) = b.foldl (fun v c => v * 10 + (c.toNat - 48)) (decVal a) := by
    unfold decVal; rw [List.foldl_append]
  rw [this, foldl_dec]

theorem digit_val (c : Char) (h : isDigit c = true) : c.toNat - 48 < 10 := by
  unfold Refs.isDigit at h
  simp only [Bool.and_eq_true, decide_eq_true_eq] at h
  have h9 : c.toNat ≤ '9'.toNat := h.2
  have : '9'.toNat = 57 := by decide
  omega

theorem decVal_lt (s : Str) (h : ∀ c ∈ s, isDigit c = true) : decVal s < 10 ^ s.length := by
  induction s with
  | nil => decide
  | cons c s ih =>
    have e : decVal (c :: s) = (c.toNat - 48) * 10 ^ s.length + decVal s := by
      have := decVal_append [c] s
      simpa [decVal] using this
    have h1 := digit_val c (h c List.mem_cons_self)
    have h2 := ih fun x hx => h x (List.mem_cons_of_mem _ hx)
    have h3 : (c.toNat - 48) * 10 ^ s.length ≤ 9 * 10 ^ s.length := Nat.mul_le_mul_right _ (by omega)
    rw [e, List.length_cons, Nat.pow_succ]
    omega

theorem nanoVal_fraction (f : Str) (h : ∀ c ∈ f, isDigit c = true) : nanoVal 9 f 0 = fraction f := by
  unfold fraction
  by_cases hl : f.length ≤ 9
  · rw [nanoVal_eq f 9 0 hl, Nat.zero_mul, Nat.zero_add]
    have : 10 ^ 9 = 10 ^ (9 - f.length) * 10 ^ f.length := by rw [← Nat.pow_add]; congr 1; omega
    rw [this, ← Nat.mul_assoc, Nat.mul_div_cancel _ (Nat.pow_pos (by omega))]
  · have htl : (f.take 9).length = 9 := by rw [List.length_take]; omega
    rw [nanoVal_take, nanoVal_eq (f.take 9) 9 0 (by omega), Nat.zero_mul, Nat.zero_add, htl]
    have e := decVal_append (f.take 9) (f.drop 9)
    rw [List.take_append_drop] at e
    have hd := decVal_lt (f.drop 9) fun c hc => h c (List.mem_of_mem_drop hc)
    have hlen : f.length = (f.drop 9).length + 9 := by rw [List.length_drop]; omega
    rw [hlen, Nat.pow_add, ← Nat.div_div_eq_div_mul, Nat.div_div_eq_div_mul, Nat.mul_comm (10 ^ _) (10 ^ 9),
      ← Nat.div_div_eq_div_mul, Nat.mul_div_cancel _ (by omega), e]
    rw [Nat.add_comm, Nat.add_mul_div_right _ _ (Nat.pow_pos (by omega)), Nat.div_eq_of_lt hd]
    simp

theorem fraction_lt (f : Str) (h : ∀ c ∈ f, isDigit c = true) : fraction f < 10 ^ 9 := by
  unfold fraction
  have := decVal_lt f h
  apply (Nat.div_lt_iff_lt_mul (Nat.pow_pos (by omega))).2
  rw [Nat.mul_comm]
  exact Nat.mul_lt_mul_of_pos_left this (by omega)

/-! ## What the pieces read -/

theorem datepart_number (a b : Str) (h : Number a) (hb : Refs.NoHead isDigit b) :
    datepart (a ++ b) = some (decVal a, b) := datepart_of a b _ h.1.1 h.1.2 rfl h.2 hb

theorem digit1_inv (s a r : Str) (h : digit1 s = some (a, r)) : s = a ++ r ∧ Digits a := by
  unfold digit1 at h
  cases ht : s.takeWhile isDigit with
  | nil => rw [ht] at h; cases h
  | cons c t =>
    rw [ht] at h
    injection h with h
    injection h with h1 h2
    subst h1; subst h2
    refine ⟨by rw [← ht, List.takeWhile_append_dropWhile], by simp, ?_⟩
    intro x hx
    rw [← ht] at hx
    have := List.all_takeWhile (p := isDigit) (l := s)
    exact List.all_eq_true.1 this x hx

theorem datepart_inv (s r : Str) (n : Nat) (h : datepart s = some (n, r)) :
    ∃ a, s = a ++ r ∧ Number a ∧ decVal a = n := by
  unfold datepart at h
  cases hd : digit1 s with
  | none => rw [hd] at h; cases h
  | some x =>
    obtain ⟨a, r'⟩ := x
    rw [hd] at h
    simp only at h
    split at h
    · injection h with h
      injection h with h1 h2
      subst h2
      obtain ⟨e1, e2⟩ := digit1_inv s a r' hd
      exact ⟨a, e1, ⟨e2, by assumption⟩, h1⟩
    · cases h

theorem byte_inv (c : Char) (s r : Str) (h : byte c s = some r) : s = c :: r := by
  cases s with
  | nil => cases h
  | cons d s =>
    by_cases e : d = c
    · subst e
      rw [byte_cons] at h
      injection h with h
      rw [h]
    · rw [byte_ne _ _ _ e] at h
      cases h

theorem optNano_point (f : Option Str) (hf : Opt Digits f) (r : Str) (hr : Refs.NoHead isDigit r)
    (hp : ∀ x, r ≠ '.' :: x) : optNano (point f ++ r) = (f.map fraction, r) := by
  cases f with
  | none =>
    show optNano r = (none, r)
    unfold optNano
    cases hb : byte '.' r with
    | none => rfl
    | some x => exact absurd (byte_inv _ _ _ hb) (hp x)
  | some f =>
    obtain ⟨h1, h2⟩ := hf
    show optNano ('.' :: (f ++ r)) = _
    unfold optNano nano
    rw [byte_cons]
    simp only
    rw [digit1_append f r h1 h2 hr]
    simp only [nanoVal_fraction f h2, Option.map_some]

theorem optNano_inv (s : Str) : ∃ f, Opt Digits f ∧ s = point f ++ (optNano s).2
    ∧ (optNano s).1 = f.map fraction := by
  unfold optNano
  cases hb : byte '.' s with
  | none => exact ⟨none, trivial, rfl, rfl⟩
  | some s1 =>
    simp only
    unfold nano
    cases hd : digit1 s1 with
    | none => exact ⟨none, trivial, rfl, rfl⟩
    | some x =>
      obtain ⟨a, r⟩ := x
      obtain ⟨e1, e2⟩ := digit1_inv s1 a r hd
      refine ⟨some a, e2, ?_, ?_⟩
      · show s = '.' :: a ++ r
        rw [byte_inv _ _ _ hb, e1]; rfl
      · show some (nanoVal 9 a 0) = some (fraction a)
        rw [nanoVal_fraction a e2.2]

/-- Texts at which a number with the letter `c` is not found. -/
def Skips (c : Char) (r : Str) : Prop :=
  r = [] ∨ ∃ a x r', r = a ++ x :: r' ∧ (∀ d ∈ a, isDigit d = true) ∧ isDigit x = false ∧ x ≠ c

theorem skips_head (c x : Char) (r : Str) (hx : isDigit x = false) (hc : x ≠ c) : Skips c (x :: r) :=
  .inr ⟨[], x, r, rfl, by simp, hx, hc⟩

theorem term_skips (c : Char) (r : Str) (h : Skips c r) : term datepart c r = none := by
  rcases h with rfl | ⟨a, x, r', rfl, ha, hx, hc⟩
  · rfl
  · unfold term
    cases hd : datepart (a ++ x :: r') with
    | none => rfl
    | some y =>
      obtain ⟨n, r''⟩ := y
      simp only
      have : r'' = x :: r' := by
        unfold datepart at hd
        by_cases hne : a = []
        · subst hne
          have : digit1 ([] ++ x :: r') = none := by
            unfold digit1
            rw [List.nil_append, List.takeWhile_cons_of_neg (by rw [hx]; decide)]
          rw [this] at hd; cases hd
        · rw [digit1_append a _ hne ha (noDigit _ _ hx)] at hd
          simp only at hd
          split at hd
          · injection hd with hd; injection hd with _ hd; exact hd.symm
          · cases hd
      subst this
      rw [byte_ne _ _ _ hc]

theorem opt_unit (c : Char) (hc : isDigit c = false) (o : Option Str) (ho : Opt Number o) (r : Str)
    (hr : Skips c r) : opt (term datepart c) (unit c o ++ r) = (o.map decVal, r) := by
  cases o with
  | none =>
    show opt (term datepart c) r = _
    unfold opt
    rw [term_skips c r hr]
    rfl
  | some a =>
    show opt (term datepart c) (a ++ [c] ++ r) = _
    rw [List.append_assoc, List.singleton_append]
    exact opt_term datepart c _ _ _ (datepart_number a _ ho (noDigit _ _ hc))

theorem skips_unit (c c' : Char) (hc' : isDigit c' = false) (hne : c' ≠ c) (o : Option Str)
    (ho : Opt Number o) (r : Str) (hr : Skips c r) : Skips c (unit c' o ++ r) := by
  cases o with
  | none => exact hr
  | some a =>
    refine .inr ⟨a, c', r, ?_, ho.1.2, hc', hne⟩
    show a ++ [c'] ++ r = _
    simp

theorem skips_sec (c : Char) (h1 : '.' ≠ c) (h2 : 'S' ≠ c) (o : Option (Str × Option Str))
    (ho : Opt (fun s : Str × Option Str => Number s.1 ∧ Opt Digits s.2) o) : Skips c (secText o) := by
  cases o with
  | none => exact .inl rfl
  | some x =>
    obtain ⟨s, f⟩ := x
    cases f with
    | none =>
      refine .inr ⟨s, 'S', [], ?_, ho.1.1.2, by decide, h2⟩
      show s ++ [] ++ ['S'] = _
      simp
    | some f =>
      refine .inr ⟨s, '.', f ++ ['S'], ?_, ho.1.1.2, by decide, h1⟩
      show s ++ '.' :: f ++ ['S'] = _
      simp

theorem noHead_point (f : Option Str) (c : Char) (hc : isDigit c = false) (r : Str) :
    Refs.NoHead isDigit (point f ++ c :: r) := by
  cases f with
  | none => exact noDigit _ _ hc
  | some f => exact noDigit _ _ (by decide)

theorem opt_sec (o : Option (Str × Option Str))
    (ho : Opt (fun s : Str × Option Str => Number s.1 ∧ Opt Digits s.2) o) :
    opt (term seconds 'S') (secText o) = (o.map fun s => (decVal s.1, s.2.map fraction), []) := by
  cases o with
  | none => rfl
  | some x =>
    obtain ⟨s, f⟩ := x
    have hs : seconds (s ++ point f ++ ['S']) = some ((decVal s, f.map fraction), ['S']) := by
      unfold seconds
      rw [List.append_assoc, datepart_number s _ ho.1 (noHead_point f 'S' (by decide) [])]
      simp only
      rw [optNano_point f ho.2 ['S'] (noDigit _ _ (by decide)) (by intro x h; cases h)]
    show opt (term seconds 'S') (s ++ point f ++ ['S']) = _
    unfold opt term
    rw [hs]
    simp [byte_cons]

/-- The grammar reads the parts of a text. -/
theorem durParts_text (d : DurText) (h : d.Good) : durParts d.text
    = some ⟨d.day.map decVal, d.time.map fun t => (t.1.map decVal, t.2.1.map decVal,
      t.2.2.map fun s => (decVal s.1, s.2.map fraction))⟩ := by
  obtain ⟨day, time⟩ := d
  obtain ⟨h1, h2⟩ := h
  unfold DurText.text durParts
  rw [byte_cons]
  simp only
  have hsk : Skips 'D' (timeText time) := by
    cases time with
    | none => exact .inl rfl
    | some t => exact skips_head _ _ _ (by decide) (by decide)
  rw [opt_unit 'D' (by decide) day h1 _ hsk]
  simp only
  cases time with
  | none => rfl
  | some t =>
    obtain ⟨hh, mm, ss⟩ := t
    obtain ⟨g1, g2, g3⟩ := h2
    have ht : durTime (timeText (some (hh, mm, ss)))
        = some ((hh.map decVal, mm.map decVal, ss.map fun s => (decVal s.1, s.2.map fraction)), []) := by
      unfold durTime timeText
      rw [byte_cons]
      simp only
      rw [opt_unit 'H' (by decide) hh g1 _ (skips_unit 'H' 'M' (by decide) (by decide) mm g2 _
        (skips_sec 'H' (by decide) (by decide) ss g3))]
      simp only
      rw [opt_unit 'M' (by decide) mm g2 _ (skips_sec 'M' (by decide) (by decide) ss g3)]
      simp only
      rw [opt_sec ss g3]
    unfold opt
    rw [ht]
    rfl

/-! ## Only these texts are read -/

theorem opt_unit_inv (c : Char) (s : Str) : ∃ o, Opt Number o
    ∧ s = unit c o ++ (opt (term datepart c) s).2 ∧ (opt (term datepart c) s).1 = o.map decVal := by
  unfold opt term
  cases hd : datepart s with
  | none => exact ⟨none, trivial, rfl, rfl⟩
  | some x =>
    obtain ⟨n, r⟩ := x
    simp only
    cases hb : byte c r with
    | none => exact ⟨none, trivial, rfl, rfl⟩
    | some r' =>
      obtain ⟨a, e1, e2, e3⟩ := datepart_inv s r n hd
      refine ⟨some a, e2, ?_, ?_⟩
      · show s = a ++ [c] ++ r'
        rw [e1, byte_inv _ _ _ hb]; simp
      · show some n = some (decVal a)
        rw [e3]

theorem opt_sec_inv (s : Str) : ∃ o, Opt (fun s : Str × Option Str => Number s.1 ∧ Opt Digits s.2) o
    ∧ s = secText o ++ (opt (term seconds 'S') s).2
    ∧ (opt (term seconds 'S') s).1 = o.map fun s => (decVal s.1, s.2.map fraction) := by
  unfold opt term seconds
  cases hd : datepart s with
  | none => exact ⟨none, trivial, rfl, rfl⟩
  | some x =>
    obtain ⟨n, r⟩ := x
    simp only
    obtain ⟨f, g1, g2, g3⟩ := optNano_inv r
    obtain ⟨a, e1, e2, e3⟩ := datepart_inv s r n hd
    cases hb : byte 'S' (optNano r).2 with
    | none => exact ⟨none, trivial, rfl, rfl⟩
    | some r' =>
      refine ⟨some (a, f), ⟨e2, g1⟩, ?_, ?_⟩
      · show s = a ++ point f ++ ['S'] ++ r'
        rw [byte_inv _ _ _ hb] at g2
        rw [e1, g2]; simp
      · show some (n, (optNano r).1) = some (decVal a, f.map fraction)
        rw [e3, g3]

theorem durParts_inv (s : Str) (p : DurParts) (h : durParts s = some p) :
    ∃ d : DurText, d.Good ∧ d.text = s ∧ p = ⟨d.day.map decVal, d.time.map fun t => (t.1.map decVal,
      t.2.1.map decVal, t.2.2.map fun s => (decVal s.1, s.2.map fraction))⟩ := by
  unfold durParts at h
  cases hb : byte 'P' s with
  | none => rw [hb] at h; cases h
  | some s1 =>
    rw [hb] at h
    simp only at h
    obtain ⟨day, a1, a2, a3⟩ := opt_unit_inv 'D' s1
    rw [a3] at h
    generalize hs2 : (opt (term datepart 'D') s1).2 = s2 at *
    have hp := byte_inv _ _ _ hb
    cases ht : durTime s2 with
    | none =>
      have e : opt durTime s2 = (none, s2) := by unfold opt; rw [ht]
      rw [e] at h
      simp only at h
      split at h
      · rename_i hnil
        injection h with h
        refine ⟨⟨day, none⟩, ⟨a1, trivial⟩, ?_, h.symm⟩
        show 'P' :: (unit 'D' day ++ []) = s
        rw [hp, a2, hnil]
      · cases h
    | some x =>
      obtain ⟨t, s3⟩ := x
      have e : opt durTime s2 = (some t, s3) := by unfold opt; rw [ht]
      rw [e] at h
      simp only at h
      split at h
      · rename_i hnil
        injection h with h
        unfold durTime at ht
        cases hb2 : byte 'T' s2 with
        | none => rw [hb2] at ht; cases ht
        | some s4 =>
          rw [hb2] at ht
          simp only at ht
          injection ht with ht
          injection ht with t1 t2
          obtain ⟨hh, b1, b2, b3⟩ := opt_unit_inv 'H' s4
          rw [b3] at t1
          generalize (opt (term datepart 'H') s4).2 = s5 at *
          obtain ⟨mm, c1, c2, c3⟩ := opt_unit_inv 'M' s5
          rw [c3] at t1
          generalize (opt (term datepart 'M') s5).2 = s6 at *
          obtain ⟨ss, d1, d2, d3⟩ := opt_sec_inv s6
          rw [d3] at t1
          refine ⟨⟨day, some (hh, mm, ss)⟩, ⟨a1, b1, c1, d1⟩, ?_, ?_⟩
          · show 'P' :: (unit 'D' day ++ 'T' :: (unit 'H' hh ++ (unit 'M' mm ++ secText ss))) = s
            rw [t2, hnil, List.append_nil] at d2
            rw [hp, a2, byte_inv _ _ _ hb2, b2, c2, d2]
          · rw [← h, ← t1]; rfl
      · cases h

/-! ## Durations -/

/-- The sum of the parts that the reader makes. -/
theorem dur_sum (d : DurText) (s : Str) (hp : durParts s = some ⟨d.day.map decVal, d.time.map fun t =>
    (t.1.map decVal, t.2.1.map decVal, t.2.2.map fun s => (decVal s.1, s.2.map fraction))⟩) (n : Nat) :
    parseDuration s = .ok n ↔ n = d.nanos ∧ d.nanos ≤ maxDuration := by
  have hopt : ∀ (acc unit : Nat) (o : Option Nat) (k : Nat → Except TimeFail Nat) (n : Nat),
      acc ≤ maxDuration → (Except.bind (addOpt acc unit o) k = .ok n
        ↔ acc + o.getD 0 * unit ≤ maxDuration ∧ k (acc + o.getD 0 * unit) = .ok n) := by
    intro acc unit o k n hacc
    cases o with
    | none =>
      show k acc = .ok n ↔ acc + 0 * unit ≤ maxDuration ∧ k (acc + 0 * unit) = .ok n
      rw [Nat.zero_mul, Nat.add_zero]
      exact ⟨fun h => ⟨hacc, h⟩, fun h => h.2⟩
    | some m =>
      show Except.bind (addUnits acc unit m) k = .ok n
        ↔ acc + m * unit ≤ maxDuration ∧ k (acc + m * unit) = .ok n
      unfold addUnits
      split
      · split
        · rename_i h; exact ⟨fun hk => ⟨h, hk⟩, fun hk => hk.2⟩
        · rename_i h; exact ⟨nofun, fun hk => absurd hk.1 h⟩
      · rename_i h; exact ⟨nofun, fun hk => absurd (Nat.le_trans (Nat.le_add_left _ _) hk.1) h⟩
  have hlast : ∀ (acc : Nat) (o : Option Nat), addOpt acc 1 o = Except.bind (addOpt acc 1 o) .ok := by
    intro acc o
    cases addOpt acc 1 o <;> rfl
  obtain ⟨day, time⟩ := d
  unfold parseDuration
  rw [hp]
  simp only [bind, pure, Except.pure]
  rw [hopt 0 _ _ _ _ (Nat.zero_le _), Nat.zero_add]
  cases time with
  | none =>
    show (num day * (86400 * 10 ^ 9) ≤ maxDuration ∧ Except.ok (num day * (86400 * 10 ^ 9)) = Except.ok n) ↔
      n = num day * (86400 * 10 ^ 9) + 0 ∧ num day * (86400 * 10 ^ 9) + 0 ≤ maxDuration
    rw [Nat.add_zero]
    constructor
    · intro ⟨h1, h2⟩; exact ⟨(Except.ok.inj h2).symm, h1⟩
    · intro ⟨h1, h2⟩; exact ⟨h2, by rw [h1]⟩
  | some t =>
    obtain ⟨hh, mm, ss⟩ := t
    simp only [Option.map_some]
    show (num day * (86400 * 10 ^ 9) ≤ maxDuration ∧ _) ↔ _
    have e : (DurText.mk day (some (hh, mm, ss))).nanos
        = num day * (86400 * 10 ^ 9) + (num hh * (3600 * 10 ^ 9) + num mm * (60 * 10 ^ 9) + secNanos ss) := rfl
    have e1 : (Option.map decVal day).getD 0 = num day := rfl
    have e2 : (Option.map decVal hh).getD 0 = num hh := rfl
    have e3 : (Option.map decVal mm).getD 0 = num mm := rfl
    rw [e, e1]
    obtain ⟨A, hA⟩ : ∃ A, A = num day * (86400 * 10 ^ 9) := ⟨_, rfl⟩
    rw [← hA]
    constructor
    · intro ⟨h1, h2⟩
      rw [hopt _ _ _ _ _ h1, e2] at h2
      obtain ⟨h3, h4⟩ := h2
      rw [hopt _ _ _ _ _ h3, e3] at h4
      obtain ⟨h5, h6⟩ := h4
      cases ss with
      | none =>
        have := Except.ok.inj h6
        have hz : secNanos none = 0 := rfl
        rw [hz]
        omega
      | some x =>
        obtain ⟨s, f⟩ := x
        have h7 : Except.bind (addOpt (A + num hh * (3600 * 10 ^ 9) + num mm * (60 * 10 ^ 9)) (10 ^ 9)
          (some (decVal s))) (fun r => addOpt r 1 (f.map fraction)) = .ok n := h6
        rw [hopt _ _ _ _ _ h5] at h7
        obtain ⟨h8, h9⟩ := h7
        rw [hlast, hopt _ _ _ _ _ h8] at h9
        obtain ⟨h10, h11⟩ := h9
        have h12 := Except.ok.inj h11
        have hz : secNanos (some (s, f)) = decVal s * 10 ^ 9 + (f.map fraction).getD 0 := rfl
        simp only [Option.getD_some, Nat.mul_one] at h10 h12
        rw [hz]
        omega
    · intro ⟨h1, h2⟩
      obtain ⟨B, hB⟩ : ∃ B, B = num hh * (3600 * 10 ^ 9) := ⟨_, rfl⟩
      obtain ⟨C, hC⟩ : ∃ C, C = num mm * (60 * 10 ^ 9) := ⟨_, rfl⟩
      rw [← hB, ← hC] at h1 h2
      refine ⟨by omega, ?_⟩
      rw [hopt _ _ _ _ _ (by omega), e2, ← hB]
      refine ⟨by omega, ?_⟩
      rw [hopt _ _ _ _ _ (by omega), e3, ← hC]
      refine ⟨by omega, ?_⟩
      cases ss with
      | none =>
        have hz : secNanos none = 0 := rfl
        rw [hz] at h1
        show Except.ok (A + B + C) = _
        rw [h1]
        simp only [Nat.add_zero, Nat.add_assoc]
      | some x =>
        obtain ⟨s, f⟩ := x
        have hz : secNanos (some (s, f)) = decVal s * 10 ^ 9 + (f.map fraction).getD 0 := rfl
        rw [hz] at h1 h2
        show Except.bind (addOpt (A + B + C) (10 ^ 9)
          (some (decVal s))) (fun r => addOpt r 1 (f.map fraction)) = .ok n
        rw [hopt _ _ _ _ _ (by omega)]
        simp only [Option.getD_some]
        refine ⟨by omega, ?_⟩
        rw [hlast, hopt _ _ _ _ _ (by omega)]
        simp only [Nat.mul_one]
        refine ⟨by omega, ?_⟩
        rw [h1]
        congr 1
        omega

/-- **C101**, durations: exactly these texts are read, and with this meaning. -/
theorem C101_duration (s : Str) (n : Nat) :
    parseDuration s = .ok n
      ↔ ∃ d : DurText, d.Good ∧ d.text = s ∧ d.nanos = n ∧ n ≤ maxDuration := by
  constructor
  · intro h
    cases hp : durParts s with
    | none =>
      unfold parseDuration at h
      rw [hp] at h
      cases h
    | some p =>
      obtain ⟨d, g1, g2, rfl⟩ := durParts_inv s p hp
      obtain ⟨h1, h2⟩ := (dur_sum d s hp n).1 h
      exact ⟨d, g1, g2, h1.symm, by rw [h1]; exact h2⟩
  · rintro ⟨d, g1, rfl, h1, h2⟩
    exact (dur_sum d d.text (durParts_text d g1) n).2 ⟨h1.symm, by rw [h1]; exact h2⟩

/-- Only these characters are in a text that is read. -/
def DurChar (c : Char) : Prop := isDigit c = true ∨ c ∈ ['P', 'D', 'T', 'H', 'M', 'S', '.']

theorem unit_char (c : Char) (hc : DurChar c) (o : Option Str) (ho : Opt Number o) :
    ∀ x ∈ unit c o, DurChar x := by
  intro x hx
  cases o with
  | none => cases hx
  | some a =>
    rcases List.mem_append.1 hx with h | h
    · exact .inl (ho.1.2 x h)
    · rw [List.mem_singleton] at h; subst h; exact hc

theorem point_char (f : Option Str) (hf : Opt Digits f) : ∀ x ∈ point f, isDigit x = true ∨ x = '.' := by
  intro x hx
  cases f with
  | none => cases hx
  | some a =>
    rcases List.mem_cons.1 hx with h | h
    · exact .inr h
    · exact .inl (hf.2 x h)

theorem dur_char (d : DurText) (h : d.Good) : ∀ x ∈ d.text, DurChar x := by
  obtain ⟨day, time⟩ := d
  intro x hx
  rcases List.mem_cons.1 hx with h1 | h1
  · subst h1; exact .inr (by decide)
  rcases List.mem_append.1 h1 with h1 | h1
  · exact unit_char 'D' (.inr (by decide)) day h.1 x h1
  cases time with
  | none => cases h1
  | some t =>
    obtain ⟨hh, mm, ss⟩ := t
    obtain ⟨_, g1, g2, g3⟩ := h
    rcases List.mem_cons.1 h1 with h2 | h2
    · subst h2; exact .inr (by decide)
    rcases List.mem_append.1 h2 with h2 | h2
    · exact unit_char 'H' (.inr (by decide)) hh g1 x h2
    rcases List.mem_append.1 h2 with h2 | h2
    · exact unit_char 'M' (.inr (by decide)) mm g2 x h2
    cases ss with
    | none => cases h2
    | some s =>
      obtain ⟨s, f⟩ := s
      rcases List.mem_append.1 h2 with h2 | h2
      · rcases List.mem_append.1 h2 with h2 | h2
        · exact .inl (g3.1.1.2 x h2)
        · rcases point_char f g3.2 x h2 with h3 | h3
          · exact .inl h3
          · subst h3; exact .inr (by decide)
      · rw [List.mem_singleton] at h2; subst h2; exact .inr (by decide)

/-- C101 fails for durations with a sign, with years, with weeks, or with spaces around them: a text
with any character that is not in `DurChar` is never read.  (`-PT1H`, `P1Y` and `P2W` are durations
of the standards.) -/
theorem C101_duration_refused_counterexample (s : Str) (n : Nat) (c : Char) (hc : c ∈ s) (hb : ¬ DurChar c) :
    parseDuration s ≠ .ok n := by
  intro h
  obtain ⟨d, g1, rfl, _⟩ := (C101_duration s n).1 h
  exact hb (dur_char d g1 c hc)

example : ¬ DurChar '-' ∧ ¬ DurChar 'Y' ∧ ¬ DurChar 'W' ∧ ¬ DurChar ' ' := by
  unfold DurChar; decide

/-- C101 fails for durations with months. -/
theorem C101_months_counterexample (a : Str) (ha : Digits a) (n : Nat) :
    parseDuration ('P' :: (a ++ ['M'])) ≠ .ok n := by
  have hd : durParts ('P' :: (a ++ ['M'])) = none := by
    unfold durParts
    rw [byte_cons]
    simp only
    have : opt (term datepart 'D') (a ++ ['M']) = (none, a ++ ['M']) := by
      unfold opt
      rw [term_skips 'D' _ (.inr ⟨a, 'M', [], rfl, ha.2, by decide, by decide⟩)]
    rw [this]
    simp only
    have ht : opt durTime (a ++ ['M']) = (none, a ++ ['M']) := by
      obtain ⟨h1, h2⟩ := ha
      cases a with
      | nil => exact absurd rfl h1
      | cons c a =>
        have hc : c ≠ 'T' := by
          intro e; subst e
          have := h2 'T' List.mem_cons_self
          exact absurd this (by decide)
        unfold opt durTime
        rw [List.cons_append, byte_ne _ _ _ hc]
    rw [ht]
    simp
  unfold parseDuration
  rw [hd]
  nofun

/-- Concrete cases: what LibreOffice writes for one and a half hours, a day and a fraction with more
digits than are kept, and the empty duration, which is no duration of the standards. -/
example : parseDuration "PT01H30M00S".toList = .ok (5400 * 10 ^ 9)
    ∧ parseDuration "P1DT0.1234567899S".toList = .ok (86400 * 10 ^ 9 + 123456789)
    ∧ parseDuration "P".toList = .ok 0 := by decide

example : ∃ d : DurText, d.Good ∧ d.text = "P1DT0.1234567899S".toList
    ∧ d.nanos = 86400 * 10 ^ 9 + 123456789 :=
  ⟨⟨some "1".toList, some (none, none, some ("0".toList, some "1234567899".toList))⟩,
    ⟨⟨⟨by decide, by decide⟩, by decide⟩, trivial, trivial, ⟨⟨by decide, by decide⟩, by decide⟩, by decide, by decide⟩,
    by decide, by decide⟩

/-! ## Dates -/

theorem dtTime_clock (t : Str × Str × Str × Option Str) (ht : Number t.1 ∧ Number t.2.1 ∧ Number t.2.2.1
    ∧ Opt Digits t.2.2.2) (r : Str) (hr : Refs.NoHead isDigit r) (hp : ∀ x, r ≠ '.' :: x) :
    dtTime (clockText (some t) ++ r)
      = some (⟨decVal t.1, decVal t.2.1, decVal t.2.2.1, t.2.2.2.map fraction⟩, r) := by
  obtain ⟨h, m, s, f⟩ := t
  obtain ⟨g1, g2, g3, g4⟩ := ht
  have e : clockText (some (h, m, s, f)) ++ r = 'T' :: (h ++ ':' :: (m ++ ':' :: (s ++ (point f ++ r)))) := by
    simp [clockText]
  have hn : Refs.NoHead isDigit (point f ++ r) := by
    cases f with
    | none => exact hr
    | some f => exact noDigit _ _ (by decide)
  rw [e]
  unfold dtTime
  simp only [bind, Option.bind, pure, byte_cons]
  rw [datepart_number h _ g1 (noDigit _ _ (by decide))]
  simp only [byte_cons]
  rw [datepart_number m _ g2 (noDigit _ _ (by decide))]
  simp only [byte_cons]
  rw [datepart_number s _ g3 hn]
  simp only
  rw [optNano_point f g4 r hr hp]

/-- The grammar reads the parts of a text. -/
theorem dtParts_text (d : DateText) (h : d.Good) : dtParts d.text
    = some ⟨d.minus, decVal d.year, decVal d.month, decVal d.day, d.time.map fun t =>
      ⟨decVal t.1, decVal t.2.1, decVal t.2.2.1, t.2.2.2.map fraction⟩⟩ := by
  obtain ⟨minus, y, mo, dd, time, z⟩ := d
  obtain ⟨g1, g2, g3, g4⟩ := h
  simp only at *
  have hsign : ∀ r : Str, optByte '-' ((if minus then ['-'] else []) ++ (y ++ r)) = (minus, y ++ r) := by
    intro r
    cases minus with
    | true => rfl
    | false =>
      rw [if_neg (by simp), List.nil_append]
      obtain ⟨⟨k1, k2⟩, _⟩ := g1
      cases y with
      | nil => exact absurd rfl k1
      | cons c s =>
        unfold optByte
        rw [List.cons_append, byte_ne _ _ _ (digit_not_minus (k2 c List.mem_cons_self))]
  have hz : ∀ z : Bool, (optByte 'Z' (if z then ['Z'] else [])).2 = [] := by decide
  have hzd : Refs.NoHead isDigit (if z then ['Z'] else []) := by
    cases z with
    | false => exact Refs.noHead_nil
    | true => exact noDigit _ _ (by decide)
  have hzp : ∀ x, (if z then ['Z'] else []) ≠ '.' :: x := by cases z <;> intro x hx <;> cases hx
  have hno : Refs.NoHead isDigit (clockText time ++ if z then ['Z'] else []) := by
    cases time with
    | none => exact hzd
    | some t => exact noDigit _ _ (by decide)
  unfold dtParts DateText.text
  simp only [bind, Option.bind, pure, hsign]
  rw [datepart_number y _ g1 (noDigit _ _ (by decide))]
  simp only [byte_cons]
  rw [datepart_number mo _ g2 (noDigit _ _ (by decide))]
  simp only [byte_cons]
  rw [datepart_number dd _ g3 hno]
  simp only
  cases time with
  | none =>
    have : opt dtTime (clockText none ++ if z then ['Z'] else []) = (none, if z then ['Z'] else []) := by
      cases z <;> rfl
    rw [this]
    simp only [hz, if_true, Option.map_none]
  | some t =>
    have : opt dtTime (clockText (some t) ++ if z then ['Z'] else [])
        = (some ⟨decVal t.1, decVal t.2.1, decVal t.2.2.1, t.2.2.2.map fraction⟩, if z then ['Z'] else []) := by
      unfold opt
      rw [dtTime_clock t g4 _ hzd hzp]
    rw [this]
    simp only [hz, if_true, Option.map_some]

theorem dtTime_inv (s r : Str) (p : TimeParts) (h : dtTime s = some (p, r)) :
    ∃ t : Str × Str × Str × Option Str, (Number t.1 ∧ Number t.2.1 ∧ Number t.2.2.1 ∧ Opt Digits t.2.2.2)
      ∧ s = clockText (some t) ++ r := by
  unfold dtTime at h
  simp only [bind, Option.bind, pure] at h
  cases h1 : byte 'T' s with
  | none => rw [h1] at h; cases h
  | some s1 =>
    rw [h1] at h; simp only at h
    cases h2 : datepart s1 with
    | none => rw [h2] at h; cases h
    | some x2 =>
      obtain ⟨n2, s2⟩ := x2
      rw [h2] at h; simp only at h
      cases h3 : byte ':' s2 with
      | none => rw [h3] at h; cases h
      | some s3 =>
        rw [h3] at h; simp only at h
        cases h4 : datepart s3 with
        | none => rw [h4] at h; cases h
        | some x4 =>
          obtain ⟨n4, s4⟩ := x4
          rw [h4] at h; simp only at h
          cases h5 : byte ':' s4 with
          | none => rw [h5] at h; cases h
          | some s5 =>
            rw [h5] at h; simp only at h
            cases h6 : datepart s5 with
            | none => rw [h6] at h; cases h
            | some x6 =>
              obtain ⟨n6, s6⟩ := x6
              rw [h6] at h; simp only at h
              injection h with h
              injection h with _ hr
              obtain ⟨a2, e2, k2, _⟩ := datepart_inv _ _ _ h2
              obtain ⟨a4, e4, k4, _⟩ := datepart_inv _ _ _ h4
              obtain ⟨a6, e6, k6, _⟩ := datepart_inv _ _ _ h6
              obtain ⟨f, q1, q2, _⟩ := optNano_inv s6
              refine ⟨(a2, a4, a6, f), ⟨k2, k4, k6, q1⟩, ?_⟩
              rw [hr] at q2
              rw [byte_inv _ _ _ h1, e2, byte_inv _ _ _ h3, e4, byte_inv _ _ _ h5, e6]
              show 'T' :: (a2 ++ ':' :: (a4 ++ ':' :: (a6 ++ s6)))
                = 'T' :: (a2 ++ ':' :: (a4 ++ ':' :: (a6 ++ point f))) ++ r
              rw [q2]
              simp

theorem optByte_inv (c : Char) (s : Str) :
    s = (if (optByte c s).1 then [c] else []) ++ (optByte c s).2 := by
  unfold optByte
  cases h : byte c s with
  | none => rfl
  | some r => exact byte_inv c s r h

theorem dtParts_inv (s : Str) (p : DtParts) (h : dtParts s = some p) :
    ∃ d : DateText, d.Good ∧ d.text = s := by
  unfold dtParts at h
  simp only [bind, Option.bind, pure] at h
  have h0 := optByte_inv '-' s
  generalize (optByte '-' s).2 = s0 at *
  generalize (optByte '-' s).1 = minus at *
  cases h1 : datepart s0 with
  | none => rw [h1] at h; cases h
  | some x1 =>
    obtain ⟨n1, s1⟩ := x1
    rw [h1] at h; simp only at h
    cases h2 : byte '-' s1 with
    | none => rw [h2] at h; cases h
    | some s2 =>
      rw [h2] at h; simp only at h
      cases h3 : datepart s2 with
      | none => rw [h3] at h; cases h
      | some x3 =>
        obtain ⟨n3, s3⟩ := x3
        rw [h3] at h; simp only at h
        cases h4 : byte '-' s3 with
        | none => rw [h4] at h; cases h
        | some s4 =>
          rw [h4] at h; simp only at h
          cases h5 : datepart s4 with
          | none => rw [h5] at h; cases h
          | some x5 =>
            obtain ⟨n5, s5⟩ := x5
            rw [h5] at h; simp only at h
            obtain ⟨a1, e1, k1, _⟩ := datepart_inv _ _ _ h1
            obtain ⟨a3, e3, k3, _⟩ := datepart_inv _ _ _ h3
            obtain ⟨a5, e5, k5, _⟩ := datepart_inv _ _ _ h5
            split at h
            · rename_i hz
              have hzz := optByte_inv 'Z' (opt dtTime s5).2
              rw [hz, List.append_nil] at hzz
              have htime : ∃ t, Opt (fun t : Str × Str × Str × Option Str => Number t.1 ∧ Number t.2.1
                  ∧ Number t.2.2.1 ∧ Opt Digits t.2.2.2) t ∧ s5 = clockText t ++ (opt dtTime s5).2 := by
                cases ht : dtTime s5 with
                | none =>
                  refine ⟨none, trivial, ?_⟩
                  unfold opt; rw [ht]; rfl
                | some x =>
                  obtain ⟨q, r⟩ := x
                  obtain ⟨t, g1, g2⟩ := dtTime_inv s5 r q ht
                  refine ⟨some t, g1, ?_⟩
                  have : (opt dtTime s5).2 = r := by unfold opt; rw [ht]
                  rw [this]; exact g2
              obtain ⟨t, g1, g2⟩ := htime
              refine ⟨⟨minus, a1, a3, a5, t, (optByte 'Z' (opt dtTime s5).2).1⟩, ⟨k1, k3, k5, g1⟩, ?_⟩
              show (if minus then ['-'] else []) ++ (a1 ++ '-' :: (a3 ++ '-' :: (a5 ++ (clockText t
                ++ if (optByte 'Z' (opt dtTime s5).2).1 then ['Z'] else [])))) = s
              rw [← hzz, ← g2, ← e5, ← byte_inv _ _ _ h4, ← e3, ← byte_inv _ _ _ h2, ← e1, ← h0]
            · cases h

/-- **C101**, dates: exactly these texts are read. -/
theorem C101_date_accepts (s : Str) :
    (∃ v, parseDateTime s = some v) ↔ ∃ d : DateText, d.Good ∧ d.text = s := by
  constructor
  · rintro ⟨v, h⟩
    unfold parseDateTime at h
    cases hp : dtParts s with
    | none => rw [hp] at h; cases h
    | some p => exact dtParts_inv s p hp
  · rintro ⟨d, g, rfl⟩
    unfold parseDateTime
    rw [dtParts_text d g]
    exact ⟨_, rfl⟩

/-- **C101**, dates: a day of the calendar is read as this day, at the given time or at midnight; a
`Z` at the end changes nothing. -/
theorem C101_date (d : DateText) (h : d.Good) (hx : d.Exists) : parseDateTime d.text = some d.value := by
  unfold parseDateTime
  rw [dtParts_text d h]
  obtain ⟨minus, y, mo, dd, time, z⟩ := d
  obtain ⟨x1, x2, x3, x4, x5, x6, x7, x8, x9⟩ := hx
  simp only at *
  have hyy : asI32 (if minus = true then - (decVal y : Int) else decVal y)
      = DateText.theYear ⟨minus, y, mo, dd, time, z⟩ := by
    have e : DateText.theYear ⟨minus, y, mo, dd, time, z⟩
      = if minus = true then - (decVal y : Int) else decVal y := rfl
    rw [e] at x1 x2 ⊢
    unfold asI32
    rw [Int.emod_eq_of_lt (by omega) (by omega)]; omega
  rw [hyy]
  have hval0 : DateText.value ⟨minus, y, mo, dd, time, z⟩
      = if (DateText.clock ⟨minus, y, mo, dd, time, z⟩).2.2.1 = 60 then
        ⟨DateText.theYear ⟨minus, y, mo, dd, time, z⟩, decVal mo, decVal dd,
          (DateText.clock ⟨minus, y, mo, dd, time, z⟩).1, (DateText.clock ⟨minus, y, mo, dd, time, z⟩).2.1, 59,
          1000000000 + (DateText.clock ⟨minus, y, mo, dd, time, z⟩).2.2.2⟩
      else ⟨DateText.theYear ⟨minus, y, mo, dd, time, z⟩, decVal mo, decVal dd,
          (DateText.clock ⟨minus, y, mo, dd, time, z⟩).1, (DateText.clock ⟨minus, y, mo, dd, time, z⟩).2.1,
          (DateText.clock ⟨minus, y, mo, dd, time, z⟩).2.2.1, (DateText.clock ⟨minus, y, mo, dd, time, z⟩).2.2.2⟩ := rfl
  generalize DateText.theYear ⟨minus, y, mo, dd, time, z⟩ = Y at *
  have hdays := days_le Y (decVal mo)
  have hclock : ∃ hh mm ss ff, DateText.clock ⟨minus, y, mo, dd, time, z⟩ = (hh, mm, ss, ff)
      ∧ ((time.map fun t => (⟨decVal t.1, decVal t.2.1, decVal t.2.2.1, t.2.2.2.map fraction⟩ : TimeParts)).getD
        ⟨0, 0, 0, none⟩).hour = hh
      ∧ ((time.map fun t => (⟨decVal t.1, decVal t.2.1, decVal t.2.2.1, t.2.2.2.map fraction⟩ : TimeParts)).getD
        ⟨0, 0, 0, none⟩).minute = mm
      ∧ ((time.map fun t => (⟨decVal t.1, decVal t.2.1, decVal t.2.2.1, t.2.2.2.map fraction⟩ : TimeParts)).getD
        ⟨0, 0, 0, none⟩).second = ss
      ∧ ((time.map fun t => (⟨decVal t.1, decVal t.2.1, decVal t.2.2.1, t.2.2.2.map fraction⟩ : TimeParts)).getD
        ⟨0, 0, 0, none⟩).nanos.getD 0 = ff ∧ ff ≤ 999999999 := by
    cases time with
    | none => exact ⟨0, 0, 0, 0, rfl, rfl, rfl, rfl, rfl, by omega⟩
    | some t =>
      obtain ⟨a, b, c, f⟩ := t
      refine ⟨_, _, _, _, rfl, rfl, rfl, rfl, rfl, ?_⟩
      cases f with
      | none => exact Nat.zero_le _
      | some f =>
        have := fraction_lt f h.2.2.2.2.2.2.2
        show fraction f ≤ 999999999
        omega
  obtain ⟨hh, mm, ss, ff, c1, c2, c3, c4, c5, c6⟩ := hclock
  have hu : ∀ k, k < 100 → asU32 k = k := by intro k hk; unfold asU32; omega
  have hval : DateText.value ⟨minus, y, mo, dd, time, z⟩ = if ss = 60 then
      ⟨Y, decVal mo, decVal dd, hh, mm, 59, 1000000000 + ff⟩ else ⟨Y, decVal mo, decVal dd, hh, mm, ss, ff⟩ := by
    rw [hval0, c1]
  rw [c1] at x7 x8 x9
  simp only at x7 x8 x9
  rw [c2, c3, c4, c5, hval]
  rw [hu _ (by omega), hu _ (by omega), hu (hh / 12) (by omega), hu (hh % 12) (by omega),
    hu mm (by omega), hu ss (by omega)]
  unfold resolve
  have hvd : validDate Y (decVal mo) (decVal dd) = true := by
    unfold validDate
    simp only [Bool.and_eq_true, decide_eq_true_eq]
    exact ⟨⟨⟨⟨⟨x1, x2⟩, x3⟩, x4⟩, x5⟩, x6⟩
  rw [if_pos (by
    simp only [Bool.and_eq_true, decide_eq_true_eq]
    exact ⟨⟨⟨⟨⟨hvd, by omega⟩, by omega⟩, x8⟩, by omega⟩, by omega⟩)]
  have hhh : hh / 12 * 12 + hh % 12 = hh := by omega
  rw [hhh]
  split <;> rfl

/-- C101 fails for dates that do not exist: they are not refused, but read as the first of January
1970.  (The numbers must fit an `i32`; others are cut first, see `C62_cut_counterexample`.) -/
theorem C101_no_date_counterexample (d : DateText) (h : d.Good) (hx : ¬ d.Exists)
    (h1 : decVal d.year ≤ 2147483647) (h2 : decVal d.month ≤ 2147483647) (h3 : decVal d.day ≤ 2147483647)
    (h4 : d.clock.1 ≤ 2147483647) (h5 : d.clock.2.1 ≤ 2147483647) (h6 : d.clock.2.2.1 ≤ 2147483647) :
    parseDateTime d.text = some ⟨1970, 1, 1, 0, 0, 0, 0⟩ := by
  unfold parseDateTime
  rw [dtParts_text d h]
  obtain ⟨minus, y, mo, dd, time, z⟩ := d
  unfold DateText.Exists at hx
  simp only at *
  have hyy : asI32 (if minus = true then - (decVal y : Int) else decVal y)
      = DateText.theYear ⟨minus, y, mo, dd, time, z⟩ := by
    have e : DateText.theYear ⟨minus, y, mo, dd, time, z⟩
      = if minus = true then - (decVal y : Int) else decVal y := rfl
    rw [e]
    unfold asI32
    split <;> rw [Int.emod_eq_of_lt (by omega) (by omega)] <;> omega
  rw [hyy]
  generalize DateText.theYear ⟨minus, y, mo, dd, time, z⟩ = Y at *
  have hclock : ∃ hh mm ss ff, DateText.clock ⟨minus, y, mo, dd, time, z⟩ = (hh, mm, ss, ff)
      ∧ ((time.map fun t => (⟨decVal t.1, decVal t.2.1, decVal t.2.2.1, t.2.2.2.map fraction⟩ : TimeParts)).getD
        ⟨0, 0, 0, none⟩).hour = hh
      ∧ ((time.map fun t => (⟨decVal t.1, decVal t.2.1, decVal t.2.2.1, t.2.2.2.map fraction⟩ : TimeParts)).getD
        ⟨0, 0, 0, none⟩).minute = mm
      ∧ ((time.map fun t => (⟨decVal t.1, decVal t.2.1, decVal t.2.2.1, t.2.2.2.map fraction⟩ : TimeParts)).getD
        ⟨0, 0, 0, none⟩).second = ss := by
    cases time with
    | none => exact ⟨0, 0, 0, 0, rfl, rfl, rfl, rfl⟩
    | some t => exact ⟨_, _, _, _, rfl, rfl, rfl, rfl⟩
  obtain ⟨hh, mm, ss, ff, c1, c2, c3, c4⟩ := hclock
  have hu : ∀ k, k ≤ 2147483647 → asU32 k = k := by intro k hk; unfold asU32; omega
  rw [c1] at h4 h5 h6 hx
  simp only at h4 h5 h6 hx
  rw [c2, c3, c4]
  rw [hu _ h2, hu _ h3, hu (hh / 12) (by omega), hu (hh % 12) (by omega), hu mm h5, hu ss h6]
  unfold resolve
  rw [if_neg (by
    intro hall
    simp only [Bool.and_eq_true, decide_eq_true_eq, validDate] at hall
    obtain ⟨⟨⟨⟨⟨⟨⟨⟨⟨⟨q1, q2⟩, q3⟩, q4⟩, q5⟩, q6⟩, q7⟩, q8⟩, q9⟩, q10⟩, q11⟩ := hall
    exact hx ⟨q1, q2, q3, q4, q5, q6, by omega, q9, q10⟩)]
  rfl

/-- Only these characters are in a date that is read. -/
def DateChar (c : Char) : Prop := isDigit c = true ∨ c ∈ ['-', ':', 'T', '.', 'Z']

theorem date_char (d : DateText) (h : d.Good) : ∀ x ∈ d.text, DateChar x := by
  obtain ⟨minus, y, mo, dd, time, z⟩ := d
  obtain ⟨g1, g2, g3, g4⟩ := h
  intro x hx
  rcases List.mem_append.1 hx with h1 | h1
  · cases minus with
    | false => cases h1
    | true => rw [show (if true = true then ['-'] else []) = ['-'] from rfl, List.mem_singleton] at h1
              subst h1; exact .inr (by decide)
  rcases List.mem_append.1 h1 with h1 | h1
  · exact .inl (g1.1.2 x h1)
  rcases List.mem_cons.1 h1 with h1 | h1
  · subst h1; exact .inr (by decide)
  rcases List.mem_append.1 h1 with h1 | h1
  · exact .inl (g2.1.2 x h1)
  rcases List.mem_cons.1 h1 with h1 | h1
  · subst h1; exact .inr (by decide)
  rcases List.mem_append.1 h1 with h1 | h1
  · exact .inl (g3.1.2 x h1)
  rcases List.mem_append.1 h1 with h1 | h1
  · cases time with
    | none => cases h1
    | some t =>
      obtain ⟨hh, mm, ss, f⟩ := t
      obtain ⟨k1, k2, k3, k4⟩ := g4
      rcases List.mem_cons.1 h1 with h1 | h1
      · subst h1; exact .inr (by decide)
      rcases List.mem_append.1 h1 with h1 | h1
      · exact .inl (k1.1.2 x h1)
      rcases List.mem_cons.1 h1 with h1 | h1
      · subst h1; exact .inr (by decide)
      rcases List.mem_append.1 h1 with h1 | h1
      · exact .inl (k2.1.2 x h1)
      rcases List.mem_cons.1 h1 with h1 | h1
      · subst h1; exact .inr (by decide)
      rcases List.mem_append.1 h1 with h1 | h1
      · exact .inl (k3.1.2 x h1)
      rcases point_char f k4 x h1 with h2 | h2
      · exact .inl h2
      · subst h2; exact .inr (by decide)
  · cases z with
    | false => cases h1
    | true => rw [show (if true = true then ['Z'] else []) = ['Z'] from rfl, List.mem_singleton] at h1
              subst h1; exact .inr (by decide)

/-- C101 fails for times with an offset to the east, for years with a plus sign, and for spaces around
the date: a text with any character that is not in `DateChar` is refused. -/
theorem C101_date_refused_counterexample (s : Str) (c : Char) (hc : c ∈ s) (hb : ¬ DateChar c) :
    parseDateTime s = none := by
  cases h : parseDateTime s with
  | none => rfl
  | some v =>
    obtain ⟨d, g1, rfl⟩ := (C101_date_accepts s).1 ⟨v, h⟩
    exact absurd (date_char d g1 c hc) hb

example : ¬ DateChar '+' ∧ ¬ DateChar ' ' := by unfold DateChar; decide

theorem clock_end (t : Str × Str × Str × Option Str) (ht : Number t.1 ∧ Number t.2.1 ∧ Number t.2.2.1
    ∧ Opt Digits t.2.2.2) (r : Str) :
    opt dtTime (clockText (some t) ++ '-' :: r)
      = (some ⟨decVal t.1, decVal t.2.1, decVal t.2.2.1, t.2.2.2.map fraction⟩, '-' :: r) := by
  unfold opt
  rw [dtTime_clock t ht ('-' :: r) (noDigit _ _ (by decide)) (by intro x h; cases h)]

/-- C101 fails for times with an offset to the west: every date with a time, a minus and anything behind
it is refused. -/
theorem C101_west_counterexample (d : DateText) (h : d.Good) (ht : d.time.isSome = true)
    (hz : d.zulu = false) (r : Str) : parseDateTime (d.text ++ '-' :: r) = none := by
  obtain ⟨minus, y, mo, dd, time, z⟩ := d
  obtain ⟨g1, g2, g3, g4⟩ := h
  simp only at *
  subst hz
  cases time with
  | none => cases ht
  | some t =>
    have hsign : ∀ r : Str, optByte '-' ((if minus then ['-'] else []) ++ (y ++ r)) = (minus, y ++ r) := by
      intro r
      cases minus with
      | true => rfl
      | false =>
        rw [if_neg (by simp), List.nil_append]
        obtain ⟨⟨k1, k2⟩, _⟩ := g1
        cases y with
        | nil => exact absurd rfl k1
        | cons c s =>
          unfold optByte
          rw [List.cons_append, byte_ne _ _ _ (digit_not_minus (k2 c List.mem_cons_self))]
    have e : DateText.text ⟨minus, y, mo, dd, some t, false⟩ ++ '-' :: r
        = (if minus then ['-'] else []) ++ (y ++ '-' :: (mo ++ '-' :: (dd ++ (clockText (some t) ++ '-' :: r)))) := by
      simp [DateText.text]
    have hp : dtParts (DateText.text ⟨minus, y, mo, dd, some t, false⟩ ++ '-' :: r) = none := by
      rw [e]
      unfold dtParts
      simp only [bind, Option.bind, pure, hsign]
      rw [datepart_number y _ g1 (noDigit _ _ (by decide))]
      simp only [byte_cons]
      rw [datepart_number mo _ g2 (noDigit _ _ (by decide))]
      simp only [byte_cons]
      rw [datepart_number dd (clockText (some t) ++ '-' :: r) g3 (noDigit 'T' _ (by decide))]
      simp only
      rw [clock_end t g4 r]
      simp only
      rw [if_neg (by
        unfold optByte
        rw [byte_ne _ _ _ (by decide)]
        simp)]
    unfold parseDateTime
    rw [hp]

/-- Concrete cases. -/
example : parseDateTime "2024-02-29".toList = some ⟨2024, 2, 29, 0, 0, 0, 0⟩
    ∧ parseDateTime "2024-02-29T12:00:01.25Z".toList = some ⟨2024, 2, 29, 12, 0, 1, 250000000⟩
    ∧ parseDateTime "2024-02-29T12:00:01+01:00".toList = none
    ∧ parseDateTime "2024-02-29T12:00:01-01:00".toList = none
    ∧ parseDateTime "2023-02-29".toList = some epoch := by decide

example : ∃ d : DateText, d.Good ∧ d.Exists ∧ d.text = "2024-02-29T12:00:01.25Z".toList
    ∧ d.value = ⟨2024, 2, 29, 12, 0, 1, 250000000⟩ := by
  refine ⟨⟨false, "2024".toList, "02".toList, "29".toList,
    some ("12".toList, "00".toList, "01".toList, some "25".toList), true⟩, ?_, ?_, by decide, by decide⟩
  · exact ⟨⟨⟨by decide, by decide⟩, by decide⟩, ⟨⟨by decide, by decide⟩, by decide⟩, ⟨⟨by decide, by decide⟩, by decide⟩,
      ⟨⟨by decide, by decide⟩, by decide⟩, ⟨⟨by decide, by decide⟩, by decide⟩, ⟨⟨by decide, by decide⟩, by decide⟩,
      by decide, by decide⟩
  · unfold DateText.Exists; decide

/-- **C62**, date-times, exactly: a date-time is read back if and only if its year is at most 9999. -/
theorem C62_datetime_iff (d : DateTime) (hv : ValidDateTime d) :
    parseDateTime (fmtDateTime d) = some d ↔ d.year ≤ 9999 := by
  constructor
  · intro h
    apply Classical.byContradiction
    intro hy
    have hc : '+' ∈ fmtDateTime d := by
      unfold fmtDateTime fmtYear
      rw [if_neg (by omega), if_neg (by omega)]
      simp
    have := C101_date_refused_counterexample _ '+' hc (by unfold DateChar; decide)
    rw [this] at h
    cases h
  · exact C62_datetime_partial d hv

end Verif.Codec
