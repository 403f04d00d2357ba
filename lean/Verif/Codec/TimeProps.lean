import Verif.Codec.Time

/-!
# C28, C62: durations, date-times, integers and switches
-/

set_option autoImplicit false

namespace Verif.Codec

open Verif.Refs (digitChar isDigit decVal)

/-! ## C62: integers and switches -/

/-- **C62**, unsigned integers: every `u32` is read back. -/
theorem C62_u32 (n : Nat) (h : n < 2 ^ 32) : parseU32 (decNat n) = some n :=
  parseU32_dec n (by omega)

/-- C62, signed integers of 16, 32 and 64 bits — and of any other width. -/
theorem C62_int (bits : Nat) (z : Int) (h1 : - (2 ^ (bits - 1) : Int) ≤ z) (h2 : z < 2 ^ (bits - 1)) :
    parseInt bits (decInt z) = some z := parseInt_dec bits z h1 h2

/-- C62: a number that does not fit is an error, not another number. -/
theorem C62_u32_range (s : Str) (n : Nat) (h : parseU32 s = some n) : n < 2 ^ 32 := by
  unfold parseU32 parseNatMax at h
  split at h
  · split at h
    · cases h
    · split at h
      · cases h; omega
      · cases h
  · cases h

theorem C62_int_range (bits : Nat) (s : Str) (z : Int) (h : parseInt bits s = some z) :
    - (2 ^ (bits - 1) : Int) ≤ z ∧ z < 2 ^ (bits - 1) := by
  have hp : ((2 ^ (bits - 1) : Nat) : Int) = (2 : Int) ^ (bits - 1) := by simp
  have hpos : 0 < 2 ^ (bits - 1) := Nat.pow_pos (by omega)
  unfold parseInt at h
  split at h
  · unfold parseIntBits at h
    split at h
    · split at h
      · cases h
      · split at h
        · cases h; omega
        · cases h
    · split at h
      · cases h
      · split at h
        · cases h; omega
        · cases h
  · cases h

/-- C62, switches. -/
theorem C62_bool (b : Bool) : parseBool (fmtBool b) = some b := parseBool_fmt b

example : parseInt 16 (decInt (-32768)) = some (-32768) := by decide
example : parseInt 16 "32768".toList = none := by decide
example : parseU32 (decNat 4294967295) = some 4294967295 := C62_u32 _ (by decide)

/-! ## C62: date-times -/

/-- A date-time that `chrono` can represent: a day of the calendar and a time, with a leap second
only at the end of a minute. -/
def ValidDateTime (d : DateTime) : Prop :=
  -262143 ≤ d.year ∧ d.year ≤ 262142 ∧ 1 ≤ d.month ∧ d.month ≤ 12 ∧ 1 ≤ d.day
    ∧ d.day ≤ daysInMonth d.year d.month ∧ d.hour ≤ 23 ∧ d.minute ≤ 59 ∧ d.second ≤ 59
    ∧ (d.nano < 1000000000 ∨ (d.second = 59 ∧ d.nano < 2000000000))

theorem noDigit (c : Char) (s : Str) (h : isDigit c = false) : Refs.NoHead isDigit (c :: s) :=
  Refs.noHead_cons h

theorem optNano_frac (n : Nat) (h : n < 1000000000) :
    (optNano (fmtFrac n)).1.getD 0 = n ∧ (optNano (fmtFrac n)).2 = [] := by
  unfold fmtFrac
  split
  · rename_i h0; subst h0; exact ⟨rfl, rfl⟩
  · rename_i h0
    have hnil : Refs.NoHead isDigit [] := Refs.noHead_nil
    split
    · have hlt : n / 1000000 < 10 ^ 3 := by omega
      have hl := pad_length 3 (n / 1000000) hlt (by omega)
      have hn := nano_of (pad 3 (n / 1000000)) [] (pad_ne _ _) (pad_digits _ _) (by omega) hnil
      rw [List.append_nil, decVal_pad, hl] at hn
      unfold optNano
      rw [byte_cons]
      simp only
      rw [hn]
      refine ⟨?_, rfl⟩
      show n / 1000000 * 10 ^ 6 = n
      omega
    · split
      · have hlt : n / 1000 < 10 ^ 6 := by omega
        have hl := pad_length 6 (n / 1000) hlt (by omega)
        have hn := nano_of (pad 6 (n / 1000)) [] (pad_ne _ _) (pad_digits _ _) (by omega) hnil
        rw [List.append_nil, decVal_pad, hl] at hn
        unfold optNano
        rw [byte_cons]
        simp only
        rw [hn]
        refine ⟨?_, rfl⟩
        show n / 1000 * 10 ^ 3 = n
        omega
      · have hl := pad_length 9 n (by omega) (by omega)
        have hn := nano_of (pad 9 n) [] (pad_ne _ _) (pad_digits _ _) (by omega) hnil
        rw [List.append_nil, decVal_pad, hl] at hn
        unfold optNano
        rw [byte_cons]
        simp only
        rw [hn]
        refine ⟨?_, rfl⟩
        show n * 10 ^ 0 = n
        omega

theorem noDigit_frac (n : Nat) : Refs.NoHead isDigit (fmtFrac n) := by
  unfold fmtFrac
  split
  · exact Refs.noHead_nil
  · split
    · exact noDigit _ _ (by decide)
    · split
      · exact noDigit _ _ (by decide)
      · exact noDigit _ _ (by decide)

theorem dtTime_fmt (h m x n : Nat) (hh : h ≤ 23) (hm : m ≤ 59) (hx : x ≤ 60) :
    dtTime ('T' :: (pad 2 h ++ ':' :: (pad 2 m ++ ':' :: (pad 2 x ++ fmtFrac n))))
      = some (⟨h, m, x, (optNano (fmtFrac n)).1⟩, (optNano (fmtFrac n)).2) := by
  unfold dtTime
  simp only [bind, Option.bind, pure, byte_cons]
  rw [datepart_pad 2 h _ (by omega) (noDigit _ _ (by decide))]
  simp only [byte_cons]
  rw [datepart_pad 2 m _ (by omega) (noDigit _ _ (by decide))]
  simp only [byte_cons]
  rw [datepart_pad 2 x _ (by omega) (noDigit_frac n)]

theorem dtParts_fmt (minus : Bool) (y mo d h m x n : Nat) (hy : y ≤ 262143) (hmo : mo ≤ 12)
    (hd : d ≤ 31) (hh : h ≤ 23) (hm : m ≤ 59) (hx : x ≤ 60) (hn : n < 1000000000) :
    dtParts ((if minus then ['-'] else []) ++ pad 4 y ++ '-' :: (pad 2 mo ++ '-' :: (pad 2 d
      ++ 'T' :: (pad 2 h ++ ':' :: (pad 2 m ++ ':' :: (pad 2 x ++ fmtFrac n))))))
      = some ⟨minus, y, mo, d, some ⟨h, m, x, (optNano (fmtFrac n)).1⟩⟩ := by
  have hsign : ∀ r : Str, optByte '-' ((if minus then ['-'] else []) ++ pad 4 y ++ r)
      = (minus, pad 4 y ++ r) := by
    intro r
    cases minus with
    | true => rfl
    | false =>
      rw [if_neg (by simp), List.nil_append]
      have hdig := pad_digits 4 y
      cases hp : pad 4 y with
      | nil => exact absurd hp (pad_ne 4 y)
      | cons c s =>
        rw [hp] at hdig
        unfold optByte
        rw [List.cons_append, byte_ne _ _ _ (digit_not_minus (hdig c List.mem_cons_self))]
  unfold dtParts
  simp only [bind, Option.bind, pure, hsign]
  rw [datepart_pad 4 y _ (by omega) (noDigit _ _ (by decide))]
  simp only [byte_cons]
  rw [datepart_pad 2 mo _ (by omega) (noDigit _ _ (by decide))]
  simp only [byte_cons]
  rw [datepart_pad 2 d _ (by omega) (noDigit _ _ (by decide))]
  simp only [opt, dtTime_fmt h m x n hh hm hx]
  rw [(optNano_frac n hn).2]
  rfl

theorem days_le (y : Int) (m : Nat) : daysInMonth y m ≤ 31 := by
  unfold daysInMonth
  split
  · split <;> omega
  · split <;> omega

/-- **C62**, date-times: every date-time up to the year 9999 (negative years, leap days, leap seconds
and every fraction of a second included) is read back.  Missing: the years from 10000 to 262142. -/
theorem C62_datetime_partial (d : DateTime) (hv : ValidDateTime d) (hy : d.year ≤ 9999) :
    parseDateTime (fmtDateTime d) = some d := by
  obtain ⟨y, mo, dd, h, m, x, n⟩ := d
  obtain ⟨h1, h2, h3, h4, h5, h6, h7, h8, h9, h10⟩ := hv
  simp only at *
  have hday := days_le y mo
  have hyear : fmtYear y = (if decide (y < 0) then ['-'] else []) ++ pad 4 y.natAbs := by
    unfold fmtYear
    by_cases hneg : y < 0
    · rw [if_neg (by omega), if_pos hneg]; simp [hneg]
    · rw [if_pos ⟨by omega, hy⟩]; simp [hneg]
  have hfmt : fmtDateTime ⟨y, mo, dd, h, m, x, n⟩
      = (if decide (y < 0) then ['-'] else []) ++ pad 4 y.natAbs ++ '-' :: (pad 2 mo ++ '-' :: (pad 2 dd
        ++ 'T' :: (pad 2 h ++ ':' :: (pad 2 m ++ ':' :: (pad 2 (x + n / 1000000000)
          ++ fmtFrac (n % 1000000000)))))) := by
    unfold fmtDateTime
    rw [hyear]
    simp only [List.append_assoc, List.cons_append]
  rw [hfmt]
  unfold parseDateTime
  rw [dtParts_fmt _ _ _ _ _ _ _ _ (by omega) h4 (by omega) h7 h8 (by omega) (by omega)]
  simp only [Option.getD_some]
  rw [(optNano_frac (n % 1000000000) (by omega)).1]
  have hyy : asI32 (if decide (y < 0) = true then - (y.natAbs : Int) else y.natAbs) = y := by
    unfold asI32
    by_cases hneg : y < 0
    · rw [if_pos (by simpa using hneg)]
      rw [Int.emod_eq_of_lt (by omega) (by omega)]; omega
    · rw [if_neg (by simpa using hneg)]
      rw [Int.emod_eq_of_lt (by omega) (by omega)]; omega
  rw [hyy]
  have hu : ∀ k, k < 100 → asU32 k = k := by intro k hk; unfold asU32; omega
  rw [hu mo (by omega), hu dd (by omega), hu (h / 12) (by omega), hu (h % 12) (by omega),
    hu m (by omega), hu (x + n / 1000000000) (by omega)]
  unfold resolve
  have hvd : validDate y mo dd = true := by
    unfold validDate
    simp only [Bool.and_eq_true, decide_eq_true_eq]
    exact ⟨⟨⟨⟨⟨h1, h2⟩, h3⟩, h4⟩, h5⟩, h6⟩
  rw [if_pos (by
    simp only [Bool.and_eq_true, decide_eq_true_eq]
    exact ⟨⟨⟨⟨⟨hvd, by omega⟩, by omega⟩, h8⟩, by omega⟩, by omega⟩)]
  simp only [Option.getD_some, Option.some.injEq, DateTime.mk.injEq, true_and]
  refine ⟨by omega, ?_, ?_⟩
  · rcases h10 with h10 | ⟨h10, h11⟩
    · rw [if_neg (by omega)]; omega
    · by_cases hn : n < 1000000000
      · rw [if_neg (by omega)]; omega
      · rw [if_pos (by omega)]; omega
  · rcases h10 with h10 | ⟨h10, h11⟩
    · rw [if_neg (by omega)]; omega
    · by_cases hn : n < 1000000000
      · rw [if_neg (by omega)]; omega
      · rw [if_pos (by omega)]; omega

/-- Concrete case: 29 February 2024, 23:59:60.000123. -/
example : ValidDateTime ⟨2024, 2, 29, 23, 59, 59, 1000123000⟩
    ∧ fmtDateTime ⟨2024, 2, 29, 23, 59, 59, 1000123000⟩ = "2024-02-29T23:59:60.000123".toList := by
  refine ⟨?_, by decide⟩
  unfold ValidDateTime
  decide

/-- C62 fails from the year 10000 on: the year is written with a plus sign, which the parser refuses. -/
theorem C62_year_counterexample :
    ValidDateTime ⟨10000, 1, 1, 0, 0, 0, 0⟩
      ∧ fmtDateTime ⟨10000, 1, 1, 0, 0, 0, 0⟩ = "+10000-01-01T00:00:00".toList
      ∧ parseDateTime (fmtDateTime ⟨10000, 1, 1, 0, 0, 0, 0⟩) = none := by
  refine ⟨?_, by decide, by decide⟩
  unfold ValidDateTime
  decide

/-- C62: a text that is not a date of the calendar is read as 1970-01-01, without an error. -/
theorem C62_default_counterexample :
    parseDateTime "2023-02-29".toList = some epoch ∧ parseDateTime "2023-01-01T25:00:00".toList = some epoch
      ∧ epoch = ⟨1970, 1, 1, 0, 0, 0, 0⟩ := by decide

/-- C62: fields that are too large for 32 bits are cut: this is read as the year 1. -/
theorem C62_cut_counterexample :
    parseDateTime "4294967297-01-01".toList = some ⟨1, 1, 1, 0, 0, 0, 0⟩ := by decide

/-! ## C28: durations -/

/-- The digits of the milliseconds are read as a fraction: the nanoseconds that are read for `ms`
milliseconds. -/
def fracNanos (ms : Nat) : Nat :=
  if ms < 10 then ms * 10 ^ 8 else if ms < 100 then ms * 10 ^ 7 else ms * 10 ^ 6

theorem fracNanos_lt (ms : Nat) (h : ms < 1000) : fracNanos ms < 10 ^ 9 := by
  unfold fracNanos
  split
  · omega
  · split <;> omega

theorem decInt_nat (n : Nat) : decInt (n : Int) = decNat n := by
  unfold decInt; rw [if_neg (by omega)]; rfl

theorem fmtDuration_nat (n : Nat) : fmtDuration (n : Int) =
    'P' :: 'T' :: (decNat (n / (3600 * 10 ^ 9)) ++ 'H' :: (decNat (n / (60 * 10 ^ 9) % 60)
      ++ 'M' :: (decNat (n / 10 ^ 9 % 60) ++ '.' :: (decNat (n / 10 ^ 6 % 1000) ++ ['S'])))) := by
  have e1 : (n : Int).tdiv (3600 * 10 ^ 9) = ((n / (3600 * 10 ^ 9) : Nat) : Int) := rfl
  have e2 : ((n : Int).tdiv (60 * 10 ^ 9)).tmod 60 = ((n / (60 * 10 ^ 9) % 60 : Nat) : Int) := rfl
  have e3 : ((n : Int).tdiv (10 ^ 9)).tmod 60 = ((n / 10 ^ 9 % 60 : Nat) : Int) := rfl
  have e4 : ((n : Int).tdiv (10 ^ 6)).tmod 1000 = ((n / 10 ^ 6 % 1000 : Nat) : Int) := rfl
  unfold fmtDuration
  rw [e1, e2, e3, e4, decInt_nat, decInt_nat, decInt_nat, decInt_nat]
  simp only [List.append_assoc, List.cons_append]

theorem nano_ms (ms : Nat) (h : ms < 1000) (b : Str) (hb : Refs.NoHead isDigit b) :
    nano (decNat ms ++ b) = some (fracNanos ms, b) := by
  have hl : (decNat ms).length ≤ 3 := decNat_length_le ms 2 (by omega)
  rw [nano_of _ b (decNat_ne ms) (decNat_digits ms) (by omega) hb, decVal_decNat]
  unfold fracNanos
  split
  · rename_i h1; rw [decNat_length_small ms h1]
  · split
    · rw [decNat_length ms 1 (by omega) (by omega)]
    · rw [decNat_length ms 2 (by omega) (by omega)]

theorem opt_term (p : Str → Option (Nat × Str)) (c : Char) (s : Str) (n : Nat) (r : Str)
    (h : p s = some (n, c :: r)) : opt (term p c) s = (some n, r) := by
  unfold opt term
  rw [h]
  simp [byte_cons]

theorem durTime_fmt (h m x ms : Nat) (hh : h ≤ 9223372036854775807) (hm : m < 60) (hx : x < 60)
    (hms : ms < 1000) :
    durTime ('T' :: (decNat h ++ 'H' :: (decNat m ++ 'M' :: (decNat x ++ '.' :: (decNat ms ++ ['S'])))))
      = some ((some h, some m, some (x, some (fracNanos ms))), []) := by
  unfold durTime
  rw [byte_cons]
  simp only
  rw [opt_term datepart 'H' _ h _ (datepart_dec h _ hh (noDigit _ _ (by decide)))]
  simp only
  rw [opt_term datepart 'M' _ m _ (datepart_dec m _ (by omega) (noDigit _ _ (by decide)))]
  have hs : seconds (decNat x ++ '.' :: (decNat ms ++ ['S'])) = some ((x, some (fracNanos ms)), ['S']) := by
    unfold seconds
    rw [datepart_dec x _ (by omega) (noDigit _ _ (by decide))]
    simp only [optNano, byte_cons, nano_ms ms hms ['S'] (noDigit _ _ (by decide))]
  have : opt (term seconds 'S') (decNat x ++ '.' :: (decNat ms ++ ['S']))
      = (some (x, some (fracNanos ms)), []) := by
    unfold opt term
    rw [hs]
    simp [byte_cons]
  simp only [this]

theorem addUnits_ok (acc unit n : Nat) (h : acc + n * unit ≤ maxDuration) :
    addUnits acc unit n = .ok (acc + n * unit) := by
  unfold addUnits; rw [if_pos (by omega), if_pos h]

theorem durParts_fmt (h m x ms : Nat) (hh : h ≤ 9223372036854775807) (hm : m < 60) (hx : x < 60)
    (hms : ms < 1000) :
    durParts ('P' :: 'T' :: (decNat h ++ 'H' :: (decNat m ++ 'M' :: (decNat x ++ '.' :: (decNat ms ++ ['S'])))))
      = some ⟨none, some (some h, some m, some (x, some (fracNanos ms)))⟩ := by
  unfold durParts
  rw [byte_cons]
  simp only
  have hd : ∀ s : Str, opt (term datepart 'D') ('T' :: s) = (none, 'T' :: s) := by
    intro s
    have : digit1 ('T' :: s) = none := by
      unfold digit1
      rw [List.takeWhile_cons_of_neg (by decide)]
    unfold opt term datepart
    rw [this]
  rw [hd]
  simp only
  have ht := durTime_fmt h m x ms hh hm hx hms
  unfold opt
  rw [ht]
  simp

/-- The sum of the parts. -/
def durSum (h m x f : Nat) : Except TimeFail Nat := do
  let r ← addUnits 0 (3600 * 10 ^ 9) h
  let r ← addUnits r (60 * 10 ^ 9) m
  let r ← addUnits r (10 ^ 9) x
  addUnits r 1 f

theorem ok_bind {α β : Type} (a : α) (f : α → Except TimeFail β) : Except.bind (.ok a) f = f a := rfl

theorem parseDuration_parts (s : Str) (h m x f : Nat)
    (hp : durParts s = some ⟨none, some (some h, some m, some (x, some f))⟩) :
    parseDuration s = durSum h m x f := by
  unfold parseDuration durSum
  rw [hp]
  simp only [addOpt]
  simp only [bind]
  rw [ok_bind]

theorem durSum_eq (h m x f : Nat) (hle : h * (3600 * 10 ^ 9) + m * (60 * 10 ^ 9) + x * 10 ^ 9 ≤ maxDuration)
    (hf : f ≤ maxDuration) :
    durSum h m x f = if h * (3600 * 10 ^ 9) + m * (60 * 10 ^ 9) + x * 10 ^ 9 + f ≤ maxDuration
      then .ok (h * (3600 * 10 ^ 9) + m * (60 * 10 ^ 9) + x * 10 ^ 9 + f) else .error .panic := by
  have e1 := addUnits_ok 0 (3600 * 10 ^ 9) h (Nat.le_trans (by rw [Nat.zero_add, Nat.add_assoc]; exact Nat.le_add_right _ _) hle)
  have e2 := addUnits_ok (h * (3600 * 10 ^ 9)) (60 * 10 ^ 9) m (Nat.le_trans (Nat.le_add_right _ _) hle)
  have e3 := addUnits_ok (h * (3600 * 10 ^ 9) + m * (60 * 10 ^ 9)) (10 ^ 9) x hle
  rw [Nat.zero_add] at e1
  unfold durSum
  rw [e1]
  simp only [bind]
  rw [ok_bind, e2, ok_bind, e3, ok_bind]
  unfold addUnits
  rw [Nat.mul_one, if_pos hf]

/-- C28, exactly: a duration is read back with its hours, minutes and seconds, and with the digits of
its milliseconds as a fraction.  (At the very end of the range the sum is too large, and there is a
panic.) -/
theorem C28_exact (n : Nat) (h : n ≤ maxDuration) :
    parseDuration (fmtDuration n)
      = if n / 10 ^ 9 * 10 ^ 9 + fracNanos (n / 10 ^ 6 % 1000) ≤ maxDuration
        then .ok (n / 10 ^ 9 * 10 ^ 9 + fracNanos (n / 10 ^ 6 % 1000)) else .error .panic := by
  have hms : n / 10 ^ 6 % 1000 < 1000 := Nat.mod_lt _ (by omega)
  have hfr := fracNanos_lt _ hms
  have hbig : n / (3600 * 10 ^ 9) ≤ 9223372036854775807 := by
    have : maxDuration = 9223372036854775807000000 := rfl
    omega
  have hmax : 10 ^ 9 ≤ maxDuration := by unfold maxDuration; omega
  have hsum : n / (3600 * 10 ^ 9) * (3600 * 10 ^ 9) + n / (60 * 10 ^ 9) % 60 * (60 * 10 ^ 9)
      + n / 10 ^ 9 % 60 * 10 ^ 9 = n / 10 ^ 9 * 10 ^ 9 := by omega
  have hle : n / 10 ^ 9 * 10 ^ 9 ≤ n := Nat.div_mul_le_self _ _
  rw [fmtDuration_nat, parseDuration_parts _ _ _ _ _ (durParts_fmt _ _ _ _ hbig (Nat.mod_lt _ (by omega))
    (Nat.mod_lt _ (by omega)) hms)]
  rw [durSum_eq _ _ _ _ (by rw [hsum]; exact Nat.le_trans hle h)
    (Nat.le_trans (Nat.le_of_lt hfr) hmax), hsum]

theorem C28_split (n : Nat) : n = n / 10 ^ 9 * 10 ^ 9 + n / 10 ^ 6 % 1000 * 10 ^ 6 + n % 10 ^ 6 := by
  have : n / 10 ^ 9 = n / 10 ^ 6 / 1000 := by rw [Nat.div_div_eq_div_mul]
  omega

/-- **C28** (part): exactly the durations of whole milliseconds whose milliseconds are 0 or at least
100 are read back. -/
theorem C28_roundtrip_partial (n : Nat) (h : n ≤ maxDuration) :
    parseDuration (fmtDuration n) = .ok n
      ↔ n % 10 ^ 6 = 0 ∧ (n / 10 ^ 6 % 1000 = 0 ∨ 100 ≤ n / 10 ^ 6 % 1000) := by
  have hs := C28_split n
  rw [C28_exact n h]
  have hms : n / 10 ^ 6 % 1000 < 1000 := Nat.mod_lt _ (by omega)
  have hfrac : fracNanos (n / 10 ^ 6 % 1000) = n / 10 ^ 6 % 1000 * 10 ^ 6 + n % 10 ^ 6
      ↔ n % 10 ^ 6 = 0 ∧ (n / 10 ^ 6 % 1000 = 0 ∨ 100 ≤ n / 10 ^ 6 % 1000) := by
    have hr : n % 10 ^ 6 < 10 ^ 6 := Nat.mod_lt _ (by omega)
    generalize n / 10 ^ 6 % 1000 = ms at *
    generalize n % 10 ^ 6 = r at *
    unfold fracNanos
    split
    · omega
    · split <;> omega
  constructor
  · intro hok
    split at hok
    · have := Except.ok.inj hok
      exact hfrac.1 (by omega)
    · cases hok
  · intro hc
    have he := hfrac.2 hc
    rw [if_pos (by omega)]
    congr 1; omega

/-- Concrete case. -/
example : parseDuration (fmtDuration (26 * 3600 * 10 ^ 9 + 250 * 10 ^ 6)) = .ok (26 * 3600 * 10 ^ 9 + 250 * 10 ^ 6) :=
  (C28_roundtrip_partial (26 * 3600 * 10 ^ 9 + 250 * 10 ^ 6) (by decide)).2 (by decide)

/-- C28: whole seconds are always read back. -/
theorem C28_seconds (s : Nat) (h : s * 10 ^ 9 ≤ maxDuration) :
    parseDuration (fmtDuration ((s * 10 ^ 9 : Nat) : Int)) = .ok (s * 10 ^ 9) := by
  refine (C28_roundtrip_partial (s * 10 ^ 9) h).2 ⟨by omega, .inl (by omega)⟩

/-- C28 fails for 5 milliseconds, which come back as half a second. -/
theorem C28_millis_counterexample :
    fmtDuration (5 * 10 ^ 6) = "PT0H0M0.5S".toList
      ∧ parseDuration (fmtDuration (5 * 10 ^ 6)) = .ok (500 * 10 ^ 6) := by decide

/-- C28 fails for negative durations, which cannot be read. -/
theorem C28_negative_counterexample :
    fmtDuration (-3600 * 10 ^ 9) = "PT-1H0M0.0S".toList
      ∧ parseDuration (fmtDuration (-3600 * 10 ^ 9)) = .error .err := by decide

/-- C28: near the end of the range reading panics. -/
theorem C28_panic_counterexample :
    parseDuration (fmtDuration ((maxDuration - 708 * 10 ^ 6 : Nat) : Int)) = .error .panic := by
  rw [C28_exact _ (by decide)]
  decide

end Verif.Codec
