import Verif.Types
import Verif.Codec.Num

/-!
# Durations and date-times as text (src/io/parse.rs, src/io/format.rs)

`chrono` is not part of the repository.  A `Duration` is its number of nanoseconds; a
`NaiveDateTime` is its calendar fields.  What `chrono` does with them — the truncation of
`num_hours` and the like, `%Y-%m-%dT%H:%M:%S%.f`, and the checks of `Parsed` — is written down here
from its documentation, and is an assumption of the model.
-/

set_option autoImplicit false

namespace Verif.Codec

open Verif.Refs (digitChar isDigit decVal)

/-! ## Pieces of the parsers -/

/-- `digit1` of nom. -/
def digit1 (s : Str) : Option (Str × Str) :=
  match s.takeWhile isDigit with
  | [] => none
  | n => some (n, s.dropWhile isDigit)

/-- `byte`, src/io/parse.rs:424-432. -/
def byte (c : Char) : Str → Option Str
  | d :: s => if d = c then some s else none
  | [] => none

/-- `token_datepart`, src/io/parse.rs:258-269: a number that fits an `i64`. -/
def datepart (s : Str) : Option (Nat × Str) :=
  match digit1 s with
  | none => none
  | some (n, rest) => if decVal n ≤ 9223372036854775807 then some (decVal n, rest) else none

/-- The loop of `token_nano`, src/io/parse.rs:277-285: nine digits, missing ones are zero. -/
def nanoVal : Nat → Str → Nat → Nat
  | 0, _, v => v
  | k + 1, [], v => nanoVal k [] (v * 10)
  | k + 1, c :: s, v => nanoVal k s (v * 10 + (c.toNat - 48))

/-- `token_nano`, src/io/parse.rs:274-287. -/
def nano (s : Str) : Option (Nat × Str) :=
  match digit1 s with
  | none => none
  | some (n, rest) => some (nanoVal 9 n 0, rest)

/-- `opt` of nom: a parser that fails consumes nothing. -/
def opt {α : Type} (p : Str → Option (α × Str)) (s : Str) : Option α × Str :=
  match p s with
  | some (a, rest) => (some a, rest)
  | none => (none, s)

/-- `terminated(p, byte(c))`. -/
def term {α : Type} (p : Str → Option (α × Str)) (c : Char) (s : Str) : Option (α × Str) :=
  match p s with
  | none => none
  | some (a, rest) =>
    match byte c rest with
    | none => none
    | some rest' => some (a, rest')

/-! ## Durations -/

/-- `format_duration2`, src/io/format.rs:5-23, with the truncating divisions of `chrono`. -/
def fmtDuration (d : Int) : Str :=
  'P' :: 'T' :: decInt (d.tdiv (3600 * 10 ^ 9)) ++ 'H' :: decInt ((d.tdiv (60 * 10 ^ 9)).tmod 60)
    ++ 'M' :: decInt ((d.tdiv (10 ^ 9)).tmod 60) ++ '.' :: decInt ((d.tdiv (10 ^ 6)).tmod 1000) ++ ['S']

/-- The largest `Duration`, in nanoseconds: `i64::MAX` milliseconds. -/
def maxDuration : Nat := 9223372036854775807000000

/-- How reading a duration can fail. -/
inductive TimeFail where
  /-- An error is returned. -/
  | err
  /-- A panic: `TimeDelta + TimeDelta` overflowed. -/
  | panic
  deriving DecidableEq

/-- `result += Duration::try_..(n)?`, with `n` units of `unit` nanoseconds: an error if the summand
is no duration, a panic if the sum is none. -/
def addUnits (acc : Nat) (unit n : Nat) : Except TimeFail Nat :=
  if n * unit ≤ maxDuration then
    if acc + n * unit ≤ maxDuration then .ok (acc + n * unit) else .error .panic
  else .error .err

/-- The same for a part that may be missing. -/
def addOpt (acc : Nat) (unit : Nat) : Option Nat → Except TimeFail Nat
  | none => .ok acc
  | some n => addUnits acc unit n

/-- `opt(preceded(byte(b'.'), token_nano))`, src/io/parse.rs:356. -/
def optNano (s : Str) : Option Nat × Str :=
  match byte '.' s with
  | none => (none, s)
  | some s1 =>
    match nano s1 with
    | none => (none, s)
    | some (n, s2) => (some n, s2)

/-- The seconds part of a duration, src/io/parse.rs:355-358. -/
def seconds (s : Str) : Option ((Nat × Option Nat) × Str) :=
  match datepart s with
  | none => none
  | some (sec, s1) => some ((sec, (optNano s1).1), (optNano s1).2)

/-- The parts of a duration: days, and hours, minutes, seconds. -/
structure DurParts where
  day : Option Nat
  time : Option (Option Nat × Option Nat × Option (Nat × Option Nat))

/-- The time part, src/io/parse.rs:351-359. -/
def durTime (s : Str) : Option ((Option Nat × Option Nat × Option (Nat × Option Nat)) × Str) :=
  match byte 'T' s with
  | none => none
  | some s1 =>
    let h := opt (term datepart 'H') s1
    let m := opt (term datepart 'M') h.2
    let x := opt (term seconds 'S') m.2
    some ((h.1, m.1, x.1), x.2)

/-- The grammar of `token_duration`, src/io/parse.rs:345-360. -/
def durParts (s : Str) : Option DurParts :=
  match byte 'P' s with
  | none => none
  | some s1 =>
    let d := opt (term datepart 'D') s1
    let t := opt durTime d.2
    if t.2 = [] then some ⟨d.1, t.1⟩ else none

/-- `token_duration`, src/io/parse.rs:344-395. -/
def parseDuration (s : Str) : Except TimeFail Nat :=
  match durParts s with
  | none => .error .err
  | some p => do
    let r ← addOpt 0 (86400 * 10 ^ 9) p.day
    match p.time with
    | none => pure r
    | some (h, m, x) =>
      let r ← addOpt r (3600 * 10 ^ 9) h
      let r ← addOpt r (60 * 10 ^ 9) m
      match x with
      | none => pure r
      | some (sec, n) =>
        let r ← addUnits r (10 ^ 9) sec
        addOpt r 1 n

/-! ## Date-times -/

/-- `%Y` of `chrono`: four digits, and a sign for years outside of 0 to 9999. -/
def fmtYear (y : Int) : Str :=
  if 0 ≤ y ∧ y ≤ 9999 then pad 4 y.natAbs
  else (if y < 0 then '-' else '+') :: pad 4 y.natAbs

/-- `%.f` of `chrono`: nothing, or a dot and three, six or nine digits. -/
def fmtFrac (n : Nat) : Str :=
  if n = 0 then []
  else if n % 1000000 = 0 then '.' :: pad 3 (n / 1000000)
  else if n % 1000 = 0 then '.' :: pad 6 (n / 1000)
  else '.' :: pad 9 n

/-- `DATETIME_FORMAT`, src/io/write.rs:39.  A leap second is a second 59 with a nanosecond part from
one second up, and is written as second 60. -/
def fmtDateTime (d : DateTime) : Str :=
  fmtYear d.year ++ '-' :: pad 2 d.month ++ '-' :: pad 2 d.day ++ 'T' :: pad 2 d.hour
    ++ ':' :: pad 2 d.minute ++ ':' :: pad 2 (d.second + d.nano / 1000000000)
    ++ fmtFrac (d.nano % 1000000000)

/-- `as u32`. -/
def asU32 (n : Nat) : Nat := n % 4294967296

/-- `as i32`. -/
def asI32 (z : Int) : Int := (z + 2147483648) % 4294967296 - 2147483648

/-- Leap years of the Gregorian calendar. -/
def isLeap (y : Int) : Bool := y % 4 == 0 && (y % 100 != 0 || y % 400 == 0)

/-- The days of a month. -/
def daysInMonth (y : Int) (m : Nat) : Nat :=
  if m = 2 then (if isLeap y then 29 else 28)
  else if m = 4 ∨ m = 6 ∨ m = 9 ∨ m = 11 then 30
  else 31

/-- A date of `chrono`. -/
def validDate (y : Int) (m d : Nat) : Bool :=
  decide (-262143 ≤ y) && decide (y ≤ 262142) && decide (1 ≤ m) && decide (m ≤ 12) && decide (1 ≤ d)
    && decide (d ≤ daysInMonth y m)

/-- `NaiveDateTime::default()`. -/
def epoch : DateTime := ⟨1970, 1, 1, 0, 0, 0, 0⟩

/-- `Parsed::to_naive_datetime_with_offset(0)`: the fields are checked; a second 60 is a leap
second. -/
def resolve (y : Int) (mo d hdiv hmod mi sec : Nat) (ns : Nat) : Option DateTime :=
  if validDate y mo d && decide (hdiv ≤ 1) && decide (hmod ≤ 11) && decide (mi ≤ 59)
      && decide (sec ≤ 60) && decide (ns ≤ 999999999) then
    some ⟨y, mo, d, hdiv * 12 + hmod, mi, if sec = 60 then 59 else sec,
      if sec = 60 then 1000000000 + ns else ns⟩
  else none

/-- The time part of a date-time. -/
structure TimeParts where
  hour : Nat
  minute : Nat
  second : Nat
  nanos : Option Nat

/-- The time part, src/io/parse.rs:299-307. -/
def dtTime (s : Str) : Option (TimeParts × Str) := do
  let s ← byte 'T' s
  let (h, s) ← datepart s
  let s ← byte ':' s
  let (m, s) ← datepart s
  let s ← byte ':' s
  let (x, s) ← datepart s
  pure (⟨h, m, x, (optNano s).1⟩, (optNano s).2)

/-- `opt(byte(c))`. -/
def optByte (c : Char) (s : Str) : Bool × Str :=
  match byte c s with
  | none => (false, s)
  | some s' => (true, s')

/-- The parts of a date-time. -/
structure DtParts where
  minus : Bool
  year : Nat
  month : Nat
  day : Nat
  time : Option TimeParts

/-- The grammar of `token_datetime`, src/io/parse.rs:291-312. -/
def dtParts (s0 : Str) : Option DtParts := do
  let s := (optByte '-' s0).2
  let (y, s) ← datepart s
  let s ← byte '-' s
  let (mo, s) ← datepart s
  let s ← byte '-' s
  let (d, s) ← datepart s
  let t := opt dtTime s
  if (optByte 'Z' t.2).2 = [] then pure ⟨(optByte '-' s0).1, y, mo, d, t.1⟩ else none

/-- `token_datetime`, src/io/parse.rs:290-341: a date that does not exist becomes 1970-01-01. -/
def parseDateTime (s : Str) : Option DateTime :=
  match dtParts s with
  | none => none
  | some p =>
    let y := asI32 (if p.minus then - (p.year : Int) else p.year)
    let t : TimeParts := p.time.getD ⟨0, 0, 0, none⟩
    some ((resolve y (asU32 p.month) (asU32 p.day) (asU32 (t.hour / 12)) (asU32 (t.hour % 12))
      (asU32 t.minute) (asU32 t.second) (t.nanos.getD 0)).getD epoch)

/-! ## Lemmas -/

theorem digit1_append (a b : Str) (hne : a ≠ []) (ha : ∀ c ∈ a, isDigit c = true)
    (hb : Refs.NoHead isDigit b) : digit1 (a ++ b) = some (a, b) := by
  unfold digit1
  obtain ⟨h1, h2⟩ := Refs.takeWhile_append a b ha hb
  rw [h1, h2]
  cases a with
  | nil => exact absurd rfl hne
  | cons c a => rfl

theorem datepart_of (a b : Str) (n : Nat) (hne : a ≠ []) (ha : ∀ c ∈ a, isDigit c = true)
    (hv : decVal a = n) (hn : n ≤ 9223372036854775807) (hb : Refs.NoHead isDigit b) :
    datepart (a ++ b) = some (n, b) := by
  unfold datepart
  rw [digit1_append a b hne ha hb]
  simp only
  rw [hv, if_pos hn]

theorem datepart_dec (n : Nat) (b : Str) (hn : n ≤ 9223372036854775807)
    (hb : Refs.NoHead isDigit b) : datepart (decNat n ++ b) = some (n, b) :=
  datepart_of _ b n (decNat_ne n) (decNat_digits n) (decVal_decNat n) hn hb

theorem datepart_pad (w n : Nat) (b : Str) (hn : n ≤ 9223372036854775807)
    (hb : Refs.NoHead isDigit b) : datepart (pad w n ++ b) = some (n, b) :=
  datepart_of _ b n (pad_ne w n) (pad_digits w n) (decVal_pad w n) hn hb

theorem byte_cons (c : Char) (s : Str) : byte c (c :: s) = some s := by simp [byte]

theorem byte_ne (c d : Char) (s : Str) (h : d ≠ c) : byte c (d :: s) = none := by simp [byte, h]

theorem nanoVal_nil (k : Nat) : ∀ v, nanoVal k [] v = v * 10 ^ k := by
  induction k with
  | zero => intro v; simp [nanoVal]
  | succ k ih =>
    intro v
    rw [nanoVal, ih, Nat.pow_succ, Nat.mul_assoc, Nat.mul_comm 10]

/-- The value of digits behind a number. -/
theorem foldl_dec (s : Str) : ∀ v : Nat,
    s.foldl (fun v c => v * 10 + (c.toNat - 48)) v = v * 10 ^ s.length + decVal s := by
  induction s with
  | nil => intro v; simp [decVal]
  | cons c s ih =>
    intro v
    unfold decVal
    rw [List.foldl_cons, List.foldl_cons, ih, ih (0 * 10 + (c.toNat - 48))]
    rw [List.length_cons, Nat.pow_succ, Nat.add_mul, Nat.mul_assoc, Nat.mul_comm 10 (10 ^ s.length),
      Nat.zero_mul, Nat.zero_add]
    omega

theorem nanoVal_eq (s : Str) : ∀ (k v : Nat), s.length ≤ k →
    nanoVal k s v = (v * 10 ^ s.length + decVal s) * 10 ^ (k - s.length) := by
  induction s with
  | nil => intro k v _; rw [nanoVal_nil]; simp [decVal]
  | cons c s ih =>
    intro k v hk
    cases k with
    | zero => simp at hk
    | succ k =>
      rw [nanoVal, ih k _ (by simpa using hk)]
      rw [← foldl_dec (c :: s) v, List.foldl_cons, foldl_dec]
      congr 2
      simp

theorem nano_of (a b : Str) (hne : a ≠ []) (ha : ∀ c ∈ a, isDigit c = true) (hl : a.length ≤ 9)
    (hb : Refs.NoHead isDigit b) : nano (a ++ b) = some (decVal a * 10 ^ (9 - a.length), b) := by
  unfold nano
  rw [digit1_append a b hne ha hb]
  simp only
  rw [nanoVal_eq a 9 0 hl]
  simp

end Verif.Codec
