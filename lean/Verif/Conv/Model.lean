import Verif.Conv.Float

/-!
# Values from and to the types of a program (src/value_.rs)

The getters with a default (`as_…_or`, `as_…_or_default`) are `Option.getD` of the optional ones. `Decimal` is
not modelled, and `f32` is not (it is widened to `f64`).
-/

set_option autoImplicit false

namespace Verif.Conv

/-- The whole number types a value can be made from and read as, src/value_.rs:98-266, 593-602. -/
inductive IntType where
  | i8 | i16 | i32 | i64 | u8 | u16 | u32 | u64
  deriving DecidableEq

/-- The least number of a type (Rust). -/
def IntType.lo : IntType → Int
  | .i8 => -128
  | .i16 => -32768
  | .i32 => -2147483648
  | .i64 => -9223372036854775808
  | _ => 0

/-- The greatest number of a type (Rust). -/
def IntType.hi : IntType → Int
  | .i8 => 127
  | .i16 => 32767
  | .i32 => 2147483647
  | .i64 => 9223372036854775807
  | .u8 => 255
  | .u16 => 65535
  | .u32 => 4294967295
  | .u64 => 18446744073709551615

/-- The number in a value, src/value_.rs:308-315 (`as_f64_opt`). -/
def asF64 : Value → Option F64
  | .number n => some n
  | .currency v _ => some v
  | .percentage p => some p
  | _ => none

/-- `as_i64_opt`, `as_u64_opt`, `as_i32_opt`, `as_u32_opt`, `as_i16_opt`, `as_u16_opt`, `as_i8_opt`,
`as_u8_opt`, src/value_.rs:98-266. -/
def asInt (t : IntType) : Value → Option Int
  | .number n => some (toInt t.lo t.hi n)
  | .percentage p => some (toInt t.lo t.hi p)
  | .currency v _ => some (toInt t.lo t.hi v)
  | _ => none

/-- `From<i8>` … `From<u64>`, src/value_.rs:553-560, 595-602. -/
def fromInt (z : Int) : Value := .number (ofInt z)

/-- `From<Option<i8>>` … `From<Option<u64>>`, src/value_.rs:569-578. -/
def fromOptInt : Option Int → Value
  | some z => fromInt z
  | none => .empty

/-- `From<f64>`, src/value_.rs:553-560, 593. -/
def fromF64 (f : F64) : Value := .number f

/-- `as_bool_or`, src/value_.rs:77-82. -/
def asBoolOr (v : Value) (d : Bool) : Bool :=
  match v with
  | .boolean b => b
  | _ => d

/-- `From<bool>`, src/value_.rs:604-608. -/
def fromBool (b : Bool) : Value := .boolean b

/-- `as_str_opt` and `as_string_opt`, src/value_.rs:350-355, 363-368. -/
def asStr : Value → Option Str
  | .text s => some s
  | _ => none

/-- `From<&str>`, `From<String>`, src/value_.rs:475-491. -/
def fromStr (s : Str) : Value := .text s

/-- `From<Option<&str>>`, `From<Option<String>>`, src/value_.rs:505-533. -/
def fromOptStr : Option Str → Value
  | some s => .text s
  | none => .empty

/-- `From<Vec<TextTag>>`, src/value_.rs:499-503. -/
def fromTags (t : List Node) : Value := .textXml t

mutual

/-- `extract_text`, src/xmltree.rs:210-221. -/
def extract : Node → Str
  | .text s => s
  | .tag _ _ c => extracts c

/-- The loop of `extract_text`, src/xmltree.rs:211-220. -/
def extracts : List Node → Str
  | [] => []
  | x :: c => extract x ++ extracts c

end

/-- The loop of `as_cow_str_or`, src/value_.rs:336-342; the flag says that a line break is due. -/
def cowLoop (buf : Str) (newline : Bool) : List Node → Str
  | [] => buf
  | t :: v => cowLoop ((if newline then buf ++ ['\n'] else buf) ++ extract t) true v

/-- `as_cow_str_or`, src/value_.rs:330-347. -/
def asCowStrOr (v : Value) (d : Str) : Str :=
  match v with
  | .text s => s
  | .textXml t => cowLoop [] false t
  | _ => d

/-- `as_timeduration_opt`, src/value_.rs:384-389. -/
def asDuration : Value → Option Int
  | .timeDuration d => some d
  | _ => none

/-- `From<Duration>`, src/value_.rs:674-678. -/
def fromDuration (d : Int) : Value := .timeDuration d

/-- `as_datetime_opt`, src/value_.rs:405-410. -/
def asDateTime : Value → Option DateTime
  | .dateTime d => some d
  | _ => none

/-- `From<NaiveDateTime>`, src/value_.rs:620-624. -/
def fromDateTime (d : DateTime) : Value := .dateTime d

/-- `chrono::NaiveDate`. -/
structure Date where
  year : Int
  month : Nat
  day : Nat
  deriving DecidableEq

/-- `chrono::NaiveTime`. -/
structure Time where
  hour : Nat
  minute : Nat
  second : Nat
  nano : Nat
  deriving DecidableEq

/-- `as_date_opt`, src/value_.rs:426-431. -/
def asDate : Value → Option Date
  | .dateTime d => some ⟨d.year, d.month, d.day⟩
  | _ => none

/-- `From<NaiveDate>`, src/value_.rs:636-640. -/
def fromDate (d : Date) : Value := .dateTime ⟨d.year, d.month, d.day, 0, 0, 0, 0⟩

/-- `From<NaiveTime>`, src/value_.rs:652-659. -/
def fromTime (t : Time) : Value := .dateTime ⟨1899, 12, 30, t.hour, t.minute, t.second, t.nano⟩

/-- `currency`, src/value_.rs:434-439. -/
def currencyOf : Value → Str
  | .currency _ c => c
  | _ => []

/-- `new_currency`, src/value_.rs:443-445. -/
def newCurrency (cur : Str) (v : F64) : Value := .currency v cur

/-- `new_percentage`, src/value_.rs:448-450. -/
def newPercentage (v : F64) : Value := .percentage v

end Verif.Conv
