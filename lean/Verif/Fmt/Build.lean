import Verif.Book.AttrProps
import Verif.Style.Model

/-!
# Making value formats (src/format/builder.rs, src/format/create.rs, src/macro_format.rs, src/macro_attr_number.rs)
-/

set_option autoImplicit false

namespace Verif.Fmt

open Codec Book Style
open Book.AttrMap (specSet specClear)

/-! ## Locales -/

/-- `icu_locale_core::Locale`: `rest` are the variants and extensions, as text. -/
structure Locale where
  language : Str
  script : Option Str := none
  region : Option Str := none
  rest : Str := []
  deriving DecidableEq

/-- `Locale::UNKNOWN`. -/
def Locale.unknown : Locale := ⟨"und".toList, none, none, []⟩

/-- `Language::try_from_utf8`, `Script::try_from_utf8`, `Region::try_from_utf8` of the library icu_locale_core, which is
not part of the code. -/
structure Subtags where
  language : Str → Option Str
  script : Str → Option Str
  region : Str → Option Str

def aLanguage : Str := "number:language".toList
def aCountry : Str := "number:country".toList
def aScript : Str := "number:script".toList
def aTLanguage : Str := "number:transliteration-language".toList
def aTCountry : Str := "number:transliteration-country".toList

/-- `set_attr` or `clear_attr`. -/
def setOpt (m : Attrs) (k : Str) : Option Str → Attrs
  | some v => specSet m k v
  | none => specClear m k

/-- `set_locale`, src/macro_attr_number.rs:33-52. -/
def setLocale (m : Attrs) (l : Locale) : Attrs :=
  if l ≠ .unknown then setOpt (setOpt (specSet m aLanguage l.language) aCountry l.region) aScript l.script
  else specClear (specClear (specClear m aLanguage) aCountry) aScript

/-- `locale`, src/macro_attr_number.rs:55-78. -/
def locale (sub : Subtags) (m : Attrs) : Option Locale :=
  match m.lookup aLanguage with
  | none => none
  | some language =>
    match sub.language language with
    | none => none
    | some language =>
      some ⟨language, (m.lookup aScript).bind sub.script, (m.lookup aCountry).bind sub.region, []⟩

/-- `set_transliteration_locale`, src/macro_attr_number.rs:93-109. -/
def setTransliteration (m : Attrs) (l : Locale) : Attrs :=
  if l ≠ .unknown then setOpt (specSet m aTLanguage l.language) aTCountry l.region
  else specClear (specClear m aTLanguage) aTCountry

/-- `transliteration_locale`, src/macro_attr_number.rs:112-130. -/
def transliteration (sub : Subtags) (m : Attrs) : Option Locale :=
  match m.lookup aLanguage with
  | none => none
  | some language =>
    match sub.language language with
    | none => none
    | some language => some ⟨language, none, (m.lookup aCountry).bind sub.region, []⟩

/-! ## Builders of parts -/

/-- The calls on a builder. `display_factor` has the number as text. -/
inductive PartOp where
  | decimalPlaces (n : Nat)
  | fixedDecimalPlaces (n : Nat)
  | grouping
  | minDecimalPlaces (n : Nat)
  | minIntegerDigits (n : Nat)
  | displayFactor (s : Str)
  | decimalReplacement (c : Char)
  | embeddedText (s : Str) (pos : Int)
  | fillChar (c : Char)
  | exponentInterval (n : Nat)
  | forcedExponentSign (b : Bool)
  | minExponentDigits (n : Nat)
  | denominator (n : Int)
  | maxDenominator (n : Int)
  | minDenominatorDigits (n : Nat)
  | minNumeratorDigits (n : Nat)
  | locale (l : Locale)
  | symbol (s : Str)
  | longStyle
  | shortStyle
  | style (s : Str)
  | calendar (s : Str)
  | textual
  | possessiveForm
  | text (s : Str)

def aDecimal : Str := "number:decimal-places".toList
def aMinDecimal : Str := "number:min-decimal-places".toList
def aGrouping : Str := "number:grouping".toList
def aMinInteger : Str := "number:min-integer-digits".toList
def aDisplay : Str := "number:display-factor".toList
def aReplacement : Str := "number:decimal-replacement".toList
def aInterval : Str := "number:exponent-interval".toList
def aSign : Str := "number:forced-exponent-sign".toList
def aMinExponent : Str := "number:min-exponent-digits".toList
def aDenominator : Str := "number:denominator-value".toList
def aMaxDenominator : Str := "number:max-denominator-value".toList
def aMinDenominator : Str := "number:min-denominator-digits".toList
def aMinNumerator : Str := "number:min-numerator-digits".toList
def aStyle : Str := "number:style".toList
def aCalendar : Str := "number:calendar".toList
def aTextual : Str := "number:textual".toList
def aPossessive : Str := "number:possessive-form".toList

def boolText (b : Bool) : Str := if b then "true".toList else "false".toList

/-- `FormatPart::set_attr`, src/format/mod.rs:375-377. -/
def setPart (p : Part) (k v : Str) : Part := { p with attr := specSet p.attr k v }

/-- `if let Some(v) = .. { set_attr(..) }`. -/
def setSome (p : Part) (k : Str) : Option Str → Part
  | some v => setPart p k v
  | none => p

/-- `PartCurrencySymbolBuilder::locale`, src/format/builder.rs:517-527. -/
def partLocale (p : Part) (l : Locale) : Part :=
  setSome (setSome (setPart p aLanguage l.language) aCountry l.region) aScript l.script

/-- The setters that `PartDayBuilder` has, src/format/builder.rs:589-622; the builders of the other parts of a date have
the same, 680-744, 797-830, 884-917, 971-1004, 1114-1147. -/
def dateOp (op : PartOp) (p : Part) : Option Part :=
  match op with
  | .longStyle => some (setPart p aStyle "long".toList)
  | .shortStyle => some (setPart p aStyle "short".toList)
  | .style s => some (setPart p aStyle s)
  | .calendar s => some (setPart p aCalendar s)
  | _ => none

/-- The setters of `PartHoursBuilder`, src/format/builder.rs:1201-1224, and of `PartMinutesBuilder`, 1278-1301. -/
def timeOp (op : PartOp) (p : Part) : Option Part :=
  match op with
  | .longStyle => some (setPart p aStyle "long".toList)
  | .shortStyle => some (setPart p aStyle "short".toList)
  | .style s => some (setPart p aStyle s)
  | _ => none

/-- `PartNumberBuilder`, src/format/builder.rs:46-147. -/
def numberOp (op : PartOp) (p : Part) : Option Part :=
  match op with
  | .decimalPlaces n => some (setPart p aDecimal (decNat n))
  | .fixedDecimalPlaces n => some (setPart (setPart p aDecimal (decNat n)) aMinDecimal (decNat n))
  | .grouping => some (setPart p aGrouping "true".toList)
  | .minDecimalPlaces n => some (setPart p aMinDecimal (decNat n))
  | .minIntegerDigits n => some (setPart p aMinInteger (decNat n))
  | .displayFactor s => some (setPart p aDisplay s)
  | .decimalReplacement c => some (setPart p aReplacement [c])
  | .embeddedText s pos => some { p with position := some pos, content := some s }
  | _ => none

/-- `PartScientificBuilder`, src/format/builder.rs:250-327. -/
def scientificOp (op : PartOp) (p : Part) : Option Part :=
  match op with
  | .decimalPlaces n => some (setPart p aDecimal (decNat n))
  | .exponentInterval n => some (setPart p aInterval (decNat n))
  | .forcedExponentSign b => some (setPart p aSign (boolText b))
  | .grouping => some (setPart p aGrouping "true".toList)
  | .minDecimalPlaces n => some (setPart p aMinDecimal (decNat n))
  | .minExponentDigits n => some (setPart p aMinExponent (decNat n))
  | .minIntegerDigits n => some (setPart p aMinInteger (decNat n))
  | _ => none

/-- `PartFractionBuilder`, src/format/builder.rs:385-446: `min_integer_digits` sets the attribute of the numerator. -/
def fractionOp (op : PartOp) (p : Part) : Option Part :=
  match op with
  | .denominator n => some (setPart p aDenominator (decInt n))
  | .grouping => some (setPart p aGrouping "true".toList)
  | .maxDenominator n => some (setPart p aMaxDenominator (decInt n))
  | .minDenominatorDigits n => some (setPart p aMinDenominator (decNat n))
  | .minIntegerDigits n => some (setPart p aMinNumerator (decNat n))
  | .minNumeratorDigits n => some (setPart p aMinNumerator (decNat n))
  | _ => none

/-- One call on the builder of a part; `none`: this builder has no such method. -/
def partOp (t : PartType) (op : PartOp) (p : Part) : Option Part :=
  match t with
  | .number => numberOp op p
  | .fillCharacter => -- src/format/builder.rs:190-193
    match op with
    | .fillChar c => some { p with content := some [c] }
    | _ => none
  | .scientificNumber => scientificOp op p
  | .fraction => fractionOp op p
  | .currencySymbol => -- src/format/builder.rs:517-535
    match op with
    | .locale l => some (partLocale p l)
    | .symbol s => some { p with content := some s }
    | _ => none
  | .day => dateOp op p
  | .month => -- src/format/builder.rs:680-744
    match op with
    | .textual => some (setPart p aTextual "true".toList)
    | .possessiveForm => some (setPart p aPossessive "true".toList)
    | op => dateOp op p
  | .year => dateOp op p
  | .era => dateOp op p
  | .dayOfWeek => dateOp op p
  | .weekOfYear => -- src/format/builder.rs:1057-1060
    match op with
    | .calendar s => some (setPart p aCalendar s)
    | _ => none
  | .quarter => dateOp op p
  | .hours => timeOp op p
  | .minutes => timeOp op p
  | .seconds => -- src/format/builder.rs:1355-1389
    match op with
    | .decimalPlaces n => some (setPart p aDecimal (decNat n))
    | op => timeOp op p
  | .amPm => none
  | .boolean => none
  | .text => -- src/format/builder.rs:1505-1508
    match op with
    | .text s => some { p with content := some s }
    | _ => none
  | .textContent => none

/-- A chain of calls. -/
def partOps (t : PartType) : List PartOp → Part → Option Part
  | [], p => some p
  | op :: ops, p => (partOp t op p).bind (partOps t ops)

/-- `PartXBuilder::new`, the calls and `build`, e.g. src/format/builder.rs:15-28. -/
def build (f : Format) (t : PartType) (ops : List PartOp) : Option Format :=
  (partOps t ops ⟨t, [], none, none⟩).map fun p => { f with parts := f.parts ++ [p] }

/-! ## Ready-made formats -/

/-- `new_named`, src/macro_format.rs:44-54, without the name. -/
def newNamed : Format := {}

/-- `new_localized`, src/macro_format.rs:57-69, without the name. -/
def newLocalized (l : Locale) : Format := { newNamed with attr := setLocale newNamed.attr l }

/-- `set_truncate_on_overflow`, src/macro_attr_number.rs:263-266. -/
def setTruncate (f : Format) (b : Bool) : Format :=
  { f with attr := specSet f.attr "number:truncate-on-overflow".toList (boolText b) }

/-- `FormatNumberStyle::Long`, src/format/mod.rs:306-313. -/
def long : PartOp := .style "long".toList

/-- A part without calls. -/
def plain (f : Format) (t : PartType) : Format := { f with parts := f.parts ++ [⟨t, [], none, none⟩] }

/-- The calls of a date or time part with `style(FormatNumberStyle::Long)`. -/
def longPart (f : Format) (t : PartType) : Format :=
  { f with parts := f.parts ++ [setPart ⟨t, [], none, none⟩ aStyle "long".toList] }

/-- `part_text`, src/macro_format.rs:521-523. -/
def textPart (f : Format) (s : Str) : Format := { f with parts := f.parts ++ [⟨.text, [], none, some s⟩] }

/-- A number part made of calls. -/
def numberPart (f : Format) (ops : List PartOp) : Format := (build f .number ops).getD f

/-- `part_currency().locale(..).symbol(..)`. -/
def currencyPart (f : Format) (l : Locale) (s : Str) : Format := (build f .currencySymbol [.locale l, .symbol s]).getD f

/-- `if_then(grouping, |p| p.grouping())`, src/format/builder.rs:32-41. -/
def groupingIf (b : Bool) : List PartOp := if b then [.grouping] else []

/-- `part_hours`, ":", `part_minutes`, ":", `part_seconds`. -/
def clock (f : Format) : Format :=
  longPart (textPart (longPart (textPart (longPart f .hours) ":".toList) .minutes) ":".toList) .seconds

/-- Three parts of a date with a text between them. -/
def datePart (f : Format) (a b c : PartType) (sep : Str) : Format :=
  longPart (textPart (longPart (textPart (longPart f a) sep) b) sep) c

/-- `create_loc_boolean_format`, src/format/create.rs:9-13. -/
def locBoolean (l : Locale) : Format := plain (newLocalized l) .boolean

/-- `create_loc_number_format`, src/format/create.rs:16-29. -/
def locNumber (l : Locale) (decimal : Nat) (grouping : Bool) : Format :=
  numberPart (newLocalized l) ([.minIntegerDigits 1, .decimalPlaces decimal] ++ groupingIf grouping)

/-- `create_loc_number_format_fixed`, src/format/create.rs:32-45. -/
def locNumberFixed (l : Locale) (decimal : Nat) (grouping : Bool) : Format :=
  numberPart (newLocalized l) ([.minIntegerDigits 1, .fixedDecimalPlaces decimal] ++ groupingIf grouping)

/-- `create_loc_percentage_format`, src/format/create.rs:48-57. -/
def locPercentage (l : Locale) (decimal : Nat) : Format :=
  textPart (numberPart (newLocalized l) [.decimalPlaces decimal]) "%".toList

/-- `create_loc_currency_prefix`, src/format/create.rs:60-87. -/
def locCurrencyPrefix (l sl : Locale) (symbol : Str) : Format :=
  numberPart (numberPart (textPart (currencyPart (newLocalized l) sl symbol) " ".toList)
    [.decimalPlaces 2, .minDecimalPlaces 2, .grouping]) [.decimalPlaces 2, .minDecimalPlaces 2, .grouping]

/-- `create_loc_currency_suffix`, src/format/create.rs:90-112. -/
def locCurrencySuffix (l sl : Locale) (symbol : Str) : Format :=
  currencyPart (textPart (numberPart (newLocalized l) [.decimalPlaces 2, .minDecimalPlaces 2, .grouping]) " ".toList)
    sl symbol

/-- `create_loc_date_dmy_format`, src/format/create.rs:115-123. -/
def locDateDmy (l : Locale) : Format := datePart (newLocalized l) .day .month .year ".".toList

/-- `create_loc_date_mdy_format`, src/format/create.rs:126-134. -/
def locDateMdy (l : Locale) : Format := datePart (newLocalized l) .month .day .year "/".toList

/-- `create_loc_datetime_format`, src/format/create.rs:137-151. -/
def locDatetime (l : Locale) : Format :=
  clock (textPart (datePart (newLocalized l) .day .month .year ".".toList) " ".toList)

/-- `create_loc_time_format`, src/format/create.rs:154-162. -/
def locTime (l : Locale) : Format := clock (newLocalized l)

/-- `create_loc_time_interval_format`, src/format/create.rs:165-178. -/
def locInterval (l : Locale) : Format := clock (setTruncate (newLocalized l) false)

/-- `create_boolean_format`, src/format/create.rs:181-185. -/
def mkBoolean : Format := plain newNamed .boolean

/-- `create_number_format`, src/format/create.rs:188-199. -/
def mkNumber (decimal : Nat) (grouping : Bool) : Format :=
  numberPart newNamed ([.decimalPlaces decimal] ++ groupingIf grouping)

/-- `create_number_format_fixed`, src/format/create.rs:202-214. -/
def mkNumberFixed (decimal : Nat) (grouping : Bool) : Format :=
  numberPart newNamed ([.minIntegerDigits 1, .fixedDecimalPlaces decimal] ++ groupingIf grouping)

/-- `create_percentage_format`, src/format/create.rs:217-222. -/
def mkPercentage (decimal : Nat) : Format := textPart (numberPart newNamed [.fixedDecimalPlaces decimal]) "%".toList

/-- `create_currency_prefix`, src/format/create.rs:225-242. -/
def mkCurrencyPrefix (sl : Locale) (symbol : Str) : Format :=
  numberPart (textPart (currencyPart newNamed sl symbol) " ".toList) [.fixedDecimalPlaces 2, .grouping]

/-- `create_currency_suffix`, src/format/create.rs:245-262. -/
def mkCurrencySuffix (sl : Locale) (symbol : Str) : Format :=
  currencyPart (textPart (numberPart newNamed [.fixedDecimalPlaces 2, .grouping]) " ".toList) sl symbol

/-- `create_date_iso_format`, src/format/create.rs:265-273. -/
def mkDateIso : Format := datePart newNamed .year .month .day "-".toList

/-- `create_date_dmy_format`, src/format/create.rs:276-284. -/
def mkDateDmy : Format := datePart newNamed .day .month .year ".".toList

/-- `create_date_mdy_format`, src/format/create.rs:287-295. -/
def mkDateMdy : Format := datePart newNamed .month .day .year "/".toList

/-- `create_datetime_format`, src/format/create.rs:298-312. -/
def mkDatetime : Format := clock (textPart (datePart newNamed .year .month .day "-".toList) " ".toList)

/-- `create_time_of_day_format`, src/format/create.rs:315-324. -/
def mkTimeOfDay : Format := clock newNamed

/-- `create_time_interval_format`, src/format/create.rs:327-337. -/
def mkInterval : Format := clock (setTruncate newNamed false)

end Verif.Fmt
