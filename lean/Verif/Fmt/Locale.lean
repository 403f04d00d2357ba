import Verif.Fmt.Build
import Verif.Style.Read

/-!
# The default formats and styles of a workbook (src/locale, src/defaultstyles.rs, src/workbook_.rs)
-/

set_option autoImplicit false

namespace Verif.Fmt

open Xml Codec Book Style
open Book.AttrMap (specSet specClear)

/-! ## Names -/

/-- `DefaultFormat`, src/defaultstyles.rs:17-63. -/
def fBool : Str := "bool1".toList
def fNumber : Str := "num1".toList
def fPercent : Str := "percent1".toList
def fCurrency : Str := "currency1".toList
def fDate : Str := "date1".toList
def fDatetime : Str := "datetime1".toList
def fTime : Str := "time1".toList
def fInterval : Str := "interval1".toList

/-- `DefaultStyle`, src/defaultstyles.rs:72-112. -/
def sBool : Str := "default-bool".toList
def sNumber : Str := "default-num".toList
def sPercent : Str := "default-percent".toList
def sCurrency : Str := "default-currency".toList
def sDate : Str := "default-date".toList
def sDatetime : Str := "default-datetime".toList
def sTime : Str := "default-time".toList
def sInterval : Str := "default-interval".toList

/-! ## The tables of the locales -/

/-- `LocalizedValueFormat`, src/locale/mod.rs:25-43: the formats with their names. -/
structure Table where
  boolean : Str × Format
  number : Str × Format
  percentage : Str × Format
  currency : Str × Format
  date : Str × Format
  datetime : Str × Format
  timeOfDay : Str × Format
  interval : Str × Format

/-- `number_format`, src/locale/default.rs:29-36, cs_cz.rs, de_at.rs and en_us.rs alike. -/
def tNumber (l : Locale) : Format := numberPart (newLocalized l) [.minIntegerDigits 1, .decimalPlaces 2]

/-- `percentage_format`, src/locale/default.rs:38-46, alike. -/
def tPercentage (l : Locale) : Format :=
  textPart (numberPart (newLocalized l) [.minIntegerDigits 1, .decimalPlaces 2]) "%".toList

/-- `currency_format`, src/locale/default.rs:48-59, alike up to the symbol. -/
def tCurrency (l : Locale) (symbol : Str) : Format :=
  numberPart (textPart (currencyPart (newLocalized l) l symbol) " ".toList)
    [.minIntegerDigits 1, .decimalPlaces 2, .minDecimalPlaces 2, .grouping]

/-- `locale!("en")`. -/
def lEn : Locale := ⟨"en".toList, none, none, []⟩
def lCsCz : Locale := ⟨"cs".toList, none, some "CZ".toList, []⟩
def lDeAt : Locale := ⟨"de".toList, none, some "AT".toList, []⟩
def lEnUs : Locale := ⟨"en".toList, none, some "US".toList, []⟩

/-- `LOCALE_DEFAULT`, src/locale/default.rs:18-108. -/
def tableEn : Table where
  boolean := (fBool, plain (newLocalized lEn) .boolean)
  number := (fNumber, tNumber lEn)
  percentage := (fPercent, tPercentage lEn)
  currency := (fCurrency, tCurrency lEn "$".toList)
  date := (fDate, datePart (newLocalized lEn) .year .month .day "-".toList)
  datetime := (fDatetime, clock (textPart (datePart (newLocalized lEn) .year .month .day "-".toList) " ".toList))
  timeOfDay := (fDatetime, clock (newLocalized lEn))
  interval := (fDatetime, clock (setTruncate (newLocalized lEn) false))

/-- `LOCALE_CS_CZ`, src/locale/cs_cz.rs:18-108. -/
def tableCsCz : Table where
  boolean := (fBool, plain (newLocalized lCsCz) .boolean)
  number := (fNumber, tNumber lCsCz)
  percentage := (fPercent, tPercentage lCsCz)
  currency := (fCurrency, tCurrency lCsCz "Kč".toList)
  date := (fDate, datePart (newLocalized lCsCz) .day .month .year ".".toList)
  datetime := (fDatetime, clock (textPart (datePart (newLocalized lCsCz) .day .month .year ".".toList) " ".toList))
  timeOfDay := (fDatetime, clock (newLocalized lCsCz))
  interval := (fDatetime, clock (setTruncate (newLocalized lCsCz) false))

/-- `LOCALE_DE_AT`, src/locale/de_at.rs:18-108. -/
def tableDeAt : Table where
  boolean := (fBool, plain (newLocalized lDeAt) .boolean)
  number := (fNumber, tNumber lDeAt)
  percentage := (fPercent, tPercentage lDeAt)
  currency := (fCurrency, tCurrency lDeAt "€".toList)
  date := (fDate, datePart (newLocalized lDeAt) .day .month .year ".".toList)
  datetime := (fDatetime, clock (textPart (datePart (newLocalized lDeAt) .day .month .year ".".toList) " ".toList))
  timeOfDay := (fDatetime, clock (newLocalized lDeAt))
  interval := (fDatetime, clock (setTruncate (newLocalized lDeAt) false))

/-- `LOCALE_EN_US`, src/locale/en_us.rs:18-111. -/
def tableEnUs : Table where
  boolean := (fBool, plain (newLocalized lEnUs) .boolean)
  number := (fNumber, tNumber lEnUs)
  percentage := (fPercent, tPercentage lEnUs)
  currency := (fCurrency, tCurrency lEnUs "$".toList)
  date := (fDate, datePart (newLocalized lEnUs) .month .day .year "/".toList)
  datetime := (fDatetime, clock (textPart (datePart (newLocalized lEnUs) .day .month .year ".".toList) " ".toList))
  timeOfDay := (fTime, plain (textPart (clock (newLocalized lEnUs)) " ".toList) .amPm)
  interval := (fInterval, clock (setTruncate (newLocalized lEnUs) false))

/-- The features `locale_cs_CZ`, `locale_de_AT` and `locale_en_US`. -/
structure Features where
  csCz : Bool
  deAt : Bool
  enUs : Bool

/-- `localized_format`, src/locale/mod.rs:45-70: the locale is a key of a map. -/
def localized (ft : Features) (l : Locale) : Option Table :=
  if l = lEn then some tableEn
  else if ft.csCz ∧ l = lCsCz then some tableCsCz
  else if ft.deAt ∧ l = lDeAt then some tableDeAt
  else if ft.enUs ∧ l = lEnUs then some tableEnUs
  else none

/-! ## The workbook -/

/-- The styles of a workbook, and the default styles of the value types (`def_styles`, src/workbook_.rs:78). -/
structure LBook where
  book : SBook := {}
  defs : HMap ValueType Str := []

/-- `add_def_style`, src/workbook_.rs:500-502. -/
def LBook.addDef (b : LBook) (t : ValueType) (s : Str) : LBook := { b with defs := b.defs.insert t s }

/-- `def_style`, src/workbook_.rs:505-507. -/
def LBook.defStyle (b : LBook) (t : ValueType) : Option Str := b.defs.get? t

def aDataStyle : Str := "style:data-style-name".toList

/-- `CellStyle::new`, src/style/cellstyle.rs:89-102. -/
def cellStyle (name format : Str) : Style Body := ⟨name, { attr := specSet [] aDataStyle format }⟩

/-- `value_format` of a cell style, src/style/cellstyle.rs:105-107. -/
def valueFormat (s : Style Body) : Option Str := s.body.attr.lookup aDataStyle

/-- `add_boolean_format` .. `add_timeduration_format`. -/
def addF (k : Kind) (nf : Str × Format) (b : SBook) : Except Fault SBook := b.addFormat k ⟨nf.1, nf.2⟩

/-- The first part of `locale_settings`, src/workbook_.rs:304-313. -/
def addFormats (t : Table) (b : SBook) : Except Fault SBook := do
  let b ← addF .fmtBoolean t.boolean b
  let b ← addF .fmtNumber t.number b
  let b ← addF .fmtPercentage t.percentage b
  let b ← addF .fmtCurrency t.currency b
  let b ← addF .fmtDateTime t.date b
  let b ← addF .fmtDateTime t.datetime b
  let b ← addF .fmtDateTime t.timeOfDay b
  addF .fmtTimeDuration t.interval b

/-- The cell styles, src/workbook_.rs:315-340. -/
def addCellStyles (b : SBook) : Except Fault SBook := do
  let b ← b.addStyle .cell (cellStyle sBool fBool)
  let b ← b.addStyle .cell (cellStyle sNumber fNumber)
  let b ← b.addStyle .cell (cellStyle sPercent fPercent)
  let b ← b.addStyle .cell (cellStyle sCurrency fCurrency)
  let b ← b.addStyle .cell (cellStyle sDate fDate)
  let b ← b.addStyle .cell (cellStyle sDatetime fDatetime)
  let b ← b.addStyle .cell (cellStyle sTime fTime)
  b.addStyle .cell (cellStyle sInterval fInterval)

/-- The default styles of the value types, src/workbook_.rs:342-347. -/
def addDefs (b : LBook) : LBook :=
  (((((b.addDef .boolean sBool).addDef .number sNumber).addDef .percentage sPercent).addDef .currency
    sCurrency).addDef .dateTime sDate).addDef .timeDuration sInterval

/-- `locale_settings`, src/workbook_.rs:303-348. -/
def localeSettings (ft : Features) (l : Locale) (b : LBook) : Except Fault LBook := do
  let s ← match localized ft l with
    | some t => addFormats t b.book
    | none => .ok b.book
  let s ← addCellStyles s
  .ok (addDefs { b with book := s })

/-- `WorkBook::new`, src/workbook_.rs:291-295. -/
def newBook (ft : Features) (l : Locale) : Except Fault LBook := localeSettings ft l {}

/-- `create_default_styles`, src/defaultstyles.rs:116-174. -/
def createDefaultStyles (b : LBook) : Except Fault LBook := do
  let s ← addF .fmtBoolean (fBool, mkBoolean) b.book
  let s ← addF .fmtNumber (fNumber, mkNumber 2 false) s
  let s ← addF .fmtPercentage (fPercent, mkPercentage 2) s
  let s ← addF .fmtCurrency (fCurrency, mkCurrencyPrefix lDeAt "€".toList) s
  let s ← addF .fmtDateTime (fDate, mkDateDmy) s
  let s ← addF .fmtDateTime (fDatetime, mkDatetime) s
  let s ← addF .fmtTimeDuration (fTime, mkTimeOfDay) s
  let s ← addF .fmtTimeDuration (fInterval, mkInterval) s
  let s ← addCellStyles s
  .ok (addDefs { b with book := s })

end Verif.Fmt
