import Verif.Width.Model
import Verif.Enum.Units

/-!
# Values with arguments (src/style/units.rs), and the enumerations outside of that file

The text of a `f64` is a parameter, as everywhere.
-/

set_option autoImplicit false

namespace Verif.Enum

open Codec Width

/-- `Angle`, src/style/units.rs:16-23. -/
inductive Angle where
  | deg (v : F64) | grad (v : F64) | rad (v : F64)
  deriving DecidableEq

/-- `Display` for `Angle`, src/style/units.rs:25-33. -/
def Angle.text (f : Floats) : Angle → Str
  | .deg v => f.fmt v ++ "deg".toList
  | .grad v => f.fmt v ++ "grad".toList
  | .rad v => f.fmt v ++ "rad".toList

/-- `Percent`, src/style/units.rs:111-114. -/
inductive Percent where
  | percent (v : F64)
  deriving DecidableEq

/-- `Display` for `Percent`, src/style/units.rs:116-122. -/
def Percent.text (f : Floats) : Percent → Str
  | .percent v => f.fmt v ++ "%".toList

/-- `LengthPercent`, `FontSize`, `Margin` and `Indent`, src/style/units.rs:127-130, 509-512, 806-809, 920-923. The four
have the same two variants. -/
inductive LengthPercent where
  | length (v : Length) | percent (v : Percent)
  deriving DecidableEq

/-- `Display` for the four, src/style/units.rs:144-151, 536-543, 833-840, 937-944. -/
def LengthPercent.text (f : Floats) : LengthPercent → Str
  | .length v => fmtLength f v
  | .percent v => v.text f

/-- `HyphenationLadderCount`, src/style/units.rs:670-673. The number is a `u32`. -/
inductive HyphenationLadderCount where
  | noLimit | count (n : Nat)
  deriving DecidableEq

/-- `Display` for `HyphenationLadderCount`, src/style/units.rs:675-682. -/
def HyphenationLadderCount.text : HyphenationLadderCount → Str
  | .noLimit => "no_limit".toList
  | .count n => decNat n

/-- `LetterSpacing`, src/style/units.rs:719-722. -/
inductive LetterSpacing where
  | normal | length (v : Length)
  deriving DecidableEq

/-- `Display` for `LetterSpacing`, src/style/units.rs:730-737. -/
def LetterSpacing.text (f : Floats) : LetterSpacing → Str
  | .normal => "normal".toList
  | .length v => fmtLength f v

/-- `LineHeight`, src/style/units.rs:756-760. -/
inductive LineHeight where
  | normal | length (v : Length) | percent (v : Percent)
  deriving DecidableEq

/-- `Display` for `LineHeight`, src/style/units.rs:785-793. -/
def LineHeight.text (f : Floats) : LineHeight → Str
  | .normal => "normal".toList
  | .length v => fmtLength f v
  | .percent v => v.text f

/-- `GlyphOrientation`, src/style/units.rs:1117-1121. -/
inductive GlyphOrientation where
  | auto | zero | angle (a : Angle)
  deriving DecidableEq

/-- `Display` for `GlyphOrientation`, src/style/units.rs:1123-1131. -/
def GlyphOrientation.text (f : Floats) : GlyphOrientation → Str
  | .auto => "auto".toList
  | .zero => "0".toList
  | .angle a => a.text f

/-- `StyleNumFormat`, src/style/units.rs:1170-1178. -/
inductive StyleNumFormat where
  | none | number | lowerAlpha | alpha | lowerRoman | roman | text (s : Str)
  deriving DecidableEq

/-- `Display` for `StyleNumFormat`, src/style/units.rs:1180-1192. -/
def StyleNumFormat.fmt : StyleNumFormat → Str
  | .none => []
  | .number => "1".toList
  | .lowerAlpha => "a".toList
  | .alpha => "A".toList
  | .lowerRoman => "i".toList
  | .roman => "I".toList
  | .text s => s

/-- `PageNumber`, src/style/units.rs:1205-1208. The number is a `u32`. -/
inductive PageNumber where
  | auto | number (n : Nat)
  deriving DecidableEq

/-- `Display` for `PageNumber`, src/style/units.rs:1210-1217. -/
def PageNumber.text : PageNumber → Str
  | .auto => "auto".toList
  | .number n => decNat n

/-- `RelativeScale`, src/style/units.rs:1345-1349. -/
inductive RelativeScale where
  | scale | scaleMin | percent (v : Percent)
  deriving DecidableEq

/-- `Display` for `RelativeScale`, src/style/units.rs:1351-1359. -/
def RelativeScale.text (f : Floats) : RelativeScale → Str
  | .scale => "scale".toList
  | .scaleMin => "scale-min".toList
  | .percent v => v.text f

/-- `LineWidth`, src/style/units.rs:1721-1732. -/
inductive LineWidth where
  | auto | bold | percent (v : Percent) | int (n : Nat) | length (v : Length) | normal | dash | thin | medium | thick
  deriving DecidableEq

/-- `Display` for `LineWidth`, src/style/units.rs:1746-1761. -/
def LineWidth.text (f : Floats) : LineWidth → Str
  | .auto => "auto".toList
  | .bold => "bold".toList
  | .percent v => v.text f
  | .int n => decNat n
  | .length v => fmtLength f v
  | .normal => "normal".toList
  | .dash => "dash".toList
  | .thin => "thin".toList
  | .medium => "medium".toList
  | .thick => "thick".toList

/-- `TextPosition`, src/style/units.rs:1778-1782. -/
inductive TextPosition where
  | sub | super | percent (v : Percent)
  deriving DecidableEq

/-- `Display` for `TextPosition`, src/style/units.rs:1790-1798. -/
def TextPosition.text (f : Floats) : TextPosition → Str
  | .sub => "sub".toList
  | .super => "super".toList
  | .percent v => v.text f

/-! ## Number formats -/

/-- `FormatNumberStyle`, src/format/mod.rs:301-304. -/
inductive FormatNumberStyle where
  | short | long
  deriving DecidableEq

/-- `Display` for `FormatNumberStyle`, src/format/mod.rs:306-313. -/
def FormatNumberStyle.text : FormatNumberStyle → Str
  | .short => "short".toList
  | .long => "long".toList

/-- `FormatCalendarStyle`, src/format/mod.rs:318-326. -/
inductive FormatCalendarStyle where
  | gregorian | gengou | roc | hanja | hijri | jewish | buddhist
  deriving DecidableEq

/-- `Display` for `FormatCalendarStyle`, src/format/mod.rs:328-340. -/
def FormatCalendarStyle.text : FormatCalendarStyle → Str
  | .gregorian => "gregorian".toList
  | .gengou => "gengou".toList
  | .roc => "ROC".toList
  | .hanja => "hanja".toList
  | .hijri => "hijri".toList
  | .jewish => "jewish".toList
  | .buddhist => "buddhist".toList

/-! ## Enumerations that are parsed -/

/-- `parse_attr` of `FormatSource`, src/style/units.rs:183-198. The value of a missing attribute is `None`. -/
def FormatSource.parse (s : Str) : Option FormatSource :=
  if s = "fixed".toList then some .fixed
  else if s = "language".toList then some .language
  else none

/-- `parse_attr` of `TransliterationStyle`, src/style/units.rs:227-243. -/
def TransliterationStyle.parse (s : Str) : Option TransliterationStyle :=
  if s = "short".toList then some .short
  else if s = "medium".toList then some .medium
  else if s = "long".toList then some .long
  else none

/-- `parse_attr` of `MasterPageUsage`, src/style/units.rs:336-353. -/
def MasterPageUsage.parse (s : Str) : Option MasterPageUsage :=
  if s = "all".toList then some .all
  else if s = "left".toList then some .left
  else if s = "mirrored".toList then some .mirrored
  else if s = "right".toList then some .right
  else none

/-- `Display` for `Visibility`, src/sheet_.rs:33-41. -/
def visibilityText : Visibility → Str
  | .visible => "visible".toList
  | .collapsed => "collapse".toList
  | .filtered => "filter".toList

/-- `parse_visibility`, src/io/parse.rs:69-79. -/
def parseVisibility (s : Str) : Option Visibility :=
  if s = "visible".toList then some .visible
  else if s = "filter".toList then some .filtered
  else if s = "collapse".toList then some .collapsed
  else none

/-- `XLinkActuate`, src/xlink.rs:8-13. -/
inductive Actuate where
  | onLoad | onRequest
  deriving DecidableEq

/-- `Display` for `XLinkActuate`, src/xlink.rs:15-22. -/
def Actuate.text : Actuate → Str
  | .onLoad => "OnLoad".toList
  | .onRequest => "OnRequest".toList

/-- `parse_xlink_actuate`, src/io/parse.rs:83-92. -/
def Actuate.parse (s : Str) : Option Actuate :=
  if s = "onLoad".toList then some .onLoad
  else if s = "onRequest".toList then some .onRequest
  else none

/-- `XLinkShow`, src/xlink.rs:26-31. -/
inductive LinkShow where
  | new | replace
  deriving DecidableEq

/-- `Display` for `XLinkShow`, src/xlink.rs:33-40. -/
def LinkShow.text : LinkShow → Str
  | .new => "new".toList
  | .replace => "replace".toList

/-- `parse_xlink_show`, src/io/parse.rs:96-105. -/
def LinkShow.parse (s : Str) : Option LinkShow :=
  if s = "new".toList then some .new
  else if s = "replace".toList then some .replace
  else none

/-- `XLinkType`, src/xlink.rs:44-60. -/
inductive LinkType where
  | simple | extended | locator | arc | resource | title | none
  deriving DecidableEq

/-- `Display` for `XLinkType`, src/xlink.rs:62-74. -/
def LinkType.text : LinkType → Str
  | .simple => "simple".toList
  | .extended => "extended".toList
  | .locator => "locator".toList
  | .arc => "arc".toList
  | .resource => "resource".toList
  | .title => "title".toList
  | .none => "none".toList

/-- `parse_xlink_type`, src/io/parse.rs:109-123. -/
def LinkType.parse (s : Str) : Option LinkType :=
  if s = "simple".toList then some .simple
  else if s = "extended".toList then some .extended
  else if s = "locator".toList then some .locator
  else if s = "arc".toList then some .arc
  else if s = "resource".toList then some .resource
  else if s = "title".toList then some .title
  else if s = "none".toList then some .none
  else Option.none

end Verif.Enum
