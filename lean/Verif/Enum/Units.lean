import Verif.Base

/-!
# The enumerations of src/style/units.rs and their texts

Only the enumerations without arguments; those with arguments are in `Verif.Enum.Params`.  Each text is what
`Display` writes: the setters of the styles put `to_string()` into the attribute map.
-/

set_option autoImplicit false

namespace Verif.Enum


/-- `FormatSource`, src/style/units.rs:169-172. -/
inductive FormatSource where
  | fixed | language
  deriving DecidableEq

/-- `Display` for `FormatSource`, src/style/units.rs:174-181. -/
def FormatSource.text : FormatSource → Str
  | .fixed => "fixed".toList
  | .language => "language".toList

/-- `TransliterationStyle`, src/style/units.rs:211-215. -/
inductive TransliterationStyle where
  | short | medium | long
  deriving DecidableEq

/-- `Display` for `TransliterationStyle`, src/style/units.rs:217-225. -/
def TransliterationStyle.text : TransliterationStyle → Str
  | .short => "short".toList
  | .medium => "medium".toList
  | .long => "long".toList

/-- `FontFamilyGeneric`, src/style/units.rs:258-265. -/
inductive FontFamilyGeneric where
  | decorative | modern | roman | script | swiss | system
  deriving DecidableEq

/-- `Display` for `FontFamilyGeneric`, src/style/units.rs:267-278. -/
def FontFamilyGeneric.text : FontFamilyGeneric → Str
  | .decorative => "decorative".toList
  | .modern => "modern".toList
  | .roman => "roman".toList
  | .script => "script".toList
  | .swiss => "swiss".toList
  | .system => "system".toList

/-- `FontPitch`, src/style/units.rs:286-291. -/
inductive FontPitch where
  | variable | fixed
  deriving DecidableEq

/-- `Display` for `FontPitch`, src/style/units.rs:293-300. -/
def FontPitch.text : FontPitch → Str
  | .variable => "variable".toList
  | .fixed => "fixed".toList

/-- `MasterPageUsage`, src/style/units.rs:318-323. -/
inductive MasterPageUsage where
  | all | left | mirrored | right
  deriving DecidableEq

/-- `Display` for `MasterPageUsage`, src/style/units.rs:325-334. -/
def MasterPageUsage.text : MasterPageUsage → Str
  | .all => "all".toList
  | .left => "left".toList
  | .mirrored => "mirrored".toList
  | .right => "right".toList

/-- `TabStopType`, src/style/units.rs:368-373. -/
inductive TabStopType where
  | center | left | right | char
  deriving DecidableEq

/-- `Display` for `TabStopType`, src/style/units.rs:375-384. -/
def TabStopType.text : TabStopType → Str
  | .center => "center".toList
  | .left => "left".toList
  | .right => "right".toList
  | .char => "char".toList

/-- `FontStretch`, src/style/units.rs:403-413. -/
inductive FontStretch where
  | normal | ultraCondensed | extraCondensed | condensed | semiCondensed | semiExpanded | expanded | extraExpanded | ultraExpanded
  deriving DecidableEq

/-- `Display` for `FontStretch`, src/style/units.rs:415-429. -/
def FontStretch.text : FontStretch → Str
  | .normal => "normal".toList
  | .ultraCondensed => "ultra-condensed".toList
  | .extraCondensed => "extra-condensed".toList
  | .condensed => "condensed".toList
  | .semiCondensed => "semi-condensed".toList
  | .semiExpanded => "semi-expanded".toList
  | .expanded => "expanded".toList
  | .extraExpanded => "extra-expanded".toList
  | .ultraExpanded => "ultra-expanded".toList

/-- `Border`, src/style/units.rs:435-446. -/
inductive Border where
  | none | hidden | dotted | dashed | solid | double | groove | ridge | inset | outset
  deriving DecidableEq

/-- `Display` for `Border`, src/style/units.rs:448-463. -/
def Border.text : Border → Str
  | .none => "none".toList
  | .hidden => "hidden".toList
  | .dotted => "dotted".toList
  | .dashed => "dashed".toList
  | .solid => "solid".toList
  | .double => "double".toList
  | .groove => "groove".toList
  | .ridge => "ridge".toList
  | .inset => "inset".toList
  | .outset => "outset".toList

/-- `PageBreak`, src/style/units.rs:476-480. -/
inductive PageBreak where
  | auto | column | page
  deriving DecidableEq

/-- `Display` for `PageBreak`, src/style/units.rs:482-491. -/
def PageBreak.text : PageBreak → Str
  | .auto => "auto".toList
  | .column => "column".toList
  | .page => "page".toList

/-- `FontStyle`, src/style/units.rs:556-560. -/
inductive FontStyle where
  | normal | italic | oblique
  deriving DecidableEq

/-- `Display` for `FontStyle`, src/style/units.rs:562-570. -/
def FontStyle.text : FontStyle → Str
  | .normal => "normal".toList
  | .italic => "italic".toList
  | .oblique => "oblique".toList

/-- `FontVariant`, src/style/units.rs:582-585. -/
inductive FontVariant where
  | normal | smallCaps
  deriving DecidableEq

/-- `Display` for `FontVariant`, src/style/units.rs:587-594. -/
def FontVariant.text : FontVariant → Str
  | .normal => "normal".toList
  | .smallCaps => "small-caps".toList

/-- `FontWeight`, src/style/units.rs:608-620. -/
inductive FontWeight where
  | normal | bold | w100 | w200 | w300 | w400 | w500 | w600 | w700 | w800 | w900
  deriving DecidableEq

/-- `Display` for `FontWeight`, src/style/units.rs:622-638. -/
def FontWeight.text : FontWeight → Str
  | .normal => "normal".toList
  | .bold => "bold".toList
  | .w100 => "100".toList
  | .w200 => "200".toList
  | .w300 => "300".toList
  | .w400 => "400".toList
  | .w500 => "500".toList
  | .w600 => "600".toList
  | .w700 => "700".toList
  | .w800 => "800".toList
  | .w900 => "900".toList

/-- `Hyphenation`, src/style/units.rs:647-650. -/
inductive Hyphenation where
  | auto | page
  deriving DecidableEq

/-- `Display` for `Hyphenation`, src/style/units.rs:652-659. -/
def Hyphenation.text : Hyphenation → Str
  | .auto => "auto".toList
  | .page => "page".toList

/-- `TextKeep`, src/style/units.rs:691-694. -/
inductive TextKeep where
  | auto | always
  deriving DecidableEq

/-- `Display` for `TextKeep`, src/style/units.rs:696-704. -/
def TextKeep.text : TextKeep → Str
  | .auto => "auto".toList
  | .always => "always".toList

/-- `TextAlign`, src/style/units.rs:856-865. -/
inductive TextAlign where
  | start | center | «end» | justify | inside | outside | left | right
  deriving DecidableEq

/-- `Display` for `TextAlign`, src/style/units.rs:867-880. -/
def TextAlign.text : TextAlign → Str
  | .start => "start".toList
  | .center => "center".toList
  | .«end» => "end".toList
  | .justify => "justify".toList
  | .inside => "inside".toList
  | .outside => "outside".toList
  | .left => "left".toList
  | .right => "right".toList

/-- `TextAlignLast`, src/style/units.rs:892-896. -/
inductive TextAlignLast where
  | start | center | justify
  deriving DecidableEq

/-- `Display` for `TextAlignLast`, src/style/units.rs:898-906. -/
def TextAlignLast.text : TextAlignLast → Str
  | .start => "start".toList
  | .center => "center".toList
  | .justify => "justify".toList

/-- `TextTransform`, src/style/units.rs:960-965. -/
inductive TextTransform where
  | none | lowercase | uppercase | capitalize
  deriving DecidableEq

/-- `Display` for `TextTransform`, src/style/units.rs:967-976. -/
def TextTransform.text : TextTransform → Str
  | .none => "none".toList
  | .lowercase => "lowercase".toList
  | .uppercase => "uppercase".toList
  | .capitalize => "capitalize".toList

/-- `WrapOption`, src/style/units.rs:987-990. -/
inductive WrapOption where
  | noWrap | wrap
  deriving DecidableEq

/-- `Display` for `WrapOption`, src/style/units.rs:992-999. -/
def WrapOption.text : WrapOption → Str
  | .noWrap => "no-wrap".toList
  | .wrap => "wrap".toList

/-- `CellProtect`, src/style/units.rs:1019-1035. -/
inductive CellProtect where
  | formulaHidden | hiddenAndProtected | none | «protected» | protectedFormulaHidden
  deriving DecidableEq

/-- `Display` for `CellProtect`, src/style/units.rs:1037-1047. -/
def CellProtect.text : CellProtect → Str
  | .formulaHidden => "formula-hidden".toList
  | .hiddenAndProtected => "hidden-and-protected".toList
  | .none => "none".toList
  | .«protected» => "protected".toList
  | .protectedFormulaHidden => "protected formula-hidden".toList

/-- `WritingDirection`, src/style/units.rs:1062-1065. -/
inductive WritingDirection where
  | ltr | ttb
  deriving DecidableEq

/-- `Display` for `WritingDirection`, src/style/units.rs:1067-1074. -/
def WritingDirection.text : WritingDirection → Str
  | .ltr => "ltr".toList
  | .ttb => "ttb".toList

/-- `TextRelief`, src/style/units.rs:1087-1091. -/
inductive TextRelief where
  | none | embossed | engraved
  deriving DecidableEq

/-- `Display` for `TextRelief`, src/style/units.rs:1093-1101. -/
def TextRelief.text : TextRelief → Str
  | .none => "none".toList
  | .embossed => "embossed".toList
  | .engraved => "engraved".toList

/-- `LineBreak`, src/style/units.rs:1140-1143. -/
inductive LineBreak where
  | normal | strict
  deriving DecidableEq

/-- `Display` for `LineBreak`, src/style/units.rs:1145-1153. -/
def LineBreak.text : LineBreak → Str
  | .normal => "normal".toList
  | .strict => "strict".toList

/-- `PrintContent`, src/style/units.rs:1235-1244. -/
inductive PrintContent where
  | headers | grid | annotations | objects | charts | drawings | formulas | zeroValues
  deriving DecidableEq

/-- `Display` for `PrintContent`, src/style/units.rs:1246-1259. -/
def PrintContent.text : PrintContent → Str
  | .headers => "headers".toList
  | .grid => "grid".toList
  | .annotations => "annotations".toList
  | .objects => "objects".toList
  | .charts => "charts".toList
  | .drawings => "drawings".toList
  | .formulas => "formulas".toList
  | .zeroValues => "zero-values".toList

/-- `PrintOrder`, src/style/units.rs:1273-1276. -/
inductive PrintOrder where
  | ltr | ttb
  deriving DecidableEq

/-- `Display` for `PrintOrder`, src/style/units.rs:1278-1285. -/
def PrintOrder.text : PrintOrder → Str
  | .ltr => "ltr".toList
  | .ttb => "ttb".toList

/-- `PrintOrientation`, src/style/units.rs:1297-1300. -/
inductive PrintOrientation where
  | landscape | portrait
  deriving DecidableEq

/-- `Display` for `PrintOrientation`, src/style/units.rs:1302-1309. -/
def PrintOrientation.text : PrintOrientation → Str
  | .landscape => "landscape".toList
  | .portrait => "portrait".toList

/-- `PunctuationWrap`, src/style/units.rs:1323-1326. -/
inductive PunctuationWrap where
  | hanging | simple
  deriving DecidableEq

/-- `Display` for `PunctuationWrap`, src/style/units.rs:1328-1335. -/
def PunctuationWrap.text : PunctuationWrap → Str
  | .hanging => "hanging".toList
  | .simple => "simple".toList

/-- `RotationAlign`, src/style/units.rs:1368-1373. -/
inductive RotationAlign where
  | none | bottom | top | center
  deriving DecidableEq

/-- `Display` for `RotationAlign`, src/style/units.rs:1375-1384. -/
def RotationAlign.text : RotationAlign → Str
  | .none => "none".toList
  | .bottom => "bottom".toList
  | .top => "top".toList
  | .center => "center".toList

/-- `PrintCentering`, src/style/units.rs:1403-1408. -/
inductive PrintCentering where
  | none | horizontal | vertical | both
  deriving DecidableEq

/-- `Display` for `PrintCentering`, src/style/units.rs:1410-1419. -/
def PrintCentering.text : PrintCentering → Str
  | .none => "none".toList
  | .horizontal => "horizontal".toList
  | .vertical => "vertical".toList
  | .both => "both".toList

/-- `TextAlignSource`, src/style/units.rs:1434-1437. -/
inductive TextAlignSource where
  | fix | valueType
  deriving DecidableEq

/-- `Display` for `TextAlignSource`, src/style/units.rs:1439-1446. -/
def TextAlignSource.text : TextAlignSource → Str
  | .fix => "fix".toList
  | .valueType => "value-type".toList

/-- `TextAutoSpace`, src/style/units.rs:1459-1462. -/
inductive TextAutoSpace where
  | ideographAlpha | none
  deriving DecidableEq

/-- `Display` for `TextAutoSpace`, src/style/units.rs:1464-1471. -/
def TextAutoSpace.text : TextAutoSpace → Str
  | .ideographAlpha => "ideograph-alpha".toList
  | .none => "none".toList

/-- `TextCombine`, src/style/units.rs:1488-1492. -/
inductive TextCombine where
  | none | letters | lines
  deriving DecidableEq

/-- `Display` for `TextCombine`, src/style/units.rs:1494-1502. -/
def TextCombine.text : TextCombine → Str
  | .none => "none".toList
  | .letters => "letters".toList
  | .lines => "lines".toList

/-- `TextEmphasize`, src/style/units.rs:1522-1528. -/
inductive TextEmphasize where
  | none | accent | circle | disc | dot
  deriving DecidableEq

/-- `Display` for `TextEmphasize`, src/style/units.rs:1530-1540. -/
def TextEmphasize.text : TextEmphasize → Str
  | .none => "none".toList
  | .accent => "accent".toList
  | .circle => "circle".toList
  | .disc => "disc".toList
  | .dot => "dot".toList

/-- `TextEmphasizePosition`, src/style/units.rs:1560-1563. -/
inductive TextEmphasizePosition where
  | above | below
  deriving DecidableEq

/-- `Display` for `TextEmphasizePosition`, src/style/units.rs:1565-1572. -/
def TextEmphasizePosition.text : TextEmphasizePosition → Str
  | .above => "above".toList
  | .below => "below".toList

/-- `LineMode`, src/style/units.rs:1590-1593. -/
inductive LineMode where
  | continuous | skipWhiteSpace
  deriving DecidableEq

/-- `Display` for `LineMode`, src/style/units.rs:1595-1602. -/
def LineMode.text : LineMode → Str
  | .continuous => "continuous".toList
  | .skipWhiteSpace => "skip-white-space".toList

/-- `LineStyle`, src/style/units.rs:1631-1640. -/
inductive LineStyle where
  | dash | dotDash | dotDotDash | dotted | longDash | none | solid | wave
  deriving DecidableEq

/-- `Display` for `LineStyle`, src/style/units.rs:1642-1655. -/
def LineStyle.text : LineStyle → Str
  | .dash => "dash".toList
  | .dotDash => "dot-dash".toList
  | .dotDotDash => "dot-dot-dash".toList
  | .dotted => "dotted".toList
  | .longDash => "long-dash".toList
  | .none => "none".toList
  | .solid => "solid".toList
  | .wave => "wave".toList

/-- `LineType`, src/style/units.rs:1677-1681. -/
inductive LineType where
  | none | single | double
  deriving DecidableEq

/-- `Display` for `LineType`, src/style/units.rs:1683-1691. -/
def LineType.text : LineType → Str
  | .none => "none".toList
  | .single => "single".toList
  | .double => "double".toList

/-- `RotationScale`, src/style/units.rs:1812-1815. -/
inductive RotationScale where
  | fixed | lineHeight
  deriving DecidableEq

/-- `Display` for `RotationScale`, src/style/units.rs:1817-1824. -/
def RotationScale.text : RotationScale → Str
  | .fixed => "fixed".toList
  | .lineHeight => "line-height".toList

/-- `ParaAlignVertical`, src/style/units.rs:1844-1850. -/
inductive ParaAlignVertical where
  | top | middle | bottom | auto | baseline
  deriving DecidableEq

/-- `Display` for `ParaAlignVertical`, src/style/units.rs:1852-1862. -/
def ParaAlignVertical.text : ParaAlignVertical → Str
  | .top => "top".toList
  | .middle => "middle".toList
  | .bottom => "bottom".toList
  | .auto => "auto".toList
  | .baseline => "baseline".toList

/-- `CellAlignVertical`, src/style/units.rs:1879-1884. -/
inductive CellAlignVertical where
  | top | middle | bottom | automatic
  deriving DecidableEq

/-- `Display` for `CellAlignVertical`, src/style/units.rs:1886-1895. -/
def CellAlignVertical.text : CellAlignVertical → Str
  | .top => "top".toList
  | .middle => "middle".toList
  | .bottom => "bottom".toList
  | .automatic => "automatic".toList

/-- `WritingMode`, src/style/units.rs:1907-1916. -/
inductive WritingMode where
  | lrTb | rlTb | tbRl | tbLr | lr | rl | tb | page
  deriving DecidableEq

/-- `Display` for `WritingMode`, src/style/units.rs:1918-1931. -/
def WritingMode.text : WritingMode → Str
  | .lrTb => "lr-tb".toList
  | .rlTb => "rl-tb".toList
  | .tbRl => "tb-rl".toList
  | .tbLr => "tb-lr".toList
  | .lr => "lr".toList
  | .rl => "rl".toList
  | .tb => "tb".toList
  | .page => "page".toList

/-- `TableAlign`, src/style/units.rs:1946-1951. -/
inductive TableAlign where
  | center | left | right | margins
  deriving DecidableEq

/-- `Display` for `TableAlign`, src/style/units.rs:1953-1962. -/
def TableAlign.text : TableAlign → Str
  | .center => "center".toList
  | .left => "left".toList
  | .right => "right".toList
  | .margins => "margins".toList

/-- `TableBorderModel`, src/style/units.rs:1980-1983. -/
inductive TableBorderModel where
  | collapsing | separating
  deriving DecidableEq

/-- `Display` for `TableBorderModel`, src/style/units.rs:1985-1992. -/
def TableBorderModel.text : TableBorderModel → Str
  | .collapsing => "collapsing".toList
  | .separating => "separating".toList

/-- `TextCondition`, src/style/units.rs:2000-2002. -/
inductive TextCondition where
  | none
  deriving DecidableEq

/-- `Display` for `TextCondition`, src/style/units.rs:2004-2010. -/
def TextCondition.text : TextCondition → Str
  | .none => "none".toList

/-- `TextDisplay`, src/style/units.rs:2023-2027. -/
inductive TextDisplay where
  | none | condition | true
  deriving DecidableEq

/-- `Display` for `TextDisplay`, src/style/units.rs:2029-2037. -/
def TextDisplay.text : TextDisplay → Str
  | .none => "none".toList
  | .condition => "condition".toList
  | .true => "true".toList

end Verif.Enum
