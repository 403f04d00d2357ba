import Verif.Attr.Odf

/-!
# The values that ODF has

For each attribute the form of its values in the schema of OpenDocument 1.3, and the calls whose arguments have such a
form at all.  Written down from the standard, not from the code.  Not looked at: whether names are free of colons and
blanks, whether a number or a size may be zero, and percentages above a hundred.
-/

set_option autoImplicit false

namespace Verif.Attr.Odf

open Xml Codec Book Width Enum Fmt

/-- Forms of values. -/
inductive Form where
  | any
  | char
  | nat
  | bool
  | color
  | /-- A number and a unit. -/
    length
  | /-- The same, without a sign. -/
    size
  | percent
  | angle
  | /-- Digits and a star. -/
    relative
  | oneOf (l : List String)
  | /-- Some of the words, each followed by a blank or with blanks between them. -/
    list (l : List String)
  | alt (a b : Form)
  | /-- One behind the other with a blank between them. -/
    two (a b : Form)
  deriving DecidableEq

def Digits (s : Str) : Prop := s ≠ [] ∧ ∀ c ∈ s, '0' ≤ c ∧ c ≤ '9'

/-- `12` or `12.5`. -/
def Unsigned (s : Str) : Prop := Digits s ∨ ∃ i f, s = i ++ '.' :: f ∧ Digits i ∧ Digits f

/-- A number with or without a minus. -/
def Signed (s : Str) : Prop := Unsigned s ∨ ∃ t, s = '-' :: t ∧ Unsigned t

def HexDigit (c : Char) : Prop := ('0' ≤ c ∧ c ≤ '9') ∨ ('a' ≤ c ∧ c ≤ 'f') ∨ ('A' ≤ c ∧ c ≤ 'F')

def units : List String := ["cm", "mm", "in", "pt", "pc", "px"]

/-- Words from a list with single blanks between them or behind them. -/
inductive Listed (l : List String) : Str → Prop where
  | none : Listed l []
  | last (w : String) (h : w ∈ l) : Listed l w.toList
  | more (w : String) (h : w ∈ l) (s : Str) (hs : Listed l s) : Listed l (w.toList ++ ' ' :: s)

/-- The texts of a form. -/
def Form.accepts : Form → Str → Prop
  | .any, _ => True
  | .char, s => ∃ c, s = [c]
  | .nat, s => Digits s
  | .bool, s => s = "true".toList ∨ s = "false".toList
  | .color, s => ∃ a b c d e f, s = ['#', a, b, c, d, e, f] ∧ ∀ x ∈ [a, b, c, d, e, f], HexDigit x
  | .length, s => ∃ n u, s = n ++ u.toList ∧ Signed n ∧ u ∈ units
  | .size, s => ∃ n u, s = n ++ u.toList ∧ Unsigned n ∧ u ∈ units
  | .percent, s => ∃ n, s = n ++ ['%'] ∧ Signed n
  | .angle, s => Signed s ∨ ∃ n u, s = n ++ u.toList ∧ Signed n ∧ u ∈ ["deg", "grad", "rad"]
  | .relative, s => ∃ n, s = n ++ ['*'] ∧ Digits n
  | .oneOf l, s => ∃ w ∈ l, s = w.toList
  | .list l, s => Listed l s
  | .alt a b, s => a.accepts s ∨ b.accepts s
  | .two a b, s => ∃ x y, s = x ++ ' ' :: y ∧ a.accepts x ∧ b.accepts y

def borderStyles : Form :=
  .oneOf ["none", "hidden", "dotted", "dashed", "solid", "double", "groove", "ridge", "inset", "outset"]
def fontStyles : Form := .oneOf ["normal", "italic", "oblique"]
def fontWeights : Form :=
  .oneOf ["normal", "bold", "100", "200", "300", "400", "500", "600", "700", "800", "900"]
def lineStyles : Form :=
  .oneOf ["none", "solid", "dotted", "dash", "long-dash", "dot-dash", "dot-dot-dash", "wave"]
def lineWidths : Form :=
  .alt (.oneOf ["auto", "normal", "bold", "thin", "medium", "thick"]) (.alt .nat (.alt .percent .size))
def position : Form := .alt (.oneOf ["super", "sub"]) .percent

/-- The attributes and the forms of their values, sorted by name. -/
def forms : List (String × Form) :=
  [("draw:caption-id", .any), ("draw:caption-point-x", .length), ("draw:caption-point-y", .length),
   ("draw:class-names", .any), ("draw:copy-of", .any), ("draw:corner-radius", .size), ("draw:filter-name", .any),
   ("draw:id", .any), ("draw:layer", .any), ("draw:mime-type", .any), ("draw:name", .any), ("draw:style-name", .any),
   ("draw:text-style-name", .any), ("draw:transform", .any), ("draw:z-index", .nat),
   ("fo:background-color", .alt (.oneOf ["transparent"]) .color),
   ("fo:border", .two .size (.two borderStyles .color)), ("fo:border-bottom", .two .size (.two borderStyles .color)),
   ("fo:border-left", .two .size (.two borderStyles .color)),
   ("fo:border-right", .two .size (.two borderStyles .color)),
   ("fo:border-top", .two .size (.two borderStyles .color)), ("fo:break-after", .oneOf ["auto", "column", "page"]),
   ("fo:break-before", .oneOf ["auto", "column", "page"]), ("fo:color", .color), ("fo:country", .any),
   ("fo:font-size", .alt .size .percent), ("fo:font-style", fontStyles),
   ("fo:font-variant", .oneOf ["normal", "small-caps"]), ("fo:font-weight", fontWeights), ("fo:hyphenate", .bool),
   ("fo:hyphenation-keep", .oneOf ["auto", "page"]),
   ("fo:hyphenation-ladder-count", .alt (.oneOf ["no-limit"]) .nat), ("fo:hyphenation-push-char-count", .nat),
   ("fo:hyphenation-remain-char-count", .nat), ("fo:keep-together", .oneOf ["auto", "always"]),
   ("fo:keep-with-next", .oneOf ["auto", "always"]), ("fo:language", .any),
   ("fo:letter-spacing", .alt (.oneOf ["normal"]) .length),
   ("fo:line-height", .alt (.oneOf ["normal"]) (.alt .size .percent)), ("fo:margin", .alt .size .percent),
   ("fo:margin-bottom", .alt .size .percent), ("fo:margin-left", .alt .length .percent),
   ("fo:margin-right", .alt .length .percent), ("fo:margin-top", .alt .size .percent),
   ("fo:min-height", .alt .length .percent), ("fo:orphans", .nat), ("fo:padding", .size),
   ("fo:padding-bottom", .size), ("fo:padding-left", .size), ("fo:padding-right", .size), ("fo:padding-top", .size),
   ("fo:page-height", .length), ("fo:page-width", .length), ("fo:script", .any),
   ("fo:text-align", .oneOf ["start", "end", "left", "right", "center", "justify"]),
   ("fo:text-align-last", .oneOf ["start", "center", "justify"]), ("fo:text-indent", .alt .length .percent),
   ("fo:text-shadow", .two .color (.two .length (.alt .length (.two .length .size)))),
   ("fo:text-transform", .oneOf ["none", "lowercase", "uppercase", "capitalize"]), ("fo:widows", .nat),
   ("fo:wrap-option", .oneOf ["wrap", "no-wrap"]), ("style:auto-text-indent", .bool), ("style:auto-update", .bool),
   ("style:background-transparency", .percent), ("style:border-line-width", .two .size (.two .size .size)),
   ("style:border-line-width-bottom", .two .size (.two .size .size)),
   ("style:border-line-width-left", .two .size (.two .size .size)),
   ("style:border-line-width-right", .two .size (.two .size .size)),
   ("style:border-line-width-top", .two .size (.two .size .size)),
   ("style:cell-protect", .alt (.oneOf ["none", "hidden-and-protected"]) (.list ["protected", "formula-hidden"])),
   ("style:char", .char), ("style:class", .any), ("style:column-width", .size), ("style:contextual-spacing", .bool),
   ("style:country-asian", .any), ("style:country-complex", .any), ("style:decimal-places", .nat),
   ("style:default-outline-level", .nat), ("style:diagonal-bl-tr", .two .size (.two borderStyles .color)),
   ("style:diagonal-bl-tr-widths", .two .size (.two .size .size)),
   ("style:diagonal-tl-br", .two .size (.two borderStyles .color)),
   ("style:diagonal-tl-br-widths", .two .size (.two .size .size)), ("style:direction", .oneOf ["ltr", "ttb"]),
   ("style:display-name", .any), ("style:dynamic-spacing", .bool),
   ("style:first-page-number", .alt (.oneOf ["continue"]) .nat),
   ("style:font-family-generic", .oneOf ["roman", "swiss", "modern", "decorative", "script", "system"]),
   ("style:font-independent-line-spacing", .bool), ("style:font-name", .any), ("style:font-name-asian", .any),
   ("style:font-name-complex", .any), ("style:font-pitch", .oneOf ["fixed", "variable"]),
   ("style:font-relief", .oneOf ["none", "embossed", "engraved"]), ("style:font-size-asian", .alt .size .percent),
   ("style:font-size-complex", .alt .size .percent), ("style:font-size-rel", .length),
   ("style:font-size-rel-asian", .length), ("style:font-size-rel-complex", .length),
   ("style:font-style-asian", fontStyles), ("style:font-style-complex", fontStyles),
   ("style:font-weight-asian", fontWeights), ("style:font-weight-complex", fontWeights),
   ("style:footnote-max-height", .length),
   ("style:glyph-orientation-vertical", .oneOf ["auto", "0", "0deg", "0rad", "0grad"]), ("style:join-border", .bool),
   ("style:justify-single-word", .bool), ("style:language-asian", .any), ("style:language-complex", .any),
   ("style:leader-color", .alt (.oneOf ["font-color"]) .color), ("style:leader-style", lineStyles),
   ("style:leader-text", .char), ("style:leader-text-style", .any),
   ("style:leader-type", .oneOf ["none", "single", "double"]), ("style:leader-width", lineWidths),
   ("style:letter-kerning", .bool), ("style:line-break", .oneOf ["normal", "strict"]),
   ("style:line-height-at-least", .size), ("style:line-spacing", .length), ("style:master-page-name", .any),
   ("style:may-break-between-rows", .bool), ("style:min-row-height", .size), ("style:next-style-name", .any),
   ("style:num-format", .any), ("style:num-letter-sync", .bool), ("style:num-prefix", .any),
   ("style:num-suffix", .any), ("style:page-number", .alt (.oneOf ["auto"]) .nat), ("style:paper-tray-name", .any),
   ("style:parent-style-name", .any), ("style:position", .length),
   ("style:print", .list ["headers", "grid", "annotations", "objects", "charts", "drawings", "formulas", "zero-values"]),
   ("style:print-content", .bool), ("style:print-orientation", .oneOf ["landscape", "portrait"]),
   ("style:print-page-order", .oneOf ["ltr", "ttb"]), ("style:punctuation-wrap", .oneOf ["simple", "hanging"]),
   ("style:register-true", .bool), ("style:rel-column-width", .relative),
   ("style:rel-height", .alt (.oneOf ["scale", "scale-min"]) .percent), ("style:repeat-content", .bool),
   ("style:rotation-align", .oneOf ["none", "bottom", "top", "center"]), ("style:rotation-angle", .angle),
   ("style:row-height", .size), ("style:scale-to", .percent), ("style:scale-to-pages", .nat),
   ("style:script-asian", .any), ("style:script-complex", .any),
   ("style:shadow", .two .color (.two .length (.alt .length (.two .length .size)))), ("style:shrink-to-fit", .bool),
   ("style:snap-to-layout-grid", .bool), ("style:tab-stop-distance", .size),
   ("style:table-centering", .oneOf ["none", "horizontal", "vertical", "both"]),
   ("style:text-align-source", .oneOf ["fix", "value-type"]),
   ("style:text-autospace", .oneOf ["none", "ideograph-alpha"]),
   ("style:text-combine", .oneOf ["none", "letters", "lines"]), ("style:text-combine-end-char", .char),
   ("style:text-combine-start-char", .char),
   ("style:text-emphasize", .alt (.oneOf ["none"]) (.two (.oneOf ["none", "accent", "dot", "circle", "disc"]) (.oneOf ["above", "below"]))),
   ("style:text-line-through-color", .alt (.oneOf ["font-color"]) .color),
   ("style:text-line-through-mode", .oneOf ["continuous", "skip-white-space"]),
   ("style:text-line-through-style", lineStyles), ("style:text-line-through-text", .any),
   ("style:text-line-through-text-style", .any),
   ("style:text-line-through-type", .oneOf ["none", "single", "double"]),
   ("style:text-line-through-width", lineWidths), ("style:text-outline", .bool),
   ("style:text-overline-color", .alt (.oneOf ["font-color"]) .color),
   ("style:text-overline-mode", .oneOf ["continuous", "skip-white-space"]),
   ("style:text-overline-style", lineStyles), ("style:text-overline-type", .oneOf ["none", "single", "double"]),
   ("style:text-overline-width", lineWidths), ("style:text-position", .alt position (.two position .percent)),
   ("style:text-rotation-scale", .oneOf ["fixed", "line-height"]),
   ("style:text-underline-color", .alt (.oneOf ["font-color"]) .color),
   ("style:text-underline-mode", .oneOf ["continuous", "skip-white-space"]),
   ("style:text-underline-style", lineStyles), ("style:text-underline-type", .oneOf ["none", "single", "double"]),
   ("style:text-underline-width", lineWidths), ("style:type", .oneOf ["left", "center", "right", "char"]),
   ("style:use-optimal-column-width", .bool), ("style:use-optimal-row-height", .bool),
   ("style:use-window-font-color", .bool), ("style:volatile", .bool), ("style:width", .size),
   ("style:writing-mode", .oneOf ["lr-tb", "rl-tb", "tb-rl", "tb-lr", "lr", "rl", "tb", "page"]),
   ("style:writing-mode-automatic", .bool), ("svg:font-family", .any),
   ("svg:font-stretch", .oneOf ["normal", "ultra-condensed", "extra-condensed", "condensed", "semi-condensed", "semi-expanded", "expanded", "extra-expanded", "ultra-expanded"]),
   ("svg:font-style", fontStyles), ("svg:font-variant", .oneOf ["normal", "small-caps"]),
   ("svg:font-weight", fontWeights), ("svg:height", .length), ("svg:width", .length), ("svg:x", .length),
   ("svg:y", .length), ("table:align", .oneOf ["left", "center", "right", "margins"]),
   ("table:border-model", .oneOf ["collapsing", "separating"]), ("table:display", .bool),
   ("table:end-cell-address", .any), ("table:end-x", .length), ("table:end-y", .length), ("table:tab-color", .color),
   ("table:table-background", .bool), ("text:condition", .oneOf ["none"]),
   ("text:display", .oneOf ["true", "none", "condition"]), ("text:line-number", .nat), ("text:number-lines", .bool),
   ("xlink:actuate", .oneOf ["onLoad"]), ("xlink:href", .any), ("xlink:show", .oneOf ["embed"]),
   ("xlink:type", .oneOf ["simple"])]

/-- The attributes whose values depend on the element. -/
def special : List (Kind × Part × String × Form) :=
  [(.cell, .own, "style:vertical-align", .oneOf ["top", "middle", "bottom", "automatic"]),
   (.cell, .paragraph, "style:vertical-align", .oneOf ["top", "middle", "bottom", "auto", "baseline"]),
   (.paragraph, .paragraph, "style:vertical-align", .oneOf ["top", "middle", "bottom", "auto", "baseline"]),
   (.graphic, .paragraph, "style:vertical-align", .oneOf ["top", "middle", "bottom", "auto", "baseline"]),
   (.table, .own, "style:rel-width", .percent),
   (.frame, .attr, "style:rel-width", .alt (.oneOf ["scale", "scale-min"]) .percent)]

/-- The attribute has this form there. -/
def HasForm (k : Kind) (p : Part) (a : String) (f : Form) : Prop := (a, f) ∈ forms ∨ (k, p, a, f) ∈ special

/-! ## Arguments -/

/-- Neither infinite nor no number: the exponent is not all ones. -/
def Finite (v : F64) : Prop := v.bits.toNat / 2 ^ 52 % 2 ^ 11 ≠ 2 ^ 11 - 1

/-- The sign bit is not set. -/
def NoSign (v : F64) : Prop := v.bits.toNat < 2 ^ 63

/-- How Rust prints doubles that are finite: digits, perhaps a point and digits, and a minus if the sign bit is set. -/
def Prints (fl : Floats) : Prop :=
  ∀ v, Finite v → ∃ m, Unsigned m ∧ (NoSign v → fl.fmt v = m) ∧ (¬ NoSign v → fl.fmt v = '-' :: m)

/-- A finite length in a unit that the standard has. -/
def Len : Length → Prop
  | .default | .em _ => False
  | .cm v | .mm v | .inch v | .pt v | .pc v => Finite v

/-- The same, without a sign. -/
def Size : Length → Prop
  | .default | .em _ => False
  | .cm v | .mm v | .inch v | .pt v | .pc v => Finite v ∧ NoSign v

def Pct : Percent → Prop
  | .percent v => Finite v

def LenPct : LengthPercent → Prop
  | .length v => Len v
  | .percent v => Pct v

def SizePct : LengthPercent → Prop
  | .length v => Size v
  | .percent v => Pct v

/-- The calls whose arguments mean something in the standard. -/
def Regular (fl : Floats) (k : Kind) : Call → Prop
  | .draw_corner_radius _ => False
  | .draw_caption_point_x x0 => Len x0
  | .draw_caption_point_y x0 => Len x0
  | .border x0 _ _ => Size x0
  | .border_bottom x0 _ _ => Size x0
  | .border_left x0 _ _ => Size x0
  | .border_right x0 _ _ => Size x0
  | .border_top x0 _ _ => Size x0
  | .padding x0 => Size x0
  | .padding_bottom x0 => Size x0
  | .padding_left x0 => Size x0
  | .padding_right x0 => Size x0
  | .padding_top x0 => Size x0
  | .border_line_width x0 x1 x2 => Size x0 ∧ Size x1 ∧ Size x2
  | .border_line_width_bottom x0 x1 x2 => Size x0 ∧ Size x1 ∧ Size x2
  | .border_line_width_left x0 x1 x2 => Size x0 ∧ Size x1 ∧ Size x2
  | .border_line_width_right x0 x1 x2 => Size x0 ∧ Size x1 ∧ Size x2
  | .border_line_width_top x0 x1 x2 => Size x0 ∧ Size x1 ∧ Size x2
  | .hyphenation_ladder_count x0 => x0 ≠ .noLimit
  | .line_height x0 => (match x0 with | .normal => True | .length v => Size v | .percent v => Pct v)
  | .margin x0 => SizePct x0
  | .margin_bottom x0 => SizePct x0
  | .margin_left x0 => LenPct x0
  | .margin_right x0 => LenPct x0
  | .margin_top x0 => SizePct x0
  | .text_align x0 => x0 ≠ .inside ∧ x0 ≠ .outside
  | .text_indent x0 => LenPct x0
  | .font_size x0 => SizePct x0
  | .font_size_rel _ => False
  | .font_attr x0 _ _ => SizePct x0
  | .letter_spacing x0 => (match x0 with | .normal => True | .length v => Len v)
  | .text_shadow x0 x1 x2 _ => Len x0 ∧ Len x1 ∧ ∀ b, x2 = some b → Size b
  | .min_height x0 => LenPct x0
  | .page_height x0 => Len x0
  | .page_width x0 => Len x0
  | .diagonal_bl_tr x0 _ _ => Size x0
  | .diagonal_bl_tr_widths x0 x1 x2 => Size x0 ∧ Size x1 ∧ Size x2
  | .diagonal_tl_br x0 _ _ => Size x0
  | .diagonal_tl_br_widths x0 x1 x2 => Size x0 ∧ Size x1 ∧ Size x2
  | .glyph_orientation_vertical x0 => (match x0 with | .angle _ => False | _ => True)
  | .rotation_angle x0 => (match x0 with | .deg v | .grad v | .rad v => Finite v)
  | .shadow x0 x1 x2 _ => Len x0 ∧ Len x1 ∧ ∀ b, x2 = some b → Size b
  | .background_transpareny x0 => Pct x0
  | .line_height_at_least x0 => Size x0
  | .line_spacing x0 => Len x0
  | .tab_stop_distance x0 => Size x0
  | .font_size_asian x0 => SizePct x0
  | .font_size_rel_asian x0 => (match x0 with | .length v => Len v | .percent _ => False)
  | .font_attr_asian x0 _ _ => SizePct x0
  | .font_size_complex x0 => SizePct x0
  | .font_size_rel_complex x0 => (match x0 with | .length v => Len v | .percent _ => False)
  | .font_attr_complex x0 _ _ => SizePct x0
  | .text_position x0 x1 => (match x0 with | .percent v => Pct v | _ => True) ∧ ∀ s, x1 = some s → Pct s
  | .text_line_through_width x0 => (match x0 with | .dash => False | .percent v => Pct v | .length v => Size v | _ => True)
  | .text_overline_width x0 => (match x0 with | .dash => False | .percent v => Pct v | .length v => Size v | _ => True)
  | .text_underline_width x0 => (match x0 with | .dash => False | .percent v => Pct v | .length v => Size v | _ => True)
  | .col_width x0 => x0 = .default ∨ Size x0
  | .rel_col_width x0 => Digits (fl.fmt x0)
  | .footnote_max_height x0 => Len x0
  | .scale_to x0 => Pct x0
  | .min_row_height x0 => Size x0
  | .row_height x0 => Size x0
  | .rel_width x0 => (match x0 with | .percent v => Pct v | _ => k = .frame)
  | .rel_height x0 => (match x0 with | .percent v => Pct v | _ => True)
  | .width x0 => Size x0
  | .leader_width x0 => (match x0 with | .dash => False | .percent v => Pct v | .length v => Size v | _ => True)
  | .position x0 => Len x0
  | .height x0 => Len x0
  | .svg_width x0 => Len x0
  | .svg_x x0 => Len x0
  | .svg_y x0 => Len x0
  | .table_end_x x0 => Len x0
  | .table_end_y x0 => Len x0
  | .xlink_actuate _ => False
  | .xlink_show _ => False
  | .xlink_type x0 => x0 = .simple
  | .xml_id _ => False
  | _ => True

end Verif.Attr.Odf
