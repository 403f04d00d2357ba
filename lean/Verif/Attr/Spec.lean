import Verif.Attr.Model

/-!
# What the setters of styles are to do

For each setter the attributes it is about and their values; which setters are about the same property; and which
calls are refused.
-/

set_option autoImplicit false

namespace Verif.Attr.Spec

open Xml Codec Book Width Enum Fmt
open Style (Attrs)

/-- Words with single spaces between them. -/
def words : List Str → Str
  | [] => []
  | [w] => w
  | w :: ws => w ++ ' ' :: words ws

/-- Words with a space behind each. -/
def eachSpaced : List Str → Str
  | [] => []
  | w :: ws => w ++ ' ' :: eachSpaced ws

/-- A hexadecimal digit. -/
def digit (n : Nat) : Char := ("0123456789abcdef".toList)[n]?.getD '0'

/-- `#rrggbb`. -/
def color (c : Rgb) : Str :=
  ['#', digit (c.r.toNat / 16), digit (c.r.toNat % 16), digit (c.g.toNat / 16), digit (c.g.toNat % 16),
   digit (c.b.toNat / 16), digit (c.b.toNat % 16)]

/-- The subtags of a locale; the unknown locale has none. -/
def tags (language country script : String) (l : Locale) : List (String × Option Str) :=
  if l = .unknown then [(language, none), (country, none), (script, none)]
  else [(language, some l.language), (country, l.region), (script, l.script)]

/-- What the code does with the flags of `set_font_attr`: nothing is asked for where the flag is not set. -/
def boldIf (k : String) (bold : Bool) : List (String × Option Str) := if bold then [(k, some "bold".toList)] else []
def italicIf (k : String) (italic : Bool) : List (String × Option Str) := if italic then [(k, some "italic".toList)] else []

/-- An IEEE double that is no number: the exponent is all ones and the mantissa is not zero. -/
def NaN (v : F64) : Prop := v.bits.toNat / 2 ^ 52 % 2 ^ 11 = 2 ^ 11 - 1 ∧ v.bits.toNat % 2 ^ 52 ≠ 0

/-- The sign is set and the rest is not zero. -/
def Negative (v : F64) : Prop := 2 ^ 63 < v.bits.toNat

def below : Length → Prop
  | .default => False
  | .cm v | .mm v | .inch v | .pt v | .pc v | .em v => NaN v ∨ Negative v

def belowLP : LengthPercent → Prop
  | .length v => below v
  | .percent _ => False

def belowLH : LineHeight → Prop
  | .normal => False
  | .length v => below v
  | .percent _ => False

/-- Setters with different names that are about the same property. -/
def groups : List (List String) :=
  [["set_font_size", "set_font_attr"], ["set_font_style", "set_font_italic", "set_font_attr"],
   ["set_font_weight", "set_font_bold", "set_font_attr"],
   ["set_font_size_asian", "set_font_attr_asian"], ["set_font_style_asian", "set_font_italic_asian", "set_font_attr_asian"],
   ["set_font_weight_asian", "set_font_bold_asian", "set_font_attr_asian"],
   ["set_font_size_complex", "set_font_attr_complex"],
   ["set_font_style_complex", "set_font_italic_complex", "set_font_attr_complex"],
   ["set_font_weight_complex", "set_font_bold_complex", "set_font_attr_complex"]]

def sameName (a b : String) : Bool := a == b || groups.any fun g => g.contains a && g.contains b

/-- Two calls are about the same property. -/
def Related (c d : Call) : Prop := sameName c.name d.name = true

/-- What a call asks for: the attributes it is about, with their values; `none` means that there is to be no such
attribute. -/
def asks (fl : Floats) : Call → List (String × Option Str)
  | .draw_caption_id id => [("draw:caption-id", some (id))]
  | .draw_name id => [("draw:name", some (id))]
  | .draw_class_names names => [("draw:class-names", some (eachSpaced names))]
  | .draw_corner_radius radius => [("draw:corner-radius", some (decNat radius))]
  | .draw_id id => [("draw:id", some (id))]
  | .draw_layer layer => [("draw:layer", some (layer))]
  | .draw_style_name style => [("draw:style-name", some (style))]
  | .draw_text_style_name style => [("draw:text-style-name", some (style))]
  | .draw_transform transform => [("draw:transform", some (eachSpaced transform))]
  | .draw_z_index z_index => [("draw:z-index", some (decNat z_index))]
  | .draw_caption_point_x x => [("draw:caption-point-x", some (fmtLength fl x))]
  | .draw_caption_point_y y => [("draw:caption-point-y", some (fmtLength fl y))]
  | .draw_copy_of name => [("draw:copy-of", some (name))]
  | .draw_filter_name name => [("draw:filter-name", some (name))]
  | .draw_mime_type name => [("draw:mime-type", some (name))]
  | .background_color color' => [("fo:background-color", some (color color'))]
  | .border width' border' color' => [("fo:border", some (words [fmtLength fl width', border'.text, color color']))]
  | .border_bottom width' border' color' => [("fo:border-bottom", some (words [fmtLength fl width', border'.text, color color']))]
  | .border_left width' border' color' => [("fo:border-left", some (words [fmtLength fl width', border'.text, color color']))]
  | .border_right width' border' color' => [("fo:border-right", some (words [fmtLength fl width', border'.text, color color']))]
  | .border_top width' border' color' => [("fo:border-top", some (words [fmtLength fl width', border'.text, color color']))]
  | .padding padding' => [("fo:padding", some (fmtLength fl padding'))]
  | .padding_bottom padding' => [("fo:padding-bottom", some (fmtLength fl padding'))]
  | .padding_left padding' => [("fo:padding-left", some (fmtLength fl padding'))]
  | .padding_right padding' => [("fo:padding-right", some (fmtLength fl padding'))]
  | .padding_top padding' => [("fo:padding-top", some (fmtLength fl padding'))]
  | .wrap_option wrap => [("fo:wrap-option", some (wrap.text))]
  | .border_line_width inner spacing outer => [("style:border-line-width", some (words [fmtLength fl inner, fmtLength fl spacing, fmtLength fl outer]))]
  | .border_line_width_bottom inner spacing outer => [("style:border-line-width-bottom", some (words [fmtLength fl inner, fmtLength fl spacing, fmtLength fl outer]))]
  | .border_line_width_left inner spacing outer => [("style:border-line-width-left", some (words [fmtLength fl inner, fmtLength fl spacing, fmtLength fl outer]))]
  | .border_line_width_right inner spacing outer => [("style:border-line-width-right", some (words [fmtLength fl inner, fmtLength fl spacing, fmtLength fl outer]))]
  | .border_line_width_top inner spacing outer => [("style:border-line-width-top", some (words [fmtLength fl inner, fmtLength fl spacing, fmtLength fl outer]))]
  | .break_before pagebreak => [("fo:break-before", some (pagebreak.text))]
  | .break_after pagebreak => [("fo:break-after", some (pagebreak.text))]
  | .hyphenation_keep hyphenation => [("fo:hyphenation-keep", some (hyphenation.text))]
  | .hyphenation_ladder_count hyphenation => [("fo:hyphenation-ladder-count", some (hyphenation.text))]
  | .keep_together keep_together' => [("fo:keep-together", some (keep_together'.text))]
  | .keep_with_next keep_with_next' => [("fo:keep-with-next", some (keep_with_next'.text))]
  | .line_height line_height' => [("fo:line-height", some (line_height'.text fl))]
  | .margin margin' => [("fo:margin", some (margin'.text fl))]
  | .margin_bottom margin' => [("fo:margin-bottom", some (margin'.text fl))]
  | .margin_left margin' => [("fo:margin-left", some (margin'.text fl))]
  | .margin_right margin' => [("fo:margin-right", some (margin'.text fl))]
  | .margin_top margin' => [("fo:margin-top", some (margin'.text fl))]
  | .orphans orphans' => [("fo:orphans", some (decNat orphans'))]
  | .text_align align' => [("fo:text-align", some (align'.text))]
  | .text_align_last align' => [("fo:text-align-last", some (align'.text))]
  | .text_indent indent => [("fo:text-indent", some (indent.text fl))]
  | .widows num => [("fo:widows", some (decNat num))]
  | .color color' => [("fo:color", some (color color'))]
  | .locale locale' => tags "fo:language" "fo:country" "fo:script" locale'
  | .font_size size => [("fo:font-size", some (size.text fl))]
  | .font_size_rel size => [("fo:font-size-rel", some (size.text fl))]
  | .font_style style => [("fo:font-style", some (style.text))]
  | .font_italic => [("fo:font-style", some ("italic".toList))]
  | .font_weight weight => [("fo:font-weight", some (weight.text))]
  | .font_bold => [("fo:font-weight", some ("bold".toList))]
  | .font_variant var => [("fo:font-variant", some (var.text))]
  | .font_attr size bold italic => ("fo:font-size", some (size.text fl)) :: (boldIf "fo:font-weight" bold ++ italicIf "fo:font-style" italic)
  | .hyphenate hyphenate' => [("fo:hyphenate", some (fmtBool hyphenate'))]
  | .hyphenation_push_char_count count => [("fo:hyphenation-push-char-count", some (decNat count))]
  | .hyphenation_remain_char_count count => [("fo:hyphenation-remain-char-count", some (decNat count))]
  | .letter_spacing spacing => [("fo:letter-spacing", some (spacing.text fl))]
  | .text_shadow x_offset y_offset blur color' => [("fo:text-shadow", some (words (color color' :: fmtLength fl x_offset :: fmtLength fl y_offset :: (blur.toList.map (fmtLength fl)))))]
  | .text_transform trans => [("fo:text-transform", some (trans.text))]
  | .min_height height' => [("fo:min-height", some (height'.text fl))]
  | .page_height height' => [("fo:page-height", some (fmtLength fl height'))]
  | .page_width width' => [("fo:page-width", some (fmtLength fl width'))]
  | .default_outline_level level => [("style:default-outline-level", some (decNat level))]
  | .master_page masterpage => [("style:master-page-name", some (masterpage))]
  | .next_style name => [("style:next-style-name", some (name))]
  | .cell_protect protect => [("style:cell-protect", some (protect.text))]
  | .decimal_places dec => [("style:decimal-places", some (decNat dec))]
  | .diagonal_bl_tr width' border' color' => [("style:diagonal-bl-tr", some (words [fmtLength fl width', border'.text, color color']))]
  | .diagonal_bl_tr_widths inner spacing outer => [("style:diagonal-bl-tr-widths", some (words [fmtLength fl inner, fmtLength fl spacing, fmtLength fl outer]))]
  | .diagonal_tl_br width' border' color' => [("style:diagonal-tl-br", some (words [fmtLength fl width', border'.text, color color']))]
  | .diagonal_tl_br_widths inner spacing outer => [("style:diagonal-tl-br-widths", some (words [fmtLength fl inner, fmtLength fl spacing, fmtLength fl outer]))]
  | .direction direction' => [("style:direction", some (direction'.text))]
  | .glyph_orientation_vertical glyph_orientation => [("style:glyph-orientation-vertical", some (glyph_orientation.text fl))]
  | .print_content print' => [("style:print-content", some (fmtBool print'))]
  | .repeat_content print' => [("style:repeat-content", some (fmtBool print'))]
  | .rotation_align align' => [("style:rotation-align", some (align'.text))]
  | .rotation_scale scale => [("style:text-rotation-scale", some (scale.text))]
  | .rotation_angle angle => [("style:rotation-angle", some (angle.text fl))]
  | .shadow x_offset y_offset blur color' => [("style:shadow", some (words (color color' :: fmtLength fl x_offset :: fmtLength fl y_offset :: (blur.toList.map (fmtLength fl)))))]
  | .shrink_to_fit shrink => [("style:shrink-to-fit", some (fmtBool shrink))]
  | .text_align_source align' => [("style:text-align-source", some (align'.text))]
  | .vertical_align align' => [("style:vertical-align", some (align'.text))]
  | .auto_text_indent indent => [("style:auto-text-indent", some (fmtBool indent))]
  | .background_transpareny percent => [("style:background-transparency", some (percent.text fl))]
  | .contextual_spacing spacing => [("style:contextual-spacing", some (fmtBool spacing))]
  | .font_independent_line_spacing spacing => [("style:font-independent-line-spacing", some (fmtBool spacing))]
  | .join_border join => [("style:join-border", some (fmtBool join))]
  | .justify_single_word justify => [("style:justify-single-word", some (fmtBool justify))]
  | .line_break linebreak => [("style:line-break", some (linebreak.text))]
  | .line_height_at_least height' => [("style:line-height-at-least", some (fmtLength fl height'))]
  | .line_spacing spacing => [("style:line-spacing", some (fmtLength fl spacing))]
  | .page_number page_number' => [("style:page-number", some (page_number'.text))]
  | .punctuation_wrap wrap => [("style:punctuation-wrap", some (wrap.text))]
  | .register_true register => [("style:register-true", some (fmtBool register))]
  | .snap_to_layout_grid snap => [("style:snap-to-layout-grid", some (fmtBool snap))]
  | .tab_stop_distance tab => [("style:tab-stop-distance", some (fmtLength fl tab))]
  | .text_autospace space => [("style:text-autospace", some (space.text))]
  | .vertical_align_para align' => [("style:vertical-align", some (align'.text))]
  | .writing_mode writing_mode' => [("style:writing-mode", some (writing_mode'.text))]
  | .writing_mode_automatic auto => [("style:writing-mode-automatic", some (fmtBool auto))]
  | .line_number line => [("text:line-number", some (decNat line))]
  | .number_lines lines => [("text:number-lines", some (fmtBool lines))]
  | .font_name name => [("style:font-name", some (name))]
  | .locale_asian locale' => tags "style:language-asian" "style:country-asian" "style:script-asian" locale'
  | .font_name_asian name => [("style:font-name-asian", some (name))]
  | .font_size_asian size => [("style:font-size-asian", some (size.text fl))]
  | .font_size_rel_asian size => [("style:font-size-rel-asian", some (size.text fl))]
  | .font_style_asian style => [("style:font-style-asian", some (style.text))]
  | .font_italic_asian => [("style:font-style-asian", some ("italic".toList))]
  | .font_weight_asian weight => [("style:font-weight-asian", some (weight.text))]
  | .font_bold_asian => [("style:font-weight-asian", some ("bold".toList))]
  | .font_attr_asian size bold italic => ("style:font-size-asian", some (size.text fl)) :: (boldIf "style:font-weight-asian" bold ++ italicIf "style:font-style-asian" italic)
  | .locale_complex locale' => tags "style:language-complex" "style:country-complex" "style:script-complex" locale'
  | .font_name_complex name => [("style:font-name-complex", some (name))]
  | .font_size_complex size => [("style:font-size-complex", some (size.text fl))]
  | .font_size_rel_complex size => [("style:font-size-rel-complex", some (size.text fl))]
  | .font_style_complex style => [("style:font-style-complex", some (style.text))]
  | .font_italic_complex => [("style:font-style-complex", some ("italic".toList))]
  | .font_weight_complex weight => [("style:font-weight-complex", some (weight.text))]
  | .font_bold_complex => [("style:font-weight-complex", some ("bold".toList))]
  | .font_attr_complex size bold italic => ("style:font-size-complex", some (size.text fl)) :: (boldIf "style:font-weight-complex" bold ++ italicIf "style:font-style-complex" italic)
  | .font_relief relief => [("style:font-relief", some (relief.text))]
  | .text_position pos scale => [("style:text-position", some (words (pos.text fl :: scale.toList.map (Percent.text fl))))]
  | .letter_kerning kerning => [("style:letter-kerning", some (fmtBool kerning))]
  | .text_combine pos => [("style:text-combine", some (pos.text))]
  | .text_combine_start_char c => [("style:text-combine-start-char", some ([c]))]
  | .text_combine_end_char c => [("style:text-combine-end-char", some ([c]))]
  | .text_emphasize emphasize position' => [("style:text-emphasize", some (words [emphasize.text, position'.text]))]
  | .text_line_through_color color' => [("style:text-line-through-color", some (color color'))]
  | .text_line_through_mode lmode => [("style:text-line-through-mode", some (lmode.text))]
  | .text_line_through_style lstyle => [("style:text-line-through-style", some (lstyle.text))]
  | .text_line_through_text text => [("style:text-line-through-text", some (text))]
  | .text_line_through_text_style style_ref => [("style:text-line-through-text-style", some (style_ref))]
  | .text_line_through_type ltype => [("style:text-line-through-type", some (ltype.text))]
  | .text_line_through_width lwidth => [("style:text-line-through-width", some (lwidth.text fl))]
  | .font_text_outline outline => [("style:text-outline", some (fmtBool outline))]
  | .text_overline_color color' => [("style:text-overline-color", some (color color'))]
  | .text_overline_mode lmode => [("style:text-overline-mode", some (lmode.text))]
  | .text_overline_style lstyle => [("style:text-overline-style", some (lstyle.text))]
  | .text_overline_type ltype => [("style:text-overline-type", some (ltype.text))]
  | .text_overline_width lwidth => [("style:text-overline-width", some (lwidth.text fl))]
  | .text_underline_color color' => [("style:text-underline-color", some (color color'))]
  | .text_underline_mode lmode => [("style:text-underline-mode", some (lmode.text))]
  | .text_underline_style lstyle => [("style:text-underline-style", some (lstyle.text))]
  | .text_underline_type ltype => [("style:text-underline-type", some (ltype.text))]
  | .text_underline_width lwidth => [("style:text-underline-width", some (lwidth.text fl))]
  | .use_window_font_color window_color => [("style:use-window-font-color", some (fmtBool window_color))]
  | .dynamic_spacing dynamic => [("style:dynamic-spacing", some (fmtBool dynamic))]
  | .col_width width' => [("style:column-width", if width' = .default then none else some (fmtLength fl width'))]
  | .rel_col_width rel => [("style:rel-column-width", some (fl.fmt rel ++ ['*']))]
  | .use_optimal_col_width opt => [("style:use-optimal-column-width", some (fmtBool opt))]
  | .font_family_generic font => [("style:font-family-generic", some (font.text))]
  | .font_pitch pitch => [("style:font-pitch", some (pitch.text))]
  | .first_page_number number => [("style:first-page-number", some (decNat number))]
  | .footnote_max_height height' => [("style:footnote-max-height", some (fmtLength fl height'))]
  | .num_format format => [("style:num-format", some (format.fmt))]
  | .num_letter_sync sync => [("style:num-letter-sync", some (fmtBool sync))]
  | .num_prefix text => [("style:num-prefix", some (text))]
  | .num_suffix text => [("style:num-suffix", some (text))]
  | .paper_tray_name tray => [("style:paper-tray-name", some (tray))]
  | .print print' => [("style:print", some (eachSpaced (print'.map PrintContent.text)))]
  | .print_orientation orientation => [("style:print-orientation", some (orientation.text))]
  | .print_page_order order => [("style:print-page-order", some (order.text))]
  | .scale_to percent => [("style:scale-to", some (percent.text fl))]
  | .scale_to_pages pages => [("style:scale-to-pages", some (decNat pages))]
  | .table_centering center => [("style:table-centering", some (center.text))]
  | .min_row_height min_height' => [("style:min-row-height", some (fmtLength fl min_height'))]
  | .row_height height' => [("style:row-height", some (fmtLength fl height'))]
  | .use_optimal_row_height opt => [("style:use-optimal-row-height", some (fmtBool opt))]
  | .may_break_between_rows br => [("style:may-break-between-rows", some (fmtBool br))]
  | .rel_width rel_width' => [("style:rel-width", some (rel_width'.text fl))]
  | .rel_height rel_height' => [("style:rel-height", some (rel_height'.text fl))]
  | .width width' => [("style:width", some (fmtLength fl width'))]
  | .char c => [("style:char", some ([c]))]
  | .leader_color color' => [("style:leader-color", some (color color'))]
  | .leader_style style => [("style:leader-style", some (style.text))]
  | .leader_text text => [("style:leader-text", some ([text]))]
  | .leader_text_style styleref => [("style:leader-text-style", some (styleref))]
  | .leader_type t => [("style:leader-type", some (t.text))]
  | .leader_width w => [("style:leader-width", some (w.text fl))]
  | .position pos => [("style:position", some (fmtLength fl pos))]
  | .type t => [("style:type", some (t.text))]
  | .volatile volatile' => [("style:volatile", some (fmtBool volatile'))]
  | .display_name name => [("style:display-name", some (name))]
  | .auto_update auto => [("style:auto-update", some (fmtBool auto))]
  | .«class» text => [("style:class", some (text))]
  | .parent_style name => [("style:parent-style-name", some (name))]
  | .font_family name => [("svg:font-family", some (name))]
  | .font_stretch stretch => [("svg:font-stretch", some (stretch.text))]
  | .svg_font_style style => [("svg:font-style", some (style.text))]
  | .svg_font_variant variant => [("svg:font-variant", some (variant.text))]
  | .svg_font_weight weight => [("svg:font-weight", some (weight.text))]
  | .height height' => [("svg:height", some (fmtLength fl height'))]
  | .svg_width width' => [("svg:width", some (fmtLength fl width'))]
  | .svg_x x => [("svg:x", some (fmtLength fl x))]
  | .svg_y y => [("svg:y", some (fmtLength fl y))]
  | .align align' => [("table:align", some (align'.text))]
  | .border_model border' => [("table:border-model", some (border'.text))]
  | .display display' => [("table:display", some (fmtBool display'))]
  | .tab_color color' => [("table:tab-color", some (color color'))]
  | .table_end_cell_address cellref => [("table:end-cell-address", some (Refs.fmtCellRef cellref))]
  | .table_end_x x => [("table:end-x", some (fmtLength fl x))]
  | .table_end_y y => [("table:end-y", some (fmtLength fl y))]
  | .table_table_background is_bg => [("table:table-background", some (fmtBool is_bg))]
  | .text_condition cond => [("text:condition", some (cond.text))]
  | .text_display cond => [("text:display", some (cond.text))]
  | .xlink_actuate actuate => [("xlink:actuate", some (actuate.text))]
  | .xlink_href href => [("xlink:href", some (href))]
  | .xlink_show v => [("xlink:show", some (v.text))]
  | .xlink_type ty => [("xlink:type", some (ty.text))]
  | .xml_id id => [("xml_id", some (id))]

/-- The calls that are refused: a size, margin or padding below zero, or no number at all. -/
def refused : Call → Prop
  | .padding v => below v
  | .padding_bottom v => below v
  | .padding_left v => below v
  | .padding_right v => below v
  | .padding_top v => below v
  | .line_height v => belowLH v
  | .margin v => belowLP v
  | .margin_bottom v => belowLP v
  | .margin_left v => belowLP v
  | .margin_right v => belowLP v
  | .margin_top v => belowLP v
  | .font_size v => belowLP v
  | .font_attr v _ _ => belowLP v
  | .line_height_at_least v => below v
  | .tab_stop_distance v => below v
  | .font_size_asian v => belowLP v
  | .font_attr_asian v _ _ => belowLP v
  | .font_size_complex v => belowLP v
  | .font_attr_complex v _ _ => belowLP v
  | .min_row_height v => below v
  | _ => False

end Verif.Attr.Spec
