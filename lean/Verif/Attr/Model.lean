import Verif.Enum.Params
import Verif.Fmt.Build
import Verif.Refs.Format
import Verif.Book.AttrProps

/-!
# The setters of styles and frames (src/macro_attr_*.rs, src/style/*.rs, src/draw.rs)

A setter is defined by a macro; a style uses the macro for one of its attribute maps. The attribute maps are lists
of pairs, which C44 shows to be what `AttrMap2` is. `u32` and `u8` are natural numbers, references to styles are
their names. The setters of formats (src/macro_attr_number.rs) are in `Fmt/Build.lean`.
-/

set_option autoImplicit false

namespace Verif.Attr

open Xml Codec Book Width Enum Fmt
open Style (Attrs)
open Book.AttrMap (Op specRun)

/-! ## Texts of values -/

/-- `Rgb<u8>` of the crate `color`/`rgb`: three bytes. -/
structure Rgb where
  r : BitVec 8
  g : BitVec 8
  b : BitVec 8
  deriving DecidableEq

/-- One digit of `{:x}`. -/
def hexDigit (n : Nat) : Char := if n < 10 then Char.ofNat (48 + n) else Char.ofNat (87 + n)

/-- `{:02x}` of a byte. -/
def hex2 (v : BitVec 8) : Str := [hexDigit (v.toNat / 16), hexDigit (v.toNat % 16)]

/-- `color_string`, src/style/mod.rs:204-206. -/
def colorString (c : Rgb) : Str := '#' :: (hex2 c.r ++ hex2 c.g ++ hex2 c.b)

/-- `shadow_string`, src/style/mod.rs:208-219. -/
def shadowString (fl : Floats) (x y : Length) (blur : Option Length) (c : Rgb) : Str :=
  match blur with
  | some blur => colorString c ++ ' ' :: (fmtLength fl x ++ ' ' :: (fmtLength fl y ++ ' ' :: fmtLength fl blur))
  | none => colorString c ++ ' ' :: (fmtLength fl x ++ ' ' :: fmtLength fl y)

/-- `rel_width_string`, src/style/mod.rs:221-223. -/
def relWidthString (fl : Floats) (v : F64) : Str := fl.fmt v ++ ['*']

/-- `border_string`, src/style/mod.rs:225-230. -/
def borderString (fl : Floats) (width : Length) (border : Border) (c : Rgb) : Str :=
  fmtLength fl width ++ ' ' :: (border.text ++ ' ' :: '#' :: (hex2 c.r ++ hex2 c.g ++ hex2 c.b))

/-- `border_line_width_string`, src/style/mod.rs:232-234. -/
def borderLineWidthString (fl : Floats) (inner space outer : Length) : Str :=
  fmtLength fl inner ++ ' ' :: (fmtLength fl space ++ ' ' :: fmtLength fl outer)

/-- `text_position`, src/style/mod.rs:236-242. -/
def textPosition (fl : Floats) (pos : TextPosition) (scale : Option Percent) : Str :=
  match scale with
  | some s => pos.text fl ++ ' ' :: s.text fl
  | none => pos.text fl

/-- The loops of `set_print`, `set_draw_class_names` and `set_draw_transform`, src/macro_attr_style.rs:1519-1523,
src/macro_attr_draw.rs:35-39, 115-119: each word and a space. -/
def spaced (ws : List Str) : Str := ws.flatMap (· ++ [' '])

/-! ## Numbers that are not negative -/

/-- `0f64 <= v`: no NaN, and the sign is not set, except for the negative zero. -/
def leZero (v : F64) : Bool :=
  v.bits.toNat % 2 ^ 63 ≤ 0x7FF0000000000000 && (!v.bits.msb || v.bits.toNat % 2 ^ 63 == 0)

/-- `Length::is_positive`, src/style/units.rs:58-68. -/
def _root_.Verif.Length.isPositive : Length → Bool
  | .default => true
  | .cm v | .mm v | .inch v | .pt v | .pc v | .em v => leZero v

/-- `is_positive` of `FontSize` and `Margin`, src/style/units.rs:516-521, 813-818. -/
def _root_.Verif.Enum.LengthPercent.isPositive : LengthPercent → Bool
  | .length v => v.isPositive
  | .percent _ => true

/-- `LineHeight::is_positive`, src/style/units.rs:764-770. -/
def _root_.Verif.Enum.LineHeight.isPositive : LineHeight → Bool
  | .normal => true
  | .length v => v.isPositive
  | .percent _ => true

/-! ## Setters -/

def set (k : String) (v : Str) : Op := .set k.toList v
def clear (k : String) : Op := .clear k.toList

/-- `set_locale`, `set_locale_asian` and `set_locale_complex`, src/macro_attr_fo.rs:537-556,
src/macro_attr_style.rs:730-750, 856-877, alike up to the names. -/
def localeOps (language country script : String) (l : Locale) : List Op :=
  if l ≠ .unknown then
    [set language l.language,
     match l.region with | some r => set country r | none => clear country,
     match l.script with | some s => set script s | none => clear script]
  else [clear language, clear country, clear script]

/-- `set_font_attr`, `set_font_attr_asian` and `set_font_attr_complex`, src/macro_attr_fo.rs:633-641,
src/macro_attr_style.rs:838-846, 964-972: the size with its `assert!`, then `set_font_bold` and `set_font_italic` where
asked for. -/
def fontOps (fl : Floats) (kSize kWeight kStyle : String) (size : LengthPercent) (bold italic : Bool) : Option (List Op) :=
  if size.isPositive then
    some (set kSize (size.text fl) :: ((if bold then [set kWeight FontWeight.bold.text] else [])
      ++ if italic then [set kStyle "italic".toList] else []))
  else none

/-- The macros that define setters, by name: src/macro_attr_fo.rs, src/macro_attr_style.rs, src/macro_attr_table.rs,
src/macro_attr_text.rs, src/macro_attr_draw.rs, src/macro_attr_svg.rs, src/macro_attr_xlink.rs. -/
inductive Macro where
  | draw_caption_id | draw_name | draw_class_names | draw_corner_radius | draw_id | draw_layer | draw_style_name
  | draw_text_style_name | draw_transform | draw_z_index | draw_caption_point_x | draw_caption_point_y | draw_copy_of
  | draw_filter_name | draw_mime_type | fo_background_color | fo_border | fo_padding | fo_wrap_option
  | fo_border_line_width | fo_break | fo_hyphenation | fo_keep_together | fo_keep_with_next | fo_line_height
  | fo_margin | fo_orphans | fo_text_align | fo_text_align_last | fo_text_indent | fo_widows | fo_color | fo_locale
  | fo_font_size | fo_font_size_rel | fo_font_style | fo_font_weight | fo_font_variant | fo_font_attr | fo_hyphenate
  | fo_hyphenation_push_char_count | fo_hyphenation_remain_char_count | fo_letter_spacing | fo_text_shadow
  | fo_text_transform | fo_min_height | fo_page_height | fo_page_width | style_default_outline_level
  | style_master_page | style_next_style | style_cell_protect | style_decimal_places | style_diagonal
  | style_direction | style_glyph_orientation_vertical | style_print_content | style_repeat_content
  | style_rotation_align | style_rotation_scale | style_rotation_angle | style_shadow | style_shrink_to_fit
  | style_text_align_source | style_vertical_align | style_auto_text_indent | style_background_transparency
  | style_contextual_spacing | style_font_independent_line_spacing | style_join_border | style_justify_single_word
  | style_line_break | style_line_height_at_least | style_line_spacing | style_page_number | style_punctuation_wrap
  | style_register_true | style_snap_to_layout_grid | style_tab_stop_distance | style_text_autospace
  | style_vertical_align_para | style_writing_mode | style_writing_mode_automatic | style_line_number
  | style_number_lines | style_font_name | style_locale_asian | style_font_name_asian | style_font_size_asian
  | style_font_size_rel_asian | style_font_style_asian | style_font_weight_asian | style_font_attr_asian
  | style_locale_complex | style_font_name_complex | style_font_size_complex | style_font_size_rel_complex
  | style_font_style_complex | style_font_weight_complex | style_font_attr_complex | style_font_relief
  | style_text_position | style_letter_kerning | style_text_combine | style_text_combine_start_char
  | style_text_combine_end_char | style_text_emphasize | style_text_line_through | style_text_outline
  | style_text_overline | style_text_underline | style_use_window_font_color | style_dynamic_spacing
  | style_column_width | style_rel_column_width | style_use_optimal_column_width | style_font_family_generic
  | style_font_pitch | style_first_page_number | style_footnote_max_height | style_num_format | style_num_letter_sync
  | style_num_prefix | style_num_suffix | style_paper_tray_name | style_print | style_print_orientation
  | style_print_page_order | style_scale_to | style_scale_to_pages | style_table_centering | style_min_row_height
  | style_row_height | style_use_optimal_row_height | style_may_break_between_rows | style_rel_width
  | style_rel_height | style_width | style_char | style_leader_color | style_leader_style | style_leader_text
  | style_leader_text_style | style_leader_type | style_leader_width | style_position | style_type | style_volatile
  | style_display_name | style_auto_update | style_class | style_parent_style_name | svg_font_family
  | svg_font_stretch | svg_font_style | svg_font_variant | svg_font_weight | svg_height | svg_width | svg_x | svg_y
  | table_align | table_border_model | table_display | table_tab_color | table_end_cell_address | table_end_x
  | table_end_y | table_table_background | text_condition | text_display | xlink_actuate | xlink_href | xlink_show
  | xlink_type | xml_id
  deriving DecidableEq

/-- The attribute maps of a style: its general attributes, those of its own kind, of its paragraphs and of its text. -/
inductive Part where
  | attr | own | paragraph | text
  deriving DecidableEq

/-- `styles_styles2!`, src/macro_style.rs:38-41. -/
def baseMacros : List (Macro × Part) :=
  [(.style_auto_update, .attr), (.style_class, .attr), (.style_display_name, .attr), (.style_parent_style_name, .attr)]

/-- The setters with their arguments. -/
inductive Call where
  | /-- `set_draw_caption_id`, src/macro_attr_draw.rs:9-11. -/
    draw_caption_id (id : Str)
  | /-- `set_draw_name`, src/macro_attr_draw.rs:19-21. -/
    draw_name (id : Str)
  | /-- `set_draw_class_names`, src/macro_attr_draw.rs:32-39. -/
    draw_class_names (names : List Str)
  | /-- `set_draw_corner_radius`, src/macro_attr_draw.rs:54-56. -/
    draw_corner_radius (radius : Nat)
  | /-- `set_draw_id`, src/macro_attr_draw.rs:71-73. -/
    draw_id (id : Str)
  | /-- `set_draw_layer`, src/macro_attr_draw.rs:82-84. -/
    draw_layer (layer : Str)
  | /-- `set_draw_style_name`, src/macro_attr_draw.rs:92-95. -/
    draw_style_name (style : Str)
  | /-- `set_draw_text_style_name`, src/macro_attr_draw.rs:104-107. -/
    draw_text_style_name (style : Str)
  | /-- `set_draw_transform`, src/macro_attr_draw.rs:135-142. -/
    draw_transform (transform : List Str)
  | /-- `set_draw_z_index`, src/macro_attr_draw.rs:159-161. -/
    draw_z_index (z_index : Nat)
  | /-- `set_draw_caption_point_x`, src/macro_attr_draw.rs:169-171. -/
    draw_caption_point_x (x : Length)
  | /-- `set_draw_caption_point_y`, src/macro_attr_draw.rs:179-181. -/
    draw_caption_point_y (y : Length)
  | /-- `set_draw_copy_of`, src/macro_attr_draw.rs:193-195. -/
    draw_copy_of (name : Str)
  | /-- `set_draw_filter_name`, src/macro_attr_draw.rs:203-205. -/
    draw_filter_name (name : Str)
  | /-- `set_draw_mime_type`, src/macro_attr_draw.rs:216-218. -/
    draw_mime_type (name : Str)
  | /-- `set_background_color`, src/macro_attr_fo.rs:11-14. -/
    background_color (color' : Rgb)
  | /-- `set_border`, src/macro_attr_fo.rs:21-24. -/
    border (width' : Length) (border' : Border) (color' : Rgb)
  | /-- `set_border_bottom`, src/macro_attr_fo.rs:27-30. -/
    border_bottom (width' : Length) (border' : Border) (color' : Rgb)
  | /-- `set_border_left`, src/macro_attr_fo.rs:33-36. -/
    border_left (width' : Length) (border' : Border) (color' : Rgb)
  | /-- `set_border_right`, src/macro_attr_fo.rs:39-42. -/
    border_right (width' : Length) (border' : Border) (color' : Rgb)
  | /-- `set_border_top`, src/macro_attr_fo.rs:45-48. -/
    border_top (width' : Length) (border' : Border) (color' : Rgb)
  | /-- `set_padding`, src/macro_attr_fo.rs:62-65. -/
    padding (padding' : Length)
  | /-- `set_padding_bottom`, src/macro_attr_fo.rs:75-78. -/
    padding_bottom (padding' : Length)
  | /-- `set_padding_left`, src/macro_attr_fo.rs:88-91. -/
    padding_left (padding' : Length)
  | /-- `set_padding_right`, src/macro_attr_fo.rs:101-104. -/
    padding_right (padding' : Length)
  | /-- `set_padding_top`, src/macro_attr_fo.rs:114-117. -/
    padding_top (padding' : Length)
  | /-- `set_wrap_option`, src/macro_attr_fo.rs:127-129. -/
    wrap_option (wrap : WrapOption)
  | /-- `set_border_line_width`, src/macro_attr_fo.rs:149-154. -/
    border_line_width (inner : Length) (spacing : Length) (outer : Length)
  | /-- `set_border_line_width_bottom`, src/macro_attr_fo.rs:170-180. -/
    border_line_width_bottom (inner : Length) (spacing : Length) (outer : Length)
  | /-- `set_border_line_width_left`, src/macro_attr_fo.rs:196-206. -/
    border_line_width_left (inner : Length) (spacing : Length) (outer : Length)
  | /-- `set_border_line_width_right`, src/macro_attr_fo.rs:222-232. -/
    border_line_width_right (inner : Length) (spacing : Length) (outer : Length)
  | /-- `set_border_line_width_top`, src/macro_attr_fo.rs:248-253. -/
    border_line_width_top (inner : Length) (spacing : Length) (outer : Length)
  | /-- `set_break_before`, src/macro_attr_fo.rs:263-265. -/
    break_before (pagebreak : PageBreak)
  | /-- `set_break_after`, src/macro_attr_fo.rs:271-273. -/
    break_after (pagebreak : PageBreak)
  | /-- `set_hyphenation_keep`, src/macro_attr_fo.rs:280-283. -/
    hyphenation_keep (hyphenation : Hyphenation)
  | /-- `set_hyphenation_ladder_count`, src/macro_attr_fo.rs:290-293. -/
    hyphenation_ladder_count (hyphenation : HyphenationLadderCount)
  | /-- `set_keep_together`, src/macro_attr_fo.rs:306-309. -/
    keep_together (keep_together' : TextKeep)
  | /-- `set_keep_with_next`, src/macro_attr_fo.rs:318-321. -/
    keep_with_next (keep_with_next' : TextKeep)
  | /-- `set_line_height`, src/macro_attr_fo.rs:342-346. -/
    line_height (line_height' : LineHeight)
  | /-- `set_margin`, src/macro_attr_fo.rs:362-365. -/
    margin (margin' : LengthPercent)
  | /-- `set_margin_bottom`, src/macro_attr_fo.rs:379-382. -/
    margin_bottom (margin' : LengthPercent)
  | /-- `set_margin_left`, src/macro_attr_fo.rs:397-400. -/
    margin_left (margin' : LengthPercent)
  | /-- `set_margin_right`, src/macro_attr_fo.rs:415-418. -/
    margin_right (margin' : LengthPercent)
  | /-- `set_margin_top`, src/macro_attr_fo.rs:432-435. -/
    margin_top (margin' : LengthPercent)
  | /-- `set_orphans`, src/macro_attr_fo.rs:445-447. -/
    orphans (orphans' : Nat)
  | /-- `set_text_align`, src/macro_attr_fo.rs:464-466. -/
    text_align (align' : TextAlign)
  | /-- `set_text_align_last`, src/macro_attr_fo.rs:478-480. -/
    text_align_last (align' : TextAlignLast)
  | /-- `set_text_indent`, src/macro_attr_fo.rs:496-498. -/
    text_indent (indent : LengthPercent)
  | /-- `set_widows`, src/macro_attr_fo.rs:514-516. -/
    widows (num : Nat)
  | /-- `set_color`, src/macro_attr_fo.rs:525-527. -/
    color (color' : Rgb)
  | /-- `set_locale`, src/macro_attr_fo.rs:537-556. -/
    locale (locale' : Locale)
  | /-- `set_font_size`, src/macro_attr_fo.rs:572-575. -/
    font_size (size : LengthPercent)
  | /-- `set_font_size_rel`, src/macro_attr_fo.rs:584-586. -/
    font_size_rel (size : LengthPercent)
  | /-- `set_font_style`, src/macro_attr_fo.rs:594-596. -/
    font_style (style : FontStyle)
  | /-- `set_font_italic`, src/macro_attr_fo.rs:599-601. -/
    font_italic
  | /-- `set_font_weight`, src/macro_attr_fo.rs:609-611. -/
    font_weight (weight : FontWeight)
  | /-- `set_font_bold`, src/macro_attr_fo.rs:614-617. -/
    font_bold
  | /-- `set_font_variant`, src/macro_attr_fo.rs:624-626. -/
    font_variant (var : FontVariant)
  | /-- `set_font_attr`, src/macro_attr_fo.rs:633-641. -/
    font_attr (size : LengthPercent) (bold : Bool) (italic : Bool)
  | /-- `set_hyphenate`, src/macro_attr_fo.rs:648-650. -/
    hyphenate (hyphenate' : Bool)
  | /-- `set_hyphenation_push_char_count`, src/macro_attr_fo.rs:657-660. -/
    hyphenation_push_char_count (count : Nat)
  | /-- `set_hyphenation_remain_char_count`, src/macro_attr_fo.rs:667-670. -/
    hyphenation_remain_char_count (count : Nat)
  | /-- `set_letter_spacing`, src/macro_attr_fo.rs:678-680. -/
    letter_spacing (spacing : LetterSpacing)
  | /-- `set_text_shadow`, src/macro_attr_fo.rs:687-698. -/
    text_shadow (x_offset : Length) (y_offset : Length) (blur : Option Length) (color' : Rgb)
  | /-- `set_text_transform`, src/macro_attr_fo.rs:709-711. -/
    text_transform (trans : TextTransform)
  | /-- `set_min_height`, src/macro_attr_fo.rs:718-720. -/
    min_height (height' : LengthPercent)
  | /-- `set_page_height`, src/macro_attr_fo.rs:727-730. -/
    page_height (height' : Length)
  | /-- `set_page_width`, src/macro_attr_fo.rs:737-740. -/
    page_width (width' : Length)
  | /-- `set_default_outline_level`, src/macro_attr_style.rs:18-21. -/
    default_outline_level (level : Nat)
  | /-- `set_master_page`, src/macro_attr_style.rs:35-38. -/
    master_page (masterpage : Str)
  | /-- `set_next_style`, src/macro_attr_style.rs:47-50. -/
    next_style (name : Str)
  | /-- `set_cell_protect`, src/macro_attr_style.rs:71-74. -/
    cell_protect (protect : CellProtect)
  | /-- `set_decimal_places`, src/macro_attr_style.rs:85-87. -/
    decimal_places (dec : Nat)
  | /-- `set_diagonal_bl_tr`, src/macro_attr_style.rs:96-99. -/
    diagonal_bl_tr (width' : Length) (border' : Border) (color' : Rgb)
  | /-- `set_diagonal_bl_tr_widths`, src/macro_attr_style.rs:104-109. -/
    diagonal_bl_tr_widths (inner : Length) (spacing : Length) (outer : Length)
  | /-- `set_diagonal_tl_br`, src/macro_attr_style.rs:114-117. -/
    diagonal_tl_br (width' : Length) (border' : Border) (color' : Rgb)
  | /-- `set_diagonal_tl_br_widths`, src/macro_attr_style.rs:122-127. -/
    diagonal_tl_br_widths (inner : Length) (spacing : Length) (outer : Length)
  | /-- `set_direction`, src/macro_attr_style.rs:141-143. -/
    direction (direction' : WritingDirection)
  | /-- `set_glyph_orientation_vertical`, src/macro_attr_style.rs:156-161. -/
    glyph_orientation_vertical (glyph_orientation : GlyphOrientation)
  | /-- `set_print_content`, src/macro_attr_style.rs:172-174. -/
    print_content (print' : Bool)
  | /-- `set_repeat_content`, src/macro_attr_style.rs:190-193. -/
    repeat_content (print' : Bool)
  | /-- `set_rotation_align`, src/macro_attr_style.rs:203-206. -/
    rotation_align (align' : RotationAlign)
  | /-- `set_rotation_scale`, src/macro_attr_style.rs:219-222. -/
    rotation_scale (scale : RotationScale)
  | /-- `set_rotation_angle`, src/macro_attr_style.rs:230-233. -/
    rotation_angle (angle : Angle)
  | /-- `set_shadow`, src/macro_attr_style.rs:254-265. -/
    shadow (x_offset : Length) (y_offset : Length) (blur : Option Length) (color' : Rgb)
  | /-- `set_shrink_to_fit`, src/macro_attr_style.rs:280-283. -/
    shrink_to_fit (shrink : Bool)
  | /-- `set_text_align_source`, src/macro_attr_style.rs:296-299. -/
    text_align_source (align' : TextAlignSource)
  | /-- `set_vertical_align`, src/macro_attr_style.rs:317-320. -/
    vertical_align (align' : CellAlignVertical)
  | /-- `set_auto_text_indent`, src/macro_attr_style.rs:335-338. -/
    auto_text_indent (indent : Bool)
  | /-- `set_background_transpareny`, src/macro_attr_style.rs:348-351. -/
    background_transpareny (percent : Percent)
  | /-- `set_contextual_spacing`, src/macro_attr_style.rs:370-373. -/
    contextual_spacing (spacing : Bool)
  | /-- `set_font_independent_line_spacing`, src/macro_attr_style.rs:389-392. -/
    font_independent_line_spacing (spacing : Bool)
  | /-- `set_join_border`, src/macro_attr_style.rs:429-431. -/
    join_border (join : Bool)
  | /-- `set_justify_single_word`, src/macro_attr_style.rs:449-452. -/
    justify_single_word (justify : Bool)
  | /-- `set_line_break`, src/macro_attr_style.rs:466-469. -/
    line_break (linebreak : LineBreak)
  | /-- `set_line_height_at_least`, src/macro_attr_style.rs:481-485. -/
    line_height_at_least (height' : Length)
  | /-- `set_line_spacing`, src/macro_attr_style.rs:496-499. -/
    line_spacing (spacing : Length)
  | /-- `set_page_number`, src/macro_attr_style.rs:519-522. -/
    page_number (page_number' : PageNumber)
  | /-- `set_punctuation_wrap`, src/macro_attr_style.rs:539-542. -/
    punctuation_wrap (wrap : PunctuationWrap)
  | /-- `set_register_true`, src/macro_attr_style.rs:558-561. -/
    register_true (register : Bool)
  | /-- `set_snap_to_layout_grid`, src/macro_attr_style.rs:578-581. -/
    snap_to_layout_grid (snap : Bool)
  | /-- `set_tab_stop_distance`, src/macro_attr_style.rs:593-597. -/
    tab_stop_distance (tab : Length)
  | /-- `set_text_autospace`, src/macro_attr_style.rs:613-616. -/
    text_autospace (space : TextAutoSpace)
  | /-- `set_vertical_align_para`, src/macro_attr_style.rs:636-639. -/
    vertical_align_para (align' : ParaAlignVertical)
  | /-- `set_writing_mode`, src/macro_attr_style.rs:649-652. -/
    writing_mode (writing_mode' : WritingMode)
  | /-- `set_writing_mode_automatic`, src/macro_attr_style.rs:673-676. -/
    writing_mode_automatic (auto : Bool)
  | /-- `set_line_number`, src/macro_attr_style.rs:688-690. -/
    line_number (line : Nat)
  | /-- `set_number_lines`, src/macro_attr_style.rs:703-705. -/
    number_lines (lines : Bool)
  | /-- `set_font_name`, src/macro_attr_style.rs:718-720. -/
    font_name (name : Str)
  | /-- `set_locale_asian`, src/macro_attr_style.rs:730-750. -/
    locale_asian (locale' : Locale)
  | /-- `set_font_name_asian`, src/macro_attr_style.rs:761-763. -/
    font_name_asian (name : Str)
  | /-- `set_font_size_asian`, src/macro_attr_style.rs:780-784. -/
    font_size_asian (size : LengthPercent)
  | /-- `set_font_size_rel_asian`, src/macro_attr_style.rs:794-797. -/
    font_size_rel_asian (size : LengthPercent)
  | /-- `set_font_style_asian`, src/macro_attr_style.rs:805-808. -/
    font_style_asian (style : FontStyle)
  | /-- `set_font_italic_asian`, src/macro_attr_style.rs:811-814. -/
    font_italic_asian
  | /-- `set_font_weight_asian`, src/macro_attr_style.rs:822-825. -/
    font_weight_asian (weight : FontWeight)
  | /-- `set_font_bold_asian`, src/macro_attr_style.rs:828-831. -/
    font_bold_asian
  | /-- `set_font_attr_asian`, src/macro_attr_style.rs:838-846. -/
    font_attr_asian (size : LengthPercent) (bold : Bool) (italic : Bool)
  | /-- `set_locale_complex`, src/macro_attr_style.rs:856-877. -/
    locale_complex (locale' : Locale)
  | /-- `set_font_name_complex`, src/macro_attr_style.rs:888-890. -/
    font_name_complex (name : Str)
  | /-- `set_font_size_complex`, src/macro_attr_style.rs:907-911. -/
    font_size_complex (size : LengthPercent)
  | /-- `set_font_size_rel_complex`, src/macro_attr_style.rs:920-923. -/
    font_size_rel_complex (size : LengthPercent)
  | /-- `set_font_style_complex`, src/macro_attr_style.rs:930-933. -/
    font_style_complex (style : FontStyle)
  | /-- `set_font_italic_complex`, src/macro_attr_style.rs:937-940. -/
    font_italic_complex
  | /-- `set_font_weight_complex`, src/macro_attr_style.rs:948-951. -/
    font_weight_complex (weight : FontWeight)
  | /-- `set_font_bold_complex`, src/macro_attr_style.rs:954-957. -/
    font_bold_complex
  | /-- `set_font_attr_complex`, src/macro_attr_style.rs:964-972. -/
    font_attr_complex (size : LengthPercent) (bold : Bool) (italic : Bool)
  | /-- `set_font_relief`, src/macro_attr_style.rs:985-987. -/
    font_relief (relief : TextRelief)
  | /-- `set_text_position`, src/macro_attr_style.rs:1003-1006. -/
    text_position (pos : TextPosition) (scale : Option Percent)
  | /-- `set_letter_kerning`, src/macro_attr_style.rs:1014-1017. -/
    letter_kerning (kerning : Bool)
  | /-- `set_text_combine`, src/macro_attr_style.rs:1034-1036. -/
    text_combine (pos : TextCombine)
  | /-- `set_text_combine_start_char`, src/macro_attr_style.rs:1044-1047. -/
    text_combine_start_char (c : Char)
  | /-- `set_text_combine_end_char`, src/macro_attr_style.rs:1055-1058. -/
    text_combine_end_char (c : Char)
  | /-- `set_text_emphasize`, src/macro_attr_style.rs:1077-1086. -/
    text_emphasize (emphasize : TextEmphasize) (position' : TextEmphasizePosition)
  | /-- `set_text_line_through_color`, src/macro_attr_style.rs:1097-1100. -/
    text_line_through_color (color' : Rgb)
  | /-- `set_text_line_through_mode`, src/macro_attr_style.rs:1108-1111. -/
    text_line_through_mode (lmode : LineMode)
  | /-- `set_text_line_through_style`, src/macro_attr_style.rs:1130-1133. -/
    text_line_through_style (lstyle : LineStyle)
  | /-- `set_text_line_through_text`, src/macro_attr_style.rs:1147-1150. -/
    text_line_through_text (text : Str)
  | /-- `set_text_line_through_text_style`, src/macro_attr_style.rs:1157-1162. -/
    text_line_through_text_style (style_ref : Str)
  | /-- `set_text_line_through_type`, src/macro_attr_style.rs:1176-1179. -/
    text_line_through_type (ltype : LineType)
  | /-- `set_text_line_through_width`, src/macro_attr_style.rs:1197-1200. -/
    text_line_through_width (lwidth : LineWidth)
  | /-- `set_font_text_outline`, src/macro_attr_style.rs:1208-1211. -/
    font_text_outline (outline : Bool)
  | /-- `set_text_overline_color`, src/macro_attr_style.rs:1223-1226. -/
    text_overline_color (color' : Rgb)
  | /-- `set_text_overline_mode`, src/macro_attr_style.rs:1230-1233. -/
    text_overline_mode (lmode : LineMode)
  | /-- `set_text_overline_style`, src/macro_attr_style.rs:1236-1239. -/
    text_overline_style (lstyle : LineStyle)
  | /-- `set_text_overline_type`, src/macro_attr_style.rs:1242-1245. -/
    text_overline_type (ltype : LineType)
  | /-- `set_text_overline_width`, src/macro_attr_style.rs:1250-1253. -/
    text_overline_width (lwidth : LineWidth)
  | /-- `set_text_underline_color`, src/macro_attr_style.rs:1263-1266. -/
    text_underline_color (color' : Rgb)
  | /-- `set_text_underline_mode`, src/macro_attr_style.rs:1271-1274. -/
    text_underline_mode (lmode : LineMode)
  | /-- `set_text_underline_style`, src/macro_attr_style.rs:1277-1280. -/
    text_underline_style (lstyle : LineStyle)
  | /-- `set_text_underline_type`, src/macro_attr_style.rs:1283-1286. -/
    text_underline_type (ltype : LineType)
  | /-- `set_text_underline_width`, src/macro_attr_style.rs:1291-1294. -/
    text_underline_width (lwidth : LineWidth)
  | /-- `set_use_window_font_color`, src/macro_attr_style.rs:1303-1306. -/
    use_window_font_color (window_color : Bool)
  | /-- `set_dynamic_spacing`, src/macro_attr_style.rs:1313-1316. -/
    dynamic_spacing (dynamic : Bool)
  | /-- `set_col_width`, src/macro_attr_style.rs:1323-1329. -/
    col_width (width' : Length)
  | /-- `set_rel_col_width`, src/macro_attr_style.rs:1344-1347. -/
    rel_col_width (rel : F64)
  | /-- `set_use_optimal_col_width`, src/macro_attr_style.rs:1355-1358. -/
    use_optimal_col_width (opt : Bool)
  | /-- `set_font_family_generic`, src/macro_attr_style.rs:1378-1381. -/
    font_family_generic (font : FontFamilyGeneric)
  | /-- `set_font_pitch`, src/macro_attr_style.rs:1392-1394. -/
    font_pitch (pitch : FontPitch)
  | /-- `set_first_page_number`, src/macro_attr_style.rs:1403-1406. -/
    first_page_number (number : Nat)
  | /-- `set_footnote_max_height`, src/macro_attr_style.rs:1417-1420. -/
    footnote_max_height (height' : Length)
  | /-- `set_num_format`, src/macro_attr_style.rs:1437-1440. -/
    num_format (format : StyleNumFormat)
  | /-- `set_num_letter_sync`, src/macro_attr_style.rs:1455-1458. -/
    num_letter_sync (sync : Bool)
  | /-- `set_num_prefix`, src/macro_attr_style.rs:1469-1471. -/
    num_prefix (text : Str)
  | /-- `set_num_suffix`, src/macro_attr_style.rs:1482-1484. -/
    num_suffix (text : Str)
  | /-- `set_paper_tray_name`, src/macro_attr_style.rs:1496-1499. -/
    paper_tray_name (tray : Str)
  | /-- `set_print`, src/macro_attr_style.rs:1518-1525. -/
    print (print' : List PrintContent)
  | /-- `set_print_orientation`, src/macro_attr_style.rs:1537-1540. -/
    print_orientation (orientation : PrintOrientation)
  | /-- `set_print_page_order`, src/macro_attr_style.rs:1554-1557. -/
    print_page_order (order : PrintOrder)
  | /-- `set_scale_to`, src/macro_attr_style.rs:1566-1568. -/
    scale_to (percent : Percent)
  | /-- `set_scale_to_pages`, src/macro_attr_style.rs:1577-1580. -/
    scale_to_pages (pages : Nat)
  | /-- `set_table_centering`, src/macro_attr_style.rs:1598-1601. -/
    table_centering (center : PrintCentering)
  | /-- `set_min_row_height`, src/macro_attr_style.rs:1608-1612. -/
    min_row_height (min_height' : Length)
  | /-- `set_row_height`, src/macro_attr_style.rs:1619-1621. -/
    row_height (height' : Length)
  | /-- `set_use_optimal_row_height`, src/macro_attr_style.rs:1638-1641. -/
    use_optimal_row_height (opt : Bool)
  | /-- `set_may_break_between_rows`, src/macro_attr_style.rs:1658-1661. -/
    may_break_between_rows (br : Bool)
  | /-- `set_rel_width`, src/macro_attr_style.rs:1682-1684. -/
    rel_width (rel_width' : RelativeScale)
  | /-- `set_rel_height`, src/macro_attr_style.rs:1709-1712. -/
    rel_height (rel_height' : RelativeScale)
  | /-- `set_width`, src/macro_attr_style.rs:1720-1722. -/
    width (width' : Length)
  | /-- `set_char`, src/macro_attr_style.rs:1729-1731. -/
    char (c : Char)
  | /-- `set_leader_color`, src/macro_attr_style.rs:1740-1743. -/
    leader_color (color' : Rgb)
  | /-- `set_leader_style`, src/macro_attr_style.rs:1765-1767. -/
    leader_style (style : LineStyle)
  | /-- `set_leader_text`, src/macro_attr_style.rs:1782-1784. -/
    leader_text (text : Char)
  | /-- `set_leader_text_style`, src/macro_attr_style.rs:1794-1797. -/
    leader_text_style (styleref : Str)
  | /-- `set_leader_type`, src/macro_attr_style.rs:1810-1812. -/
    leader_type (t : LineType)
  | /-- `set_leader_width`, src/macro_attr_style.rs:1830-1832. -/
    leader_width (w : LineWidth)
  | /-- `set_position`, src/macro_attr_style.rs:1847-1849. -/
    position (pos : Length)
  | /-- `set_type`, src/macro_attr_style.rs:1864-1866. -/
    type (t : TabStopType)
  | /-- `set_volatile`, src/macro_attr_style.rs:1879-1881. -/
    volatile (volatile' : Bool)
  | /-- `set_display_name`, src/macro_attr_style.rs:1898-1900. -/
    display_name (name : Str)
  | /-- `set_auto_update`, src/macro_attr_style.rs:1919-1921. -/
    auto_update (auto : Bool)
  | /-- `set_class`, src/macro_attr_style.rs:1932-1934. -/
    «class» (text : Str)
  | /-- `set_parent_style`, src/macro_attr_style.rs:1945-1948. -/
    parent_style (name : Str)
  | /-- `set_font_family`, src/macro_attr_svg.rs:4-6. -/
    font_family (name : Str)
  | /-- `set_font_stretch`, src/macro_attr_svg.rs:13-15. -/
    font_stretch (stretch : FontStretch)
  | /-- `set_font_style`, src/macro_attr_svg.rs:22-24. -/
    svg_font_style (style : FontStyle)
  | /-- `set_font_variant`, src/macro_attr_svg.rs:31-33. -/
    svg_font_variant (variant : FontVariant)
  | /-- `set_font_weight`, src/macro_attr_svg.rs:40-42. -/
    svg_font_weight (weight : FontWeight)
  | /-- `set_height`, src/macro_attr_svg.rs:49-51. -/
    height (height' : Length)
  | /-- `set_width`, src/macro_attr_svg.rs:58-60. -/
    svg_width (width' : Length)
  | /-- `svg_x`, src/macro_attr_svg.rs:101-103. -/
    svg_x (x : Length)
  | /-- `svg_y`, src/macro_attr_svg.rs:111-113. -/
    svg_y (y : Length)
  | /-- `set_align`, src/macro_attr_table.rs:12-14. -/
    align (align' : TableAlign)
  | /-- `set_border_model`, src/macro_attr_table.rs:32-34. -/
    border_model (border' : TableBorderModel)
  | /-- `set_display`, src/macro_attr_table.rs:45-47. -/
    display (display' : Bool)
  | /-- `set_tab_color`, src/macro_attr_table.rs:55-57. -/
    tab_color (color' : Rgb)
  | /-- `set_table_end_cell_address`, src/macro_attr_table.rs:65-68. -/
    table_end_cell_address (cellref : CellRef)
  | /-- `set_table_end_x`, src/macro_attr_table.rs:76-78. -/
    table_end_x (x : Length)
  | /-- `set_table_end_y`, src/macro_attr_table.rs:86-88. -/
    table_end_y (y : Length)
  | /-- `set_table_table_background`, src/macro_attr_table.rs:100-103. -/
    table_table_background (is_bg : Bool)
  | /-- `set_text_condition`, src/macro_attr_text.rs:5-7. -/
    text_condition (cond : TextCondition)
  | /-- `set_display`, src/macro_attr_text.rs:19-21. -/
    text_display (cond : TextDisplay)
  | /-- `set_xlink_actuate`, src/macro_attr_xlink.rs:4-6. -/
    xlink_actuate (actuate : Actuate)
  | /-- `set_xlink_href`, src/macro_attr_xlink.rs:14-16. -/
    xlink_href (href : Str)
  | /-- `set_xlink_show`, src/macro_attr_xlink.rs:23-25. -/
    xlink_show (v : LinkShow)
  | /-- `set_xlink_type`, src/macro_attr_xlink.rs:33-35. -/
    xlink_type (ty : LinkType)
  | /-- `set_xml_id`, src/macro_style.rs:124-126. -/
    xml_id (id : Str)

/-- What a setter does with the attribute map it works on; `none` is the panic of its `assert!`. -/
def Call.ops (fl : Floats) : Call → Option (List Op)
  | .draw_caption_id id => some [set "draw:caption-id" (id)]
  | .draw_name id => some [set "draw:name" (id)]
  | .draw_class_names names => some [set "draw:class-names" (spaced names)]
  | .draw_corner_radius radius => some [set "draw:corner-radius" (decNat radius)]
  | .draw_id id => some [set "draw:id" (id)]
  | .draw_layer layer => some [set "draw:layer" (layer)]
  | .draw_style_name style => some [set "draw:style-name" (style)]
  | .draw_text_style_name style => some [set "draw:text-style-name" (style)]
  | .draw_transform transform => some [set "draw:transform" (spaced transform)]
  | .draw_z_index z_index => some [set "draw:z-index" (decNat z_index)]
  | .draw_caption_point_x x => some [set "draw:caption-point-x" (fmtLength fl x)]
  | .draw_caption_point_y y => some [set "draw:caption-point-y" (fmtLength fl y)]
  | .draw_copy_of name => some [set "draw:copy-of" (name)]
  | .draw_filter_name name => some [set "draw:filter-name" (name)]
  | .draw_mime_type name => some [set "draw:mime-type" (name)]
  | .background_color color' => some [set "fo:background-color" (colorString color')]
  | .border width' border' color' => some [set "fo:border" (borderString fl width' border' color')]
  | .border_bottom width' border' color' => some [set "fo:border-bottom" (borderString fl width' border' color')]
  | .border_left width' border' color' => some [set "fo:border-left" (borderString fl width' border' color')]
  | .border_right width' border' color' => some [set "fo:border-right" (borderString fl width' border' color')]
  | .border_top width' border' color' => some [set "fo:border-top" (borderString fl width' border' color')]
  | .padding padding' => if padding'.isPositive then some [set "fo:padding" (fmtLength fl padding')] else none
  | .padding_bottom padding' => if padding'.isPositive then some [set "fo:padding-bottom" (fmtLength fl padding')] else none
  | .padding_left padding' => if padding'.isPositive then some [set "fo:padding-left" (fmtLength fl padding')] else none
  | .padding_right padding' => if padding'.isPositive then some [set "fo:padding-right" (fmtLength fl padding')] else none
  | .padding_top padding' => if padding'.isPositive then some [set "fo:padding-top" (fmtLength fl padding')] else none
  | .wrap_option wrap => some [set "fo:wrap-option" (wrap.text)]
  | .border_line_width inner spacing outer => some [set "style:border-line-width" (borderLineWidthString fl inner spacing outer)]
  | .border_line_width_bottom inner spacing outer => some [set "style:border-line-width-bottom" (borderLineWidthString fl inner spacing outer)]
  | .border_line_width_left inner spacing outer => some [set "style:border-line-width-left" (borderLineWidthString fl inner spacing outer)]
  | .border_line_width_right inner spacing outer => some [set "style:border-line-width-right" (borderLineWidthString fl inner spacing outer)]
  | .border_line_width_top inner spacing outer => some [set "style:border-line-width-top" (borderLineWidthString fl inner spacing outer)]
  | .break_before pagebreak => some [set "fo:break-before" (pagebreak.text)]
  | .break_after pagebreak => some [set "fo:break-after" (pagebreak.text)]
  | .hyphenation_keep hyphenation => some [set "fo:hyphenation-keep" (hyphenation.text)]
  | .hyphenation_ladder_count hyphenation => some [set "fo:hyphenation-ladder-count" (hyphenation.text)]
  | .keep_together keep_together' => some [set "fo:keep-together" (keep_together'.text)]
  | .keep_with_next keep_with_next' => some [set "fo:keep-with-next" (keep_with_next'.text)]
  | .line_height line_height' => if line_height'.isPositive then some [set "fo:line-height" (line_height'.text fl)] else none
  | .margin margin' => if margin'.isPositive then some [set "fo:margin" (margin'.text fl)] else none
  | .margin_bottom margin' => if margin'.isPositive then some [set "fo:margin-bottom" (margin'.text fl)] else none
  | .margin_left margin' => if margin'.isPositive then some [set "fo:margin-left" (margin'.text fl)] else none
  | .margin_right margin' => if margin'.isPositive then some [set "fo:margin-right" (margin'.text fl)] else none
  | .margin_top margin' => if margin'.isPositive then some [set "fo:margin-top" (margin'.text fl)] else none
  | .orphans orphans' => some [set "fo:orphans" (decNat orphans')]
  | .text_align align' => some [set "fo:text-align" (align'.text)]
  | .text_align_last align' => some [set "fo:text-align-last" (align'.text)]
  | .text_indent indent => some [set "fo:text-indent" (indent.text fl)]
  | .widows num => some [set "fo:widows" (decNat num)]
  | .color color' => some [set "fo:color" (colorString color')]
  | .locale locale' => some (localeOps "fo:language" "fo:country" "fo:script" locale')
  | .font_size size => if size.isPositive then some [set "fo:font-size" (size.text fl)] else none
  | .font_size_rel size => some [set "fo:font-size-rel" (size.text fl)]
  | .font_style style => some [set "fo:font-style" (style.text)]
  | .font_italic => some [set "fo:font-style" ("italic".toList)]
  | .font_weight weight => some [set "fo:font-weight" (weight.text)]
  | .font_bold => some [set "fo:font-weight" (FontWeight.bold.text)]
  | .font_variant var => some [set "fo:font-variant" (var.text)]
  | .font_attr size bold italic => fontOps fl "fo:font-size" "fo:font-weight" "fo:font-style" size bold italic
  | .hyphenate hyphenate' => some [set "fo:hyphenate" (fmtBool hyphenate')]
  | .hyphenation_push_char_count count => some [set "fo:hyphenation-push-char-count" (decNat count)]
  | .hyphenation_remain_char_count count => some [set "fo:hyphenation-remain-char-count" (decNat count)]
  | .letter_spacing spacing => some [set "fo:letter-spacing" (spacing.text fl)]
  | .text_shadow x_offset y_offset blur color' => some [set "fo:text-shadow" (shadowString fl x_offset y_offset blur color')]
  | .text_transform trans => some [set "fo:text-transform" (trans.text)]
  | .min_height height' => some [set "fo:min-height" (height'.text fl)]
  | .page_height height' => some [set "fo:page-height" (fmtLength fl height')]
  | .page_width width' => some [set "fo:page-width" (fmtLength fl width')]
  | .default_outline_level level => some [set "style:default-outline-level" (decNat level)]
  | .master_page masterpage => some [set "style:master-page-name" (masterpage)]
  | .next_style name => some [set "style:next-style-name" (name)]
  | .cell_protect protect => some [set "style:cell-protect" (protect.text)]
  | .decimal_places dec => some [set "style:decimal-places" (decNat dec)]
  | .diagonal_bl_tr width' border' color' => some [set "style:diagonal-bl-tr" (borderString fl width' border' color')]
  | .diagonal_bl_tr_widths inner spacing outer => some [set "style:diagonal-bl-tr-widths" (borderLineWidthString fl inner spacing outer)]
  | .diagonal_tl_br width' border' color' => some [set "style:diagonal-tl-br" (borderString fl width' border' color')]
  | .diagonal_tl_br_widths inner spacing outer => some [set "style:diagonal-tl-br-widths" (borderLineWidthString fl inner spacing outer)]
  | .direction direction' => some [set "style:direction" (direction'.text)]
  | .glyph_orientation_vertical glyph_orientation => some [set "style:glyph-orientation-vertical" (glyph_orientation.text fl)]
  | .print_content print' => some [set "style:print-content" (fmtBool print')]
  | .repeat_content print' => some [set "style:repeat-content" (fmtBool print')]
  | .rotation_align align' => some [set "style:rotation-align" (align'.text)]
  | .rotation_scale scale => some [set "style:text-rotation-scale" (scale.text)]
  | .rotation_angle angle => some [set "style:rotation-angle" (angle.text fl)]
  | .shadow x_offset y_offset blur color' => some [set "style:shadow" (shadowString fl x_offset y_offset blur color')]
  | .shrink_to_fit shrink => some [set "style:shrink-to-fit" (fmtBool shrink)]
  | .text_align_source align' => some [set "style:text-align-source" (align'.text)]
  | .vertical_align align' => some [set "style:vertical-align" (align'.text)]
  | .auto_text_indent indent => some [set "style:auto-text-indent" (fmtBool indent)]
  | .background_transpareny percent => some [set "style:background-transparency" (percent.text fl)]
  | .contextual_spacing spacing => some [set "style:contextual-spacing" (fmtBool spacing)]
  | .font_independent_line_spacing spacing => some [set "style:font-independent-line-spacing" (fmtBool spacing)]
  | .join_border join => some [set "style:join-border" (fmtBool join)]
  | .justify_single_word justify => some [set "style:justify-single-word" (fmtBool justify)]
  | .line_break linebreak => some [set "style:line-break" (linebreak.text)]
  | .line_height_at_least height' => if height'.isPositive then some [set "style:line-height-at-least" (fmtLength fl height')] else none
  | .line_spacing spacing => some [set "style:line-spacing" (fmtLength fl spacing)]
  | .page_number page_number' => some [set "style:page-number" (page_number'.text)]
  | .punctuation_wrap wrap => some [set "style:punctuation-wrap" (wrap.text)]
  | .register_true register => some [set "style:register-true" (fmtBool register)]
  | .snap_to_layout_grid snap => some [set "style:snap-to-layout-grid" (fmtBool snap)]
  | .tab_stop_distance tab => if tab.isPositive then some [set "style:tab-stop-distance" (fmtLength fl tab)] else none
  | .text_autospace space => some [set "style:text-autospace" (space.text)]
  | .vertical_align_para align' => some [set "style:vertical-align" (align'.text)]
  | .writing_mode writing_mode' => some [set "style:writing-mode" (writing_mode'.text)]
  | .writing_mode_automatic auto => some [set "style:writing-mode-automatic" (fmtBool auto)]
  | .line_number line => some [set "text:line-number" (decNat line)]
  | .number_lines lines => some [set "text:number-lines" (fmtBool lines)]
  | .font_name name => some [set "style:font-name" (name)]
  | .locale_asian locale' => some (localeOps "style:language-asian" "style:country-asian" "style:script-asian" locale')
  | .font_name_asian name => some [set "style:font-name-asian" (name)]
  | .font_size_asian size => if size.isPositive then some [set "style:font-size-asian" (size.text fl)] else none
  | .font_size_rel_asian size => some [set "style:font-size-rel-asian" (size.text fl)]
  | .font_style_asian style => some [set "style:font-style-asian" (style.text)]
  | .font_italic_asian => some [set "style:font-style-asian" ("italic".toList)]
  | .font_weight_asian weight => some [set "style:font-weight-asian" (weight.text)]
  | .font_bold_asian => some [set "style:font-weight-asian" (FontWeight.bold.text)]
  | .font_attr_asian size bold italic => fontOps fl "style:font-size-asian" "style:font-weight-asian" "style:font-style-asian" size bold italic
  | .locale_complex locale' => some (localeOps "style:language-complex" "style:country-complex" "style:script-complex" locale')
  | .font_name_complex name => some [set "style:font-name-complex" (name)]
  | .font_size_complex size => if size.isPositive then some [set "style:font-size-complex" (size.text fl)] else none
  | .font_size_rel_complex size => some [set "style:font-size-rel-complex" (size.text fl)]
  | .font_style_complex style => some [set "style:font-style-complex" (style.text)]
  | .font_italic_complex => some [set "style:font-style-complex" ("italic".toList)]
  | .font_weight_complex weight => some [set "style:font-weight-complex" (weight.text)]
  | .font_bold_complex => some [set "style:font-weight-complex" (FontWeight.bold.text)]
  | .font_attr_complex size bold italic => fontOps fl "style:font-size-complex" "style:font-weight-complex" "style:font-style-complex" size bold italic
  | .font_relief relief => some [set "style:font-relief" (relief.text)]
  | .text_position pos scale => some [set "style:text-position" (textPosition fl pos scale)]
  | .letter_kerning kerning => some [set "style:letter-kerning" (fmtBool kerning)]
  | .text_combine pos => some [set "style:text-combine" (pos.text)]
  | .text_combine_start_char c => some [set "style:text-combine-start-char" ([c])]
  | .text_combine_end_char c => some [set "style:text-combine-end-char" ([c])]
  | .text_emphasize emphasize position' => some [set "style:text-emphasize" (emphasize.text ++ ' ' :: position'.text)]
  | .text_line_through_color color' => some [set "style:text-line-through-color" (colorString color')]
  | .text_line_through_mode lmode => some [set "style:text-line-through-mode" (lmode.text)]
  | .text_line_through_style lstyle => some [set "style:text-line-through-style" (lstyle.text)]
  | .text_line_through_text text => some [set "style:text-line-through-text" (text)]
  | .text_line_through_text_style style_ref => some [set "style:text-line-through-text-style" (style_ref)]
  | .text_line_through_type ltype => some [set "style:text-line-through-type" (ltype.text)]
  | .text_line_through_width lwidth => some [set "style:text-line-through-width" (lwidth.text fl)]
  | .font_text_outline outline => some [set "style:text-outline" (fmtBool outline)]
  | .text_overline_color color' => some [set "style:text-overline-color" (colorString color')]
  | .text_overline_mode lmode => some [set "style:text-overline-mode" (lmode.text)]
  | .text_overline_style lstyle => some [set "style:text-overline-style" (lstyle.text)]
  | .text_overline_type ltype => some [set "style:text-overline-type" (ltype.text)]
  | .text_overline_width lwidth => some [set "style:text-overline-width" (lwidth.text fl)]
  | .text_underline_color color' => some [set "style:text-underline-color" (colorString color')]
  | .text_underline_mode lmode => some [set "style:text-underline-mode" (lmode.text)]
  | .text_underline_style lstyle => some [set "style:text-underline-style" (lstyle.text)]
  | .text_underline_type ltype => some [set "style:text-underline-type" (ltype.text)]
  | .text_underline_width lwidth => some [set "style:text-underline-width" (lwidth.text fl)]
  | .use_window_font_color window_color => some [set "style:use-window-font-color" (fmtBool window_color)]
  | .dynamic_spacing dynamic => some [set "style:dynamic-spacing" (fmtBool dynamic)]
  | .col_width width' => some (if width' = .default then [clear "style:column-width"] else [set "style:column-width" (fmtLength fl width')])
  | .rel_col_width rel => some [set "style:rel-column-width" (relWidthString fl rel)]
  | .use_optimal_col_width opt => some [set "style:use-optimal-column-width" (fmtBool opt)]
  | .font_family_generic font => some [set "style:font-family-generic" (font.text)]
  | .font_pitch pitch => some [set "style:font-pitch" (pitch.text)]
  | .first_page_number number => some [set "style:first-page-number" (decNat number)]
  | .footnote_max_height height' => some [set "style:footnote-max-height" (fmtLength fl height')]
  | .num_format format => some [set "style:num-format" (format.fmt)]
  | .num_letter_sync sync => some [set "style:num-letter-sync" (fmtBool sync)]
  | .num_prefix text => some [set "style:num-prefix" (text)]
  | .num_suffix text => some [set "style:num-suffix" (text)]
  | .paper_tray_name tray => some [set "style:paper-tray-name" (tray)]
  | .print print' => some [set "style:print" (spaced (print'.map PrintContent.text))]
  | .print_orientation orientation => some [set "style:print-orientation" (orientation.text)]
  | .print_page_order order => some [set "style:print-page-order" (order.text)]
  | .scale_to percent => some [set "style:scale-to" (percent.text fl)]
  | .scale_to_pages pages => some [set "style:scale-to-pages" (decNat pages)]
  | .table_centering center => some [set "style:table-centering" (center.text)]
  | .min_row_height min_height' => if min_height'.isPositive then some [set "style:min-row-height" (fmtLength fl min_height')] else none
  | .row_height height' => some [set "style:row-height" (fmtLength fl height')]
  | .use_optimal_row_height opt => some [set "style:use-optimal-row-height" (fmtBool opt)]
  | .may_break_between_rows br => some [set "style:may-break-between-rows" (fmtBool br)]
  | .rel_width rel_width' => some [set "style:rel-width" (rel_width'.text fl)]
  | .rel_height rel_height' => some [set "style:rel-height" (rel_height'.text fl)]
  | .width width' => some [set "style:width" (fmtLength fl width')]
  | .char c => some [set "style:char" ([c])]
  | .leader_color color' => some [set "style:leader-color" (colorString color')]
  | .leader_style style => some [set "style:leader-style" (style.text)]
  | .leader_text text => some [set "style:leader-text" ([text])]
  | .leader_text_style styleref => some [set "style:leader-text-style" (styleref)]
  | .leader_type t => some [set "style:leader-type" (t.text)]
  | .leader_width w => some [set "style:leader-width" (w.text fl)]
  | .position pos => some [set "style:position" (fmtLength fl pos)]
  | .type t => some [set "style:type" (t.text)]
  | .volatile volatile' => some [set "style:volatile" (fmtBool volatile')]
  | .display_name name => some [set "style:display-name" (name)]
  | .auto_update auto => some [set "style:auto-update" (fmtBool auto)]
  | .«class» text => some [set "style:class" (text)]
  | .parent_style name => some [set "style:parent-style-name" (name)]
  | .font_family name => some [set "svg:font-family" (name)]
  | .font_stretch stretch => some [set "svg:font-stretch" (stretch.text)]
  | .svg_font_style style => some [set "svg:font-style" (style.text)]
  | .svg_font_variant variant => some [set "svg:font-variant" (variant.text)]
  | .svg_font_weight weight => some [set "svg:font-weight" (weight.text)]
  | .height height' => some [set "svg:height" (fmtLength fl height')]
  | .svg_width width' => some [set "svg:width" (fmtLength fl width')]
  | .svg_x x => some [set "svg:x" (fmtLength fl x)]
  | .svg_y y => some [set "svg:y" (fmtLength fl y)]
  | .align align' => some [set "table:align" (align'.text)]
  | .border_model border' => some [set "table:border-model" (border'.text)]
  | .display display' => some [set "table:display" (fmtBool display')]
  | .tab_color color' => some [set "table:tab-color" (colorString color')]
  | .table_end_cell_address cellref => some [set "table:end-cell-address" (Refs.fmtCellRef cellref)]
  | .table_end_x x => some [set "table:end-x" (fmtLength fl x)]
  | .table_end_y y => some [set "table:end-y" (fmtLength fl y)]
  | .table_table_background is_bg => some [set "table:table-background" (fmtBool is_bg)]
  | .text_condition cond => some [set "text:condition" (cond.text)]
  | .text_display cond => some [set "text:display" (cond.text)]
  | .xlink_actuate actuate => some [set "xlink:actuate" (actuate.text)]
  | .xlink_href href => some [set "xlink:href" (href)]
  | .xlink_show v => some [set "xlink:show" (v.text)]
  | .xlink_type ty => some [set "xlink:type" (ty.text)]
  | .xml_id id => some [set "xml_id" (id)]

/-- The macro that defines the setter. -/
def Call.macroName : Call → Macro
  | .draw_caption_id _ => .draw_caption_id
  | .draw_name _ => .draw_name
  | .draw_class_names _ => .draw_class_names
  | .draw_corner_radius _ => .draw_corner_radius
  | .draw_id _ => .draw_id
  | .draw_layer _ => .draw_layer
  | .draw_style_name _ => .draw_style_name
  | .draw_text_style_name _ => .draw_text_style_name
  | .draw_transform _ => .draw_transform
  | .draw_z_index _ => .draw_z_index
  | .draw_caption_point_x _ => .draw_caption_point_x
  | .draw_caption_point_y _ => .draw_caption_point_y
  | .draw_copy_of _ => .draw_copy_of
  | .draw_filter_name _ => .draw_filter_name
  | .draw_mime_type _ => .draw_mime_type
  | .background_color _ => .fo_background_color
  | .border _ _ _ => .fo_border
  | .border_bottom _ _ _ => .fo_border
  | .border_left _ _ _ => .fo_border
  | .border_right _ _ _ => .fo_border
  | .border_top _ _ _ => .fo_border
  | .padding _ => .fo_padding
  | .padding_bottom _ => .fo_padding
  | .padding_left _ => .fo_padding
  | .padding_right _ => .fo_padding
  | .padding_top _ => .fo_padding
  | .wrap_option _ => .fo_wrap_option
  | .border_line_width _ _ _ => .fo_border_line_width
  | .border_line_width_bottom _ _ _ => .fo_border_line_width
  | .border_line_width_left _ _ _ => .fo_border_line_width
  | .border_line_width_right _ _ _ => .fo_border_line_width
  | .border_line_width_top _ _ _ => .fo_border_line_width
  | .break_before _ => .fo_break
  | .break_after _ => .fo_break
  | .hyphenation_keep _ => .fo_hyphenation
  | .hyphenation_ladder_count _ => .fo_hyphenation
  | .keep_together _ => .fo_keep_together
  | .keep_with_next _ => .fo_keep_with_next
  | .line_height _ => .fo_line_height
  | .margin _ => .fo_margin
  | .margin_bottom _ => .fo_margin
  | .margin_left _ => .fo_margin
  | .margin_right _ => .fo_margin
  | .margin_top _ => .fo_margin
  | .orphans _ => .fo_orphans
  | .text_align _ => .fo_text_align
  | .text_align_last _ => .fo_text_align_last
  | .text_indent _ => .fo_text_indent
  | .widows _ => .fo_widows
  | .color _ => .fo_color
  | .locale _ => .fo_locale
  | .font_size _ => .fo_font_size
  | .font_size_rel _ => .fo_font_size_rel
  | .font_style _ => .fo_font_style
  | .font_italic => .fo_font_style
  | .font_weight _ => .fo_font_weight
  | .font_bold => .fo_font_weight
  | .font_variant _ => .fo_font_variant
  | .font_attr _ _ _ => .fo_font_attr
  | .hyphenate _ => .fo_hyphenate
  | .hyphenation_push_char_count _ => .fo_hyphenation_push_char_count
  | .hyphenation_remain_char_count _ => .fo_hyphenation_remain_char_count
  | .letter_spacing _ => .fo_letter_spacing
  | .text_shadow _ _ _ _ => .fo_text_shadow
  | .text_transform _ => .fo_text_transform
  | .min_height _ => .fo_min_height
  | .page_height _ => .fo_page_height
  | .page_width _ => .fo_page_width
  | .default_outline_level _ => .style_default_outline_level
  | .master_page _ => .style_master_page
  | .next_style _ => .style_next_style
  | .cell_protect _ => .style_cell_protect
  | .decimal_places _ => .style_decimal_places
  | .diagonal_bl_tr _ _ _ => .style_diagonal
  | .diagonal_bl_tr_widths _ _ _ => .style_diagonal
  | .diagonal_tl_br _ _ _ => .style_diagonal
  | .diagonal_tl_br_widths _ _ _ => .style_diagonal
  | .direction _ => .style_direction
  | .glyph_orientation_vertical _ => .style_glyph_orientation_vertical
  | .print_content _ => .style_print_content
  | .repeat_content _ => .style_repeat_content
  | .rotation_align _ => .style_rotation_align
  | .rotation_scale _ => .style_rotation_scale
  | .rotation_angle _ => .style_rotation_angle
  | .shadow _ _ _ _ => .style_shadow
  | .shrink_to_fit _ => .style_shrink_to_fit
  | .text_align_source _ => .style_text_align_source
  | .vertical_align _ => .style_vertical_align
  | .auto_text_indent _ => .style_auto_text_indent
  | .background_transpareny _ => .style_background_transparency
  | .contextual_spacing _ => .style_contextual_spacing
  | .font_independent_line_spacing _ => .style_font_independent_line_spacing
  | .join_border _ => .style_join_border
  | .justify_single_word _ => .style_justify_single_word
  | .line_break _ => .style_line_break
  | .line_height_at_least _ => .style_line_height_at_least
  | .line_spacing _ => .style_line_spacing
  | .page_number _ => .style_page_number
  | .punctuation_wrap _ => .style_punctuation_wrap
  | .register_true _ => .style_register_true
  | .snap_to_layout_grid _ => .style_snap_to_layout_grid
  | .tab_stop_distance _ => .style_tab_stop_distance
  | .text_autospace _ => .style_text_autospace
  | .vertical_align_para _ => .style_vertical_align_para
  | .writing_mode _ => .style_writing_mode
  | .writing_mode_automatic _ => .style_writing_mode_automatic
  | .line_number _ => .style_line_number
  | .number_lines _ => .style_number_lines
  | .font_name _ => .style_font_name
  | .locale_asian _ => .style_locale_asian
  | .font_name_asian _ => .style_font_name_asian
  | .font_size_asian _ => .style_font_size_asian
  | .font_size_rel_asian _ => .style_font_size_rel_asian
  | .font_style_asian _ => .style_font_style_asian
  | .font_italic_asian => .style_font_style_asian
  | .font_weight_asian _ => .style_font_weight_asian
  | .font_bold_asian => .style_font_weight_asian
  | .font_attr_asian _ _ _ => .style_font_attr_asian
  | .locale_complex _ => .style_locale_complex
  | .font_name_complex _ => .style_font_name_complex
  | .font_size_complex _ => .style_font_size_complex
  | .font_size_rel_complex _ => .style_font_size_rel_complex
  | .font_style_complex _ => .style_font_style_complex
  | .font_italic_complex => .style_font_style_complex
  | .font_weight_complex _ => .style_font_weight_complex
  | .font_bold_complex => .style_font_weight_complex
  | .font_attr_complex _ _ _ => .style_font_attr_complex
  | .font_relief _ => .style_font_relief
  | .text_position _ _ => .style_text_position
  | .letter_kerning _ => .style_letter_kerning
  | .text_combine _ => .style_text_combine
  | .text_combine_start_char _ => .style_text_combine_start_char
  | .text_combine_end_char _ => .style_text_combine_end_char
  | .text_emphasize _ _ => .style_text_emphasize
  | .text_line_through_color _ => .style_text_line_through
  | .text_line_through_mode _ => .style_text_line_through
  | .text_line_through_style _ => .style_text_line_through
  | .text_line_through_text _ => .style_text_line_through
  | .text_line_through_text_style _ => .style_text_line_through
  | .text_line_through_type _ => .style_text_line_through
  | .text_line_through_width _ => .style_text_line_through
  | .font_text_outline _ => .style_text_outline
  | .text_overline_color _ => .style_text_overline
  | .text_overline_mode _ => .style_text_overline
  | .text_overline_style _ => .style_text_overline
  | .text_overline_type _ => .style_text_overline
  | .text_overline_width _ => .style_text_overline
  | .text_underline_color _ => .style_text_underline
  | .text_underline_mode _ => .style_text_underline
  | .text_underline_style _ => .style_text_underline
  | .text_underline_type _ => .style_text_underline
  | .text_underline_width _ => .style_text_underline
  | .use_window_font_color _ => .style_use_window_font_color
  | .dynamic_spacing _ => .style_dynamic_spacing
  | .col_width _ => .style_column_width
  | .rel_col_width _ => .style_rel_column_width
  | .use_optimal_col_width _ => .style_use_optimal_column_width
  | .font_family_generic _ => .style_font_family_generic
  | .font_pitch _ => .style_font_pitch
  | .first_page_number _ => .style_first_page_number
  | .footnote_max_height _ => .style_footnote_max_height
  | .num_format _ => .style_num_format
  | .num_letter_sync _ => .style_num_letter_sync
  | .num_prefix _ => .style_num_prefix
  | .num_suffix _ => .style_num_suffix
  | .paper_tray_name _ => .style_paper_tray_name
  | .print _ => .style_print
  | .print_orientation _ => .style_print_orientation
  | .print_page_order _ => .style_print_page_order
  | .scale_to _ => .style_scale_to
  | .scale_to_pages _ => .style_scale_to_pages
  | .table_centering _ => .style_table_centering
  | .min_row_height _ => .style_min_row_height
  | .row_height _ => .style_row_height
  | .use_optimal_row_height _ => .style_use_optimal_row_height
  | .may_break_between_rows _ => .style_may_break_between_rows
  | .rel_width _ => .style_rel_width
  | .rel_height _ => .style_rel_height
  | .width _ => .style_width
  | .char _ => .style_char
  | .leader_color _ => .style_leader_color
  | .leader_style _ => .style_leader_style
  | .leader_text _ => .style_leader_text
  | .leader_text_style _ => .style_leader_text_style
  | .leader_type _ => .style_leader_type
  | .leader_width _ => .style_leader_width
  | .position _ => .style_position
  | .type _ => .style_type
  | .volatile _ => .style_volatile
  | .display_name _ => .style_display_name
  | .auto_update _ => .style_auto_update
  | .«class» _ => .style_class
  | .parent_style _ => .style_parent_style_name
  | .font_family _ => .svg_font_family
  | .font_stretch _ => .svg_font_stretch
  | .svg_font_style _ => .svg_font_style
  | .svg_font_variant _ => .svg_font_variant
  | .svg_font_weight _ => .svg_font_weight
  | .height _ => .svg_height
  | .svg_width _ => .svg_width
  | .svg_x _ => .svg_x
  | .svg_y _ => .svg_y
  | .align _ => .table_align
  | .border_model _ => .table_border_model
  | .display _ => .table_display
  | .tab_color _ => .table_tab_color
  | .table_end_cell_address _ => .table_end_cell_address
  | .table_end_x _ => .table_end_x
  | .table_end_y _ => .table_end_y
  | .table_table_background _ => .table_table_background
  | .text_condition _ => .text_condition
  | .text_display _ => .text_display
  | .xlink_actuate _ => .xlink_actuate
  | .xlink_href _ => .xlink_href
  | .xlink_show _ => .xlink_show
  | .xlink_type _ => .xlink_type
  | .xml_id _ => .xml_id

/-- The name of the setter. -/
def Call.name : Call → String
  | .draw_caption_id _ => "set_draw_caption_id"
  | .draw_name _ => "set_draw_name"
  | .draw_class_names _ => "set_draw_class_names"
  | .draw_corner_radius _ => "set_draw_corner_radius"
  | .draw_id _ => "set_draw_id"
  | .draw_layer _ => "set_draw_layer"
  | .draw_style_name _ => "set_draw_style_name"
  | .draw_text_style_name _ => "set_draw_text_style_name"
  | .draw_transform _ => "set_draw_transform"
  | .draw_z_index _ => "set_draw_z_index"
  | .draw_caption_point_x _ => "set_draw_caption_point_x"
  | .draw_caption_point_y _ => "set_draw_caption_point_y"
  | .draw_copy_of _ => "set_draw_copy_of"
  | .draw_filter_name _ => "set_draw_filter_name"
  | .draw_mime_type _ => "set_draw_mime_type"
  | .background_color _ => "set_background_color"
  | .border _ _ _ => "set_border"
  | .border_bottom _ _ _ => "set_border_bottom"
  | .border_left _ _ _ => "set_border_left"
  | .border_right _ _ _ => "set_border_right"
  | .border_top _ _ _ => "set_border_top"
  | .padding _ => "set_padding"
  | .padding_bottom _ => "set_padding_bottom"
  | .padding_left _ => "set_padding_left"
  | .padding_right _ => "set_padding_right"
  | .padding_top _ => "set_padding_top"
  | .wrap_option _ => "set_wrap_option"
  | .border_line_width _ _ _ => "set_border_line_width"
  | .border_line_width_bottom _ _ _ => "set_border_line_width_bottom"
  | .border_line_width_left _ _ _ => "set_border_line_width_left"
  | .border_line_width_right _ _ _ => "set_border_line_width_right"
  | .border_line_width_top _ _ _ => "set_border_line_width_top"
  | .break_before _ => "set_break_before"
  | .break_after _ => "set_break_after"
  | .hyphenation_keep _ => "set_hyphenation_keep"
  | .hyphenation_ladder_count _ => "set_hyphenation_ladder_count"
  | .keep_together _ => "set_keep_together"
  | .keep_with_next _ => "set_keep_with_next"
  | .line_height _ => "set_line_height"
  | .margin _ => "set_margin"
  | .margin_bottom _ => "set_margin_bottom"
  | .margin_left _ => "set_margin_left"
  | .margin_right _ => "set_margin_right"
  | .margin_top _ => "set_margin_top"
  | .orphans _ => "set_orphans"
  | .text_align _ => "set_text_align"
  | .text_align_last _ => "set_text_align_last"
  | .text_indent _ => "set_text_indent"
  | .widows _ => "set_widows"
  | .color _ => "set_color"
  | .locale _ => "set_locale"
  | .font_size _ => "set_font_size"
  | .font_size_rel _ => "set_font_size_rel"
  | .font_style _ => "set_font_style"
  | .font_italic => "set_font_italic"
  | .font_weight _ => "set_font_weight"
  | .font_bold => "set_font_bold"
  | .font_variant _ => "set_font_variant"
  | .font_attr _ _ _ => "set_font_attr"
  | .hyphenate _ => "set_hyphenate"
  | .hyphenation_push_char_count _ => "set_hyphenation_push_char_count"
  | .hyphenation_remain_char_count _ => "set_hyphenation_remain_char_count"
  | .letter_spacing _ => "set_letter_spacing"
  | .text_shadow _ _ _ _ => "set_text_shadow"
  | .text_transform _ => "set_text_transform"
  | .min_height _ => "set_min_height"
  | .page_height _ => "set_page_height"
  | .page_width _ => "set_page_width"
  | .default_outline_level _ => "set_default_outline_level"
  | .master_page _ => "set_master_page"
  | .next_style _ => "set_next_style"
  | .cell_protect _ => "set_cell_protect"
  | .decimal_places _ => "set_decimal_places"
  | .diagonal_bl_tr _ _ _ => "set_diagonal_bl_tr"
  | .diagonal_bl_tr_widths _ _ _ => "set_diagonal_bl_tr_widths"
  | .diagonal_tl_br _ _ _ => "set_diagonal_tl_br"
  | .diagonal_tl_br_widths _ _ _ => "set_diagonal_tl_br_widths"
  | .direction _ => "set_direction"
  | .glyph_orientation_vertical _ => "set_glyph_orientation_vertical"
  | .print_content _ => "set_print_content"
  | .repeat_content _ => "set_repeat_content"
  | .rotation_align _ => "set_rotation_align"
  | .rotation_scale _ => "set_rotation_scale"
  | .rotation_angle _ => "set_rotation_angle"
  | .shadow _ _ _ _ => "set_shadow"
  | .shrink_to_fit _ => "set_shrink_to_fit"
  | .text_align_source _ => "set_text_align_source"
  | .vertical_align _ => "set_vertical_align"
  | .auto_text_indent _ => "set_auto_text_indent"
  | .background_transpareny _ => "set_background_transpareny"
  | .contextual_spacing _ => "set_contextual_spacing"
  | .font_independent_line_spacing _ => "set_font_independent_line_spacing"
  | .join_border _ => "set_join_border"
  | .justify_single_word _ => "set_justify_single_word"
  | .line_break _ => "set_line_break"
  | .line_height_at_least _ => "set_line_height_at_least"
  | .line_spacing _ => "set_line_spacing"
  | .page_number _ => "set_page_number"
  | .punctuation_wrap _ => "set_punctuation_wrap"
  | .register_true _ => "set_register_true"
  | .snap_to_layout_grid _ => "set_snap_to_layout_grid"
  | .tab_stop_distance _ => "set_tab_stop_distance"
  | .text_autospace _ => "set_text_autospace"
  | .vertical_align_para _ => "set_vertical_align_para"
  | .writing_mode _ => "set_writing_mode"
  | .writing_mode_automatic _ => "set_writing_mode_automatic"
  | .line_number _ => "set_line_number"
  | .number_lines _ => "set_number_lines"
  | .font_name _ => "set_font_name"
  | .locale_asian _ => "set_locale_asian"
  | .font_name_asian _ => "set_font_name_asian"
  | .font_size_asian _ => "set_font_size_asian"
  | .font_size_rel_asian _ => "set_font_size_rel_asian"
  | .font_style_asian _ => "set_font_style_asian"
  | .font_italic_asian => "set_font_italic_asian"
  | .font_weight_asian _ => "set_font_weight_asian"
  | .font_bold_asian => "set_font_bold_asian"
  | .font_attr_asian _ _ _ => "set_font_attr_asian"
  | .locale_complex _ => "set_locale_complex"
  | .font_name_complex _ => "set_font_name_complex"
  | .font_size_complex _ => "set_font_size_complex"
  | .font_size_rel_complex _ => "set_font_size_rel_complex"
  | .font_style_complex _ => "set_font_style_complex"
  | .font_italic_complex => "set_font_italic_complex"
  | .font_weight_complex _ => "set_font_weight_complex"
  | .font_bold_complex => "set_font_bold_complex"
  | .font_attr_complex _ _ _ => "set_font_attr_complex"
  | .font_relief _ => "set_font_relief"
  | .text_position _ _ => "set_text_position"
  | .letter_kerning _ => "set_letter_kerning"
  | .text_combine _ => "set_text_combine"
  | .text_combine_start_char _ => "set_text_combine_start_char"
  | .text_combine_end_char _ => "set_text_combine_end_char"
  | .text_emphasize _ _ => "set_text_emphasize"
  | .text_line_through_color _ => "set_text_line_through_color"
  | .text_line_through_mode _ => "set_text_line_through_mode"
  | .text_line_through_style _ => "set_text_line_through_style"
  | .text_line_through_text _ => "set_text_line_through_text"
  | .text_line_through_text_style _ => "set_text_line_through_text_style"
  | .text_line_through_type _ => "set_text_line_through_type"
  | .text_line_through_width _ => "set_text_line_through_width"
  | .font_text_outline _ => "set_font_text_outline"
  | .text_overline_color _ => "set_text_overline_color"
  | .text_overline_mode _ => "set_text_overline_mode"
  | .text_overline_style _ => "set_text_overline_style"
  | .text_overline_type _ => "set_text_overline_type"
  | .text_overline_width _ => "set_text_overline_width"
  | .text_underline_color _ => "set_text_underline_color"
  | .text_underline_mode _ => "set_text_underline_mode"
  | .text_underline_style _ => "set_text_underline_style"
  | .text_underline_type _ => "set_text_underline_type"
  | .text_underline_width _ => "set_text_underline_width"
  | .use_window_font_color _ => "set_use_window_font_color"
  | .dynamic_spacing _ => "set_dynamic_spacing"
  | .col_width _ => "set_col_width"
  | .rel_col_width _ => "set_rel_col_width"
  | .use_optimal_col_width _ => "set_use_optimal_col_width"
  | .font_family_generic _ => "set_font_family_generic"
  | .font_pitch _ => "set_font_pitch"
  | .first_page_number _ => "set_first_page_number"
  | .footnote_max_height _ => "set_footnote_max_height"
  | .num_format _ => "set_num_format"
  | .num_letter_sync _ => "set_num_letter_sync"
  | .num_prefix _ => "set_num_prefix"
  | .num_suffix _ => "set_num_suffix"
  | .paper_tray_name _ => "set_paper_tray_name"
  | .print _ => "set_print"
  | .print_orientation _ => "set_print_orientation"
  | .print_page_order _ => "set_print_page_order"
  | .scale_to _ => "set_scale_to"
  | .scale_to_pages _ => "set_scale_to_pages"
  | .table_centering _ => "set_table_centering"
  | .min_row_height _ => "set_min_row_height"
  | .row_height _ => "set_row_height"
  | .use_optimal_row_height _ => "set_use_optimal_row_height"
  | .may_break_between_rows _ => "set_may_break_between_rows"
  | .rel_width _ => "set_rel_width"
  | .rel_height _ => "set_rel_height"
  | .width _ => "set_width"
  | .char _ => "set_char"
  | .leader_color _ => "set_leader_color"
  | .leader_style _ => "set_leader_style"
  | .leader_text _ => "set_leader_text"
  | .leader_text_style _ => "set_leader_text_style"
  | .leader_type _ => "set_leader_type"
  | .leader_width _ => "set_leader_width"
  | .position _ => "set_position"
  | .type _ => "set_type"
  | .volatile _ => "set_volatile"
  | .display_name _ => "set_display_name"
  | .auto_update _ => "set_auto_update"
  | .«class» _ => "set_class"
  | .parent_style _ => "set_parent_style"
  | .font_family _ => "set_font_family"
  | .font_stretch _ => "set_font_stretch"
  | .svg_font_style _ => "set_font_style"
  | .svg_font_variant _ => "set_font_variant"
  | .svg_font_weight _ => "set_font_weight"
  | .height _ => "set_height"
  | .svg_width _ => "set_width"
  | .svg_x _ => "svg_x"
  | .svg_y _ => "svg_y"
  | .align _ => "set_align"
  | .border_model _ => "set_border_model"
  | .display _ => "set_display"
  | .tab_color _ => "set_tab_color"
  | .table_end_cell_address _ => "set_table_end_cell_address"
  | .table_end_x _ => "set_table_end_x"
  | .table_end_y _ => "set_table_end_y"
  | .table_table_background _ => "set_table_table_background"
  | .text_condition _ => "set_text_condition"
  | .text_display _ => "set_display"
  | .xlink_actuate _ => "set_xlink_actuate"
  | .xlink_href _ => "set_xlink_href"
  | .xlink_show _ => "set_xlink_show"
  | .xlink_type _ => "set_xlink_type"
  | .xml_id _ => "set_xml_id"

/-- The macros that define the setters of `CellStyle`, src/style/cellstyle.rs:171-283, and of
`styles_styles2!`, src/macro_style.rs:38-41, with the map they work on. -/
def cellMacros : List (Macro × Part) :=
  [(.fo_background_color, .own), (.fo_border, .own), (.fo_padding, .own), (.fo_wrap_option, .own),
   (.fo_border_line_width, .own), (.style_cell_protect, .own), (.style_decimal_places, .own),
   (.style_diagonal, .own), (.style_direction, .own), (.style_glyph_orientation_vertical, .own),
   (.style_print_content, .own), (.style_repeat_content, .own), (.style_rotation_align, .own),
   (.style_rotation_angle, .own), (.style_shadow, .own), (.style_shrink_to_fit, .own),
   (.style_text_align_source, .own), (.style_vertical_align, .own), (.style_writing_mode, .own),
   (.fo_break, .paragraph), (.fo_hyphenation, .paragraph), (.fo_keep_together, .paragraph),
   (.fo_keep_with_next, .paragraph), (.fo_line_height, .paragraph), (.fo_margin, .paragraph),
   (.fo_orphans, .paragraph), (.fo_text_align, .paragraph), (.fo_text_align_last, .paragraph),
   (.fo_text_indent, .paragraph), (.fo_widows, .paragraph), (.style_auto_text_indent, .paragraph),
   (.style_background_transparency, .paragraph), (.style_contextual_spacing, .paragraph),
   (.style_font_independent_line_spacing, .paragraph), (.style_join_border, .paragraph),
   (.style_justify_single_word, .paragraph), (.style_line_break, .paragraph),
   (.style_line_height_at_least, .paragraph), (.style_line_spacing, .paragraph),
   (.style_page_number, .paragraph), (.style_punctuation_wrap, .paragraph), (.style_register_true, .paragraph),
   (.style_snap_to_layout_grid, .paragraph), (.style_tab_stop_distance, .paragraph),
   (.style_text_autospace, .paragraph), (.style_vertical_align_para, .paragraph),
   (.style_writing_mode_automatic, .paragraph), (.style_line_number, .paragraph),
   (.style_number_lines, .paragraph), (.fo_color, .text), (.fo_locale, .text), (.style_font_name, .text),
   (.fo_font_size, .text), (.fo_font_size_rel, .text), (.fo_font_style, .text), (.fo_font_weight, .text),
   (.fo_font_variant, .text), (.fo_font_attr, .text), (.style_locale_asian, .text),
   (.style_font_name_asian, .text), (.style_font_size_asian, .text), (.style_font_size_rel_asian, .text),
   (.style_font_style_asian, .text), (.style_font_weight_asian, .text), (.style_font_attr_asian, .text),
   (.style_locale_complex, .text), (.style_font_name_complex, .text), (.style_font_size_complex, .text),
   (.style_font_size_rel_complex, .text), (.style_font_style_complex, .text),
   (.style_font_weight_complex, .text), (.style_font_attr_complex, .text), (.fo_hyphenate, .text),
   (.fo_hyphenation_push_char_count, .text), (.fo_hyphenation_remain_char_count, .text),
   (.fo_letter_spacing, .text), (.fo_text_shadow, .text), (.fo_text_transform, .text),
   (.style_font_relief, .text), (.style_text_position, .text), (.style_letter_kerning, .text),
   (.style_text_combine, .text), (.style_text_combine_start_char, .text), (.style_text_combine_end_char, .text),
   (.style_text_emphasize, .text), (.style_text_line_through, .text), (.style_text_outline, .text),
   (.style_text_overline, .text), (.style_text_underline, .text), (.style_use_window_font_color, .text),
   (.text_condition, .text), (.text_display, .text)] ++ baseMacros

/-- The macros that define the setters of `ColStyle`, src/style/colstyle.rs:77-80, and of
`styles_styles2!`, src/macro_style.rs:38-41, with the map they work on. -/
def colMacros : List (Macro × Part) :=
  [(.fo_break, .own), (.style_column_width, .own), (.style_rel_column_width, .own),
   (.style_use_optimal_column_width, .own)] ++ baseMacros

/-- The macros that define the setters of `RowStyle`, src/style/rowstyle.rs:77-82, and of
`styles_styles2!`, src/macro_style.rs:38-41, with the map they work on. -/
def rowMacros : List (Macro × Part) :=
  [(.fo_background_color, .own), (.fo_break, .own), (.fo_keep_together, .own), (.style_min_row_height, .own),
   (.style_row_height, .own), (.style_use_optimal_row_height, .own)] ++ baseMacros

/-- The macros that define the setters of `TableStyle`, src/style/tablestyle.rs:55-91, and of
`styles_styles2!`, src/macro_style.rs:38-41, with the map they work on. -/
def tableMacros : List (Macro × Part) :=
  [(.style_master_page, .attr), (.fo_background_color, .own), (.fo_break, .own), (.fo_keep_with_next, .own),
   (.fo_margin, .own), (.style_may_break_between_rows, .own), (.style_page_number, .own),
   (.style_rel_width, .own), (.style_width, .own), (.style_shadow, .own), (.style_writing_mode, .own),
   (.table_align, .own), (.table_border_model, .own), (.table_display, .own), (.table_tab_color, .own)] ++ baseMacros

/-- The macros that define the setters of `ParagraphStyle`, src/style/paragraphstyle.rs:106-206, and of
`styles_styles2!`, src/macro_style.rs:38-41, with the map they work on. -/
def paragraphMacros : List (Macro × Part) :=
  [(.style_default_outline_level, .attr), (.style_master_page, .attr), (.style_next_style, .attr),
   (.fo_background_color, .paragraph), (.fo_border, .paragraph), (.fo_break, .paragraph),
   (.fo_hyphenation, .paragraph), (.fo_keep_together, .paragraph), (.fo_keep_with_next, .paragraph),
   (.fo_line_height, .paragraph), (.fo_margin, .paragraph), (.fo_orphans, .paragraph),
   (.fo_padding, .paragraph), (.fo_text_align, .paragraph), (.fo_text_align_last, .paragraph),
   (.fo_text_indent, .paragraph), (.fo_widows, .paragraph), (.style_auto_text_indent, .paragraph),
   (.style_background_transparency, .paragraph), (.fo_border_line_width, .paragraph),
   (.style_contextual_spacing, .paragraph), (.style_font_independent_line_spacing, .paragraph),
   (.style_join_border, .paragraph), (.style_justify_single_word, .paragraph), (.style_line_break, .paragraph),
   (.style_line_height_at_least, .paragraph), (.style_line_spacing, .paragraph),
   (.style_page_number, .paragraph), (.style_punctuation_wrap, .paragraph), (.style_register_true, .paragraph),
   (.style_shadow, .paragraph), (.style_snap_to_layout_grid, .paragraph),
   (.style_tab_stop_distance, .paragraph), (.style_text_autospace, .paragraph),
   (.style_vertical_align_para, .paragraph), (.style_writing_mode, .paragraph),
   (.style_writing_mode_automatic, .paragraph), (.style_line_number, .paragraph),
   (.style_number_lines, .paragraph), (.fo_color, .text), (.fo_locale, .text), (.style_font_name, .text),
   (.fo_font_size, .text), (.fo_font_size_rel, .text), (.fo_font_style, .text), (.fo_font_weight, .text),
   (.fo_font_variant, .text), (.fo_font_attr, .text), (.style_locale_asian, .text),
   (.style_font_name_asian, .text), (.style_font_size_asian, .text), (.style_font_size_rel_asian, .text),
   (.style_font_style_asian, .text), (.style_font_weight_asian, .text), (.style_font_attr_asian, .text),
   (.style_locale_complex, .text), (.style_font_name_complex, .text), (.style_font_size_complex, .text),
   (.style_font_size_rel_complex, .text), (.style_font_style_complex, .text),
   (.style_font_weight_complex, .text), (.style_font_attr_complex, .text), (.fo_hyphenate, .text),
   (.fo_hyphenation_push_char_count, .text), (.fo_hyphenation_remain_char_count, .text),
   (.fo_letter_spacing, .text), (.fo_text_shadow, .text), (.fo_text_transform, .text),
   (.style_font_relief, .text), (.style_text_position, .text), (.style_rotation_scale, .text),
   (.style_letter_kerning, .text), (.style_text_combine, .text), (.style_text_combine_start_char, .text),
   (.style_text_combine_end_char, .text), (.style_text_emphasize, .text), (.style_text_line_through, .text),
   (.style_text_outline, .text), (.style_text_overline, .text), (.style_text_underline, .text),
   (.style_use_window_font_color, .text), (.text_condition, .text), (.text_display, .text)] ++ baseMacros

/-- The macros that define the setters of `TextStyle`, src/style/textstyle.rs:78-123, and of
`styles_styles2!`, src/macro_style.rs:38-41, with the map they work on. -/
def textMacros : List (Macro × Part) :=
  [(.fo_background_color, .text), (.fo_color, .text), (.fo_locale, .text), (.style_font_name, .text),
   (.fo_font_size, .text), (.fo_font_size_rel, .text), (.fo_font_style, .text), (.fo_font_weight, .text),
   (.fo_font_variant, .text), (.fo_font_attr, .text), (.style_locale_asian, .text),
   (.style_font_name_asian, .text), (.style_font_size_asian, .text), (.style_font_size_rel_asian, .text),
   (.style_font_style_asian, .text), (.style_font_weight_asian, .text), (.style_font_attr_asian, .text),
   (.style_locale_complex, .text), (.style_font_name_complex, .text), (.style_font_size_complex, .text),
   (.style_font_size_rel_complex, .text), (.style_font_style_complex, .text),
   (.style_font_weight_complex, .text), (.style_font_attr_complex, .text), (.fo_hyphenate, .text),
   (.fo_hyphenation_push_char_count, .text), (.fo_hyphenation_remain_char_count, .text),
   (.fo_letter_spacing, .text), (.fo_text_shadow, .text), (.fo_text_transform, .text),
   (.style_font_relief, .text), (.style_text_position, .text), (.style_rotation_angle, .text),
   (.style_rotation_scale, .text), (.style_letter_kerning, .text), (.style_text_combine, .text),
   (.style_text_combine_start_char, .text), (.style_text_combine_end_char, .text),
   (.style_text_emphasize, .text), (.style_text_line_through, .text), (.style_text_outline, .text),
   (.style_text_overline, .text), (.style_text_underline, .text), (.style_use_window_font_color, .text),
   (.text_condition, .text), (.text_display, .text)] ++ baseMacros

/-- The macros that define the setters of `GraphicStyle`, src/style/graphicstyle.rs:111-196, and of
`styles_styles2!`, src/macro_style.rs:38-41, with the map they work on. -/
def graphicMacros : List (Macro × Part) :=
  [(.fo_background_color, .paragraph), (.fo_border, .paragraph), (.fo_break, .paragraph),
   (.fo_hyphenation, .paragraph), (.fo_keep_together, .paragraph), (.fo_keep_with_next, .paragraph),
   (.fo_line_height, .paragraph), (.fo_margin, .paragraph), (.fo_orphans, .paragraph),
   (.fo_padding, .paragraph), (.fo_text_align, .paragraph), (.fo_text_align_last, .paragraph),
   (.fo_text_indent, .paragraph), (.fo_widows, .paragraph), (.style_auto_text_indent, .paragraph),
   (.style_background_transparency, .paragraph), (.fo_border_line_width, .paragraph),
   (.style_contextual_spacing, .paragraph), (.style_font_independent_line_spacing, .paragraph),
   (.style_join_border, .paragraph), (.style_justify_single_word, .paragraph), (.style_line_break, .paragraph),
   (.style_line_height_at_least, .paragraph), (.style_line_spacing, .paragraph),
   (.style_page_number, .paragraph), (.style_punctuation_wrap, .paragraph), (.style_register_true, .paragraph),
   (.style_shadow, .paragraph), (.style_snap_to_layout_grid, .paragraph),
   (.style_tab_stop_distance, .paragraph), (.style_text_autospace, .paragraph),
   (.style_vertical_align_para, .paragraph), (.style_writing_mode, .paragraph),
   (.style_writing_mode_automatic, .paragraph), (.style_line_number, .paragraph),
   (.style_number_lines, .paragraph), (.fo_color, .text), (.fo_locale, .text), (.style_font_name, .text),
   (.fo_font_size, .text), (.fo_font_size_rel, .text), (.fo_font_style, .text), (.fo_font_weight, .text),
   (.fo_font_variant, .text), (.fo_font_attr, .text), (.style_locale_asian, .text),
   (.style_font_name_asian, .text), (.style_font_size_asian, .text), (.style_font_size_rel_asian, .text),
   (.style_font_style_asian, .text), (.style_font_weight_asian, .text), (.style_font_attr_asian, .text),
   (.style_locale_complex, .text), (.style_font_name_complex, .text), (.style_font_size_complex, .text),
   (.style_font_size_rel_complex, .text), (.style_font_style_complex, .text),
   (.style_font_weight_complex, .text), (.style_font_attr_complex, .text), (.fo_hyphenate, .text),
   (.fo_hyphenation_push_char_count, .text), (.fo_hyphenation_remain_char_count, .text),
   (.fo_letter_spacing, .text), (.fo_text_shadow, .text), (.fo_text_transform, .text),
   (.style_font_relief, .text), (.style_text_position, .text), (.style_rotation_scale, .text),
   (.style_letter_kerning, .text), (.style_text_combine, .text), (.style_text_combine_start_char, .text),
   (.style_text_combine_end_char, .text), (.style_text_emphasize, .text), (.style_text_line_through, .text),
   (.style_text_outline, .text), (.style_text_overline, .text), (.style_text_underline, .text),
   (.style_use_window_font_color, .text), (.text_condition, .text), (.text_display, .text)] ++ baseMacros

/-- The macros that define the setters of `RubyStyle`, src/style/ruby.rs, and of
`styles_styles2!`, src/macro_style.rs:38-41, with the map they work on. -/
def rubyMacros : List (Macro × Part) :=
  [] ++ baseMacros

/-- The macros that define the setters of `PageStyle`, src/style/pagestyle.rs:128-150, with the map they work on. -/
def pageMacros : List (Macro × Part) :=
  [(.fo_page_height, .own), (.fo_page_width, .own), (.style_first_page_number, .own),
   (.style_footnote_max_height, .own), (.style_num_format, .own), (.style_num_letter_sync, .own),
   (.style_num_prefix, .own), (.style_num_suffix, .own), (.style_paper_tray_name, .own), (.style_print, .own),
   (.style_print_orientation, .own), (.style_print_page_order, .own), (.style_scale_to, .own),
   (.style_scale_to_pages, .own), (.style_table_centering, .own), (.style_writing_mode, .own),
   (.fo_background_color, .own), (.fo_border, .own), (.fo_border_line_width, .own), (.fo_margin, .own),
   (.fo_padding, .own), (.style_dynamic_spacing, .own), (.style_shadow, .own)]

/-- The macros that define the setters of `HeaderFooterStyle`, src/style/pagestyle.rs:170-178, with the map they work on. -/
def headerFooterMacros : List (Macro × Part) :=
  [(.fo_background_color, .own), (.fo_border, .own), (.fo_margin, .own), (.fo_min_height, .own),
   (.fo_padding, .own), (.fo_border_line_width, .own), (.style_dynamic_spacing, .own), (.style_shadow, .own),
   (.svg_height, .own)]

/-- The macros that define the setters of `FontFaceDecl`, src/style/fontface.rs:92-98, with the map they work on. -/
def fontFaceMacros : List (Macro × Part) :=
  [(.style_font_family_generic, .attr), (.style_font_pitch, .attr), (.svg_font_family, .attr),
   (.svg_font_stretch, .attr), (.svg_font_style, .attr), (.svg_font_variant, .attr), (.svg_font_weight, .attr)]

/-- The macros that define the setters of `TabStop`, src/style/tabstop.rs:40-48, with the map they work on. -/
def tabStopMacros : List (Macro × Part) :=
  [(.style_char, .attr), (.style_leader_color, .attr), (.style_leader_style, .attr),
   (.style_leader_text, .attr), (.style_leader_text_style, .attr), (.style_leader_type, .attr),
   (.style_leader_width, .attr), (.style_position, .attr), (.style_type, .attr)]

/-- The macros that define the setters of `Annotation`, src/draw.rs:137-155, with the map they work on. -/
def annotationMacros : List (Macro × Part) :=
  [(.draw_caption_point_x, .attr), (.draw_caption_point_y, .attr), (.draw_class_names, .attr),
   (.draw_corner_radius, .attr), (.draw_id, .attr), (.draw_layer, .attr), (.draw_style_name, .attr),
   (.draw_text_style_name, .attr), (.draw_transform, .attr), (.draw_z_index, .attr), (.svg_height, .attr),
   (.svg_width, .attr), (.svg_x, .attr), (.svg_y, .attr), (.table_end_cell_address, .attr),
   (.table_end_x, .attr), (.table_end_y, .attr), (.table_table_background, .attr), (.xml_id, .attr)]

/-- The macros that define the setters of `DrawFrame`, src/draw.rs:318-339, with the map they work on. -/
def frameMacros : List (Macro × Part) :=
  [(.draw_name, .attr), (.draw_caption_id, .attr), (.draw_class_names, .attr), (.draw_corner_radius, .attr),
   (.draw_copy_of, .attr), (.draw_id, .attr), (.draw_layer, .attr), (.draw_style_name, .attr),
   (.draw_text_style_name, .attr), (.draw_transform, .attr), (.draw_z_index, .attr),
   (.style_rel_height, .attr), (.style_rel_width, .attr), (.svg_height, .attr), (.svg_width, .attr),
   (.svg_x, .attr), (.svg_y, .attr), (.table_end_cell_address, .attr), (.table_end_x, .attr),
   (.table_end_y, .attr), (.table_table_background, .attr), (.xml_id, .attr)]

/-- The macros that define the setters of `DrawImage`, src/draw.rs:434-440, with the map they work on. -/
def imageMacros : List (Macro × Part) :=
  [(.draw_filter_name, .attr), (.draw_mime_type, .attr), (.xlink_actuate, .attr), (.xlink_href, .attr),
   (.xlink_show, .attr), (.xlink_type, .attr), (.xml_id, .attr)]

/-- The things that have setters. -/
inductive Kind where
  | cell | col | row | table | paragraph | text | graphic | ruby | page | headerFooter | fontFace | tabStop | annotation
  | frame | image
  deriving DecidableEq

/-- The macros of each. -/
def Kind.macros : Kind → List (Macro × Part)
  | .cell => cellMacros
  | .col => colMacros
  | .row => rowMacros
  | .table => tableMacros
  | .paragraph => paragraphMacros
  | .text => textMacros
  | .graphic => graphicMacros
  | .ruby => rubyMacros
  | .page => pageMacros
  | .headerFooter => headerFooterMacros
  | .fontFace => fontFaceMacros
  | .tabStop => tabStopMacros
  | .annotation => annotationMacros
  | .frame => frameMacros
  | .image => imageMacros

/-- The map a setter works on; `none` if there is no such setter. -/
def Kind.part (k : Kind) (c : Call) : Option Part := k.macros.lookup c.macroName

/-- All attribute maps of one style. -/
abbrev Maps := Part → Attrs

/-- One call. `none`: there is no such setter, or it panics. -/
def step (fl : Floats) (k : Kind) (c : Call) (m : Maps) : Option Maps :=
  match k.part c with
  | none => none
  | some p =>
    match c.ops fl with
    | none => none
    | some os => some fun q => if q = p then specRun (m p) os else m q

/-- A history of calls. -/
def run (fl : Floats) (k : Kind) : List Call → Maps → Option Maps
  | [], m => some m
  | c :: cs, m => (step fl k c m).bind (run fl k cs)

end Verif.Attr
