import Verif.Attr.Spec

/-!
# C87: the setters of styles
-/

set_option autoImplicit false

namespace Verif.Attr

open Xml Codec Book Width Enum Fmt
open Style (Attrs)
open Book.AttrMap (Op specRun lookup_run)

/-! ## What a call does is what it asks for -/

/-- Doing what is asked for. -/
def toOp : String × Option Str → Op
  | (k, some v) => .set k.toList v
  | (k, none) => .clear k.toList

theorem digit_eq (n : Nat) (h : n < 16) : hexDigit n = Spec.digit n := by
  match n, h with
  | 0, _ | 1, _ | 2, _ | 3, _ | 4, _ | 5, _ | 6, _ | 7, _ | 8, _ | 9, _ | 10, _ | 11, _ | 12, _ | 13, _ | 14, _ | 15, _ =>
    decide +kernel
  | n + 16, h => omega

theorem color_eq (c : Rgb) : '#' :: (hex2 c.r ++ hex2 c.g ++ hex2 c.b) = Spec.color c := by
  have h : ∀ v : BitVec 8, v.toNat / 16 < 16 ∧ v.toNat % 16 < 16 := fun v => by have := v.isLt; omega
  simp only [hex2, Spec.color, digit_eq _ (h c.r).1, digit_eq _ (h c.r).2, digit_eq _ (h c.g).1, digit_eq _ (h c.g).2,
    digit_eq _ (h c.b).1, digit_eq _ (h c.b).2]
  rfl

theorem colorString_eq (c : Rgb) : colorString c = Spec.color c := color_eq c

theorem borderString_eq (fl : Floats) (w : Length) (b : Border) (c : Rgb) :
    borderString fl w b c = Spec.words [fmtLength fl w, b.text, Spec.color c] := by
  unfold borderString
  rw [color_eq]
  rfl

theorem shadowString_eq (fl : Floats) (x y : Length) (b : Option Length) (c : Rgb) :
    shadowString fl x y b c = Spec.words (Spec.color c :: fmtLength fl x :: fmtLength fl y :: b.toList.map (fmtLength fl)) := by
  cases b <;> simp [shadowString, Spec.words, colorString_eq]

theorem textPosition_eq (fl : Floats) (p : TextPosition) (s : Option Percent) :
    textPosition fl p s = Spec.words (p.text fl :: s.toList.map (Percent.text fl)) := by
  cases s <;> rfl

theorem spaced_eq (ws : List Str) : spaced ws = Spec.eachSpaced ws := by
  induction ws with
  | nil => rfl
  | cons w ws ih => rw [Spec.eachSpaced, ← ih]; simp [spaced, List.flatMap_cons]

theorem localeOps_eq (a b c : String) (l : Locale) : localeOps a b c l = (Spec.tags a b c l).map toOp := by
  unfold localeOps Spec.tags
  by_cases h : l = .unknown
  · rw [if_pos h, if_neg (by simpa using h)]; rfl
  · rw [if_neg h, if_pos h]
    rcases l with ⟨x, s, r, y⟩
    cases r <;> cases s <;> rfl

theorem fontOps_eq (fl : Floats) (a b c : String) (v : LengthPercent) (x y : Bool) (os : List Op)
    (h : fontOps fl a b c v x y = some os) :
    os = ((a, some (v.text fl)) :: (Spec.boldIf b x ++ Spec.italicIf c y)).map toOp := by
  unfold fontOps at h
  split at h
  · injection h with h
    subst h
    cases x <;> cases y <;> rfl
  · cases h

theorem ops_asks (fl : Floats) (c : Call) (os : List Op) (h : c.ops fl = some os) :
    os = (Spec.asks fl c).map toOp := by
  cases c <;> simp only [Call.ops] at h
  all_goals first
    | exact (Option.some.inj h).symm
    | exact (Option.some.inj h).symm.trans (localeOps_eq _ _ _ _)
    | exact fontOps_eq _ _ _ _ _ _ _ _ h
    | (split at h
       · exact (Option.some.inj h).symm
       · cases h)
    | (rw [borderString_eq] at h; exact (Option.some.inj h).symm)
    | (rw [shadowString_eq] at h; exact (Option.some.inj h).symm)
    | (rw [colorString_eq] at h; exact (Option.some.inj h).symm)
    | (rw [textPosition_eq] at h; exact (Option.some.inj h).symm)
    | (rw [spaced_eq] at h; exact (Option.some.inj h).symm)
    | (rw [← Option.some.inj h]; simp only [Spec.asks]; split <;> rfl)

theorem leZero_iff (v : F64) : leZero v = false ↔ Spec.NaN v ∨ Spec.Negative v := by
  unfold leZero Spec.NaN Spec.Negative
  have hl := v.bits.isLt
  have hm : v.bits.msb = decide (2 ^ 63 ≤ v.bits.toNat) := by rw [BitVec.msb_eq_decide]
  rw [hm]
  generalize v.bits.toNat = n at *
  simp only [Bool.and_eq_false_iff, decide_eq_false_iff_not, Bool.or_eq_false_iff, Bool.not_eq_false', decide_eq_true_eq,
    beq_eq_false_iff_ne]
  omega

theorem length_refused (v : Length) : v.isPositive = false ↔ Spec.below v := by
  cases v <;> first | exact leZero_iff _ | simp [Length.isPositive, Spec.below]

theorem lp_refused (v : LengthPercent) : v.isPositive = false ↔ Spec.belowLP v := by
  cases v <;> first | exact length_refused _ | simp [LengthPercent.isPositive, Spec.belowLP]

theorem lh_refused (v : LineHeight) : v.isPositive = false ↔ Spec.belowLH v := by
  cases v <;> first | exact length_refused _ | simp [LineHeight.isPositive, Spec.belowLH]

theorem if_none {α : Type} (b : Bool) (x : α) (P : Prop) (h : b = false ↔ P) :
    (if b = true then some x else none) = none ↔ P := by
  cases b <;> simp_all

theorem ops_refused (fl : Floats) (c : Call) : c.ops fl = none ↔ Spec.refused c := by
  cases c
  all_goals first
    | exact iff_of_false (Option.some_ne_none _) id
    | exact if_none _ _ _ (length_refused _)
    | exact if_none _ _ _ (lp_refused _)
    | exact if_none _ _ _ (lh_refused _)
    | (refine Iff.trans ?_ (lp_refused _); unfold Call.ops fontOps; exact if_none _ _ _ Iff.rfl)

/-- The setters: macro, name and attributes. -/
def entries : List (Macro × String × List String) :=
  [(.draw_caption_id, "set_draw_caption_id", ["draw:caption-id"]),
   (.draw_name, "set_draw_name", ["draw:name"]),
   (.draw_class_names, "set_draw_class_names", ["draw:class-names"]),
   (.draw_corner_radius, "set_draw_corner_radius", ["draw:corner-radius"]),
   (.draw_id, "set_draw_id", ["draw:id"]),
   (.draw_layer, "set_draw_layer", ["draw:layer"]),
   (.draw_style_name, "set_draw_style_name", ["draw:style-name"]),
   (.draw_text_style_name, "set_draw_text_style_name", ["draw:text-style-name"]),
   (.draw_transform, "set_draw_transform", ["draw:transform"]),
   (.draw_z_index, "set_draw_z_index", ["draw:z-index"]),
   (.draw_caption_point_x, "set_draw_caption_point_x", ["draw:caption-point-x"]),
   (.draw_caption_point_y, "set_draw_caption_point_y", ["draw:caption-point-y"]),
   (.draw_copy_of, "set_draw_copy_of", ["draw:copy-of"]),
   (.draw_filter_name, "set_draw_filter_name", ["draw:filter-name"]),
   (.draw_mime_type, "set_draw_mime_type", ["draw:mime-type"]),
   (.fo_background_color, "set_background_color", ["fo:background-color"]),
   (.fo_border, "set_border", ["fo:border"]),
   (.fo_border, "set_border_bottom", ["fo:border-bottom"]),
   (.fo_border, "set_border_left", ["fo:border-left"]),
   (.fo_border, "set_border_right", ["fo:border-right"]),
   (.fo_border, "set_border_top", ["fo:border-top"]),
   (.fo_padding, "set_padding", ["fo:padding"]),
   (.fo_padding, "set_padding_bottom", ["fo:padding-bottom"]),
   (.fo_padding, "set_padding_left", ["fo:padding-left"]),
   (.fo_padding, "set_padding_right", ["fo:padding-right"]),
   (.fo_padding, "set_padding_top", ["fo:padding-top"]),
   (.fo_wrap_option, "set_wrap_option", ["fo:wrap-option"]),
   (.fo_border_line_width, "set_border_line_width", ["style:border-line-width"]),
   (.fo_border_line_width, "set_border_line_width_bottom", ["style:border-line-width-bottom"]),
   (.fo_border_line_width, "set_border_line_width_left", ["style:border-line-width-left"]),
   (.fo_border_line_width, "set_border_line_width_right", ["style:border-line-width-right"]),
   (.fo_border_line_width, "set_border_line_width_top", ["style:border-line-width-top"]),
   (.fo_break, "set_break_before", ["fo:break-before"]),
   (.fo_break, "set_break_after", ["fo:break-after"]),
   (.fo_hyphenation, "set_hyphenation_keep", ["fo:hyphenation-keep"]),
   (.fo_hyphenation, "set_hyphenation_ladder_count", ["fo:hyphenation-ladder-count"]),
   (.fo_keep_together, "set_keep_together", ["fo:keep-together"]),
   (.fo_keep_with_next, "set_keep_with_next", ["fo:keep-with-next"]),
   (.fo_line_height, "set_line_height", ["fo:line-height"]),
   (.fo_margin, "set_margin", ["fo:margin"]),
   (.fo_margin, "set_margin_bottom", ["fo:margin-bottom"]),
   (.fo_margin, "set_margin_left", ["fo:margin-left"]),
   (.fo_margin, "set_margin_right", ["fo:margin-right"]),
   (.fo_margin, "set_margin_top", ["fo:margin-top"]),
   (.fo_orphans, "set_orphans", ["fo:orphans"]),
   (.fo_text_align, "set_text_align", ["fo:text-align"]),
   (.fo_text_align_last, "set_text_align_last", ["fo:text-align-last"]),
   (.fo_text_indent, "set_text_indent", ["fo:text-indent"]),
   (.fo_widows, "set_widows", ["fo:widows"]),
   (.fo_color, "set_color", ["fo:color"]),
   (.fo_locale, "set_locale", ["fo:language", "fo:country", "fo:script"]),
   (.fo_font_size, "set_font_size", ["fo:font-size"]),
   (.fo_font_size_rel, "set_font_size_rel", ["fo:font-size-rel"]),
   (.fo_font_style, "set_font_style", ["fo:font-style"]),
   (.fo_font_style, "set_font_italic", ["fo:font-style"]),
   (.fo_font_weight, "set_font_weight", ["fo:font-weight"]),
   (.fo_font_weight, "set_font_bold", ["fo:font-weight"]),
   (.fo_font_variant, "set_font_variant", ["fo:font-variant"]),
   (.fo_font_attr, "set_font_attr", ["fo:font-size", "fo:font-weight", "fo:font-style"]),
   (.fo_hyphenate, "set_hyphenate", ["fo:hyphenate"]),
   (.fo_hyphenation_push_char_count, "set_hyphenation_push_char_count", ["fo:hyphenation-push-char-count"]),
   (.fo_hyphenation_remain_char_count, "set_hyphenation_remain_char_count", ["fo:hyphenation-remain-char-count"]),
   (.fo_letter_spacing, "set_letter_spacing", ["fo:letter-spacing"]),
   (.fo_text_shadow, "set_text_shadow", ["fo:text-shadow"]),
   (.fo_text_transform, "set_text_transform", ["fo:text-transform"]),
   (.fo_min_height, "set_min_height", ["fo:min-height"]),
   (.fo_page_height, "set_page_height", ["fo:page-height"]),
   (.fo_page_width, "set_page_width", ["fo:page-width"]),
   (.style_default_outline_level, "set_default_outline_level", ["style:default-outline-level"]),
   (.style_master_page, "set_master_page", ["style:master-page-name"]),
   (.style_next_style, "set_next_style", ["style:next-style-name"]),
   (.style_cell_protect, "set_cell_protect", ["style:cell-protect"]),
   (.style_decimal_places, "set_decimal_places", ["style:decimal-places"]),
   (.style_diagonal, "set_diagonal_bl_tr", ["style:diagonal-bl-tr"]),
   (.style_diagonal, "set_diagonal_bl_tr_widths", ["style:diagonal-bl-tr-widths"]),
   (.style_diagonal, "set_diagonal_tl_br", ["style:diagonal-tl-br"]),
   (.style_diagonal, "set_diagonal_tl_br_widths", ["style:diagonal-tl-br-widths"]),
   (.style_direction, "set_direction", ["style:direction"]),
   (.style_glyph_orientation_vertical, "set_glyph_orientation_vertical", ["style:glyph-orientation-vertical"]),
   (.style_print_content, "set_print_content", ["style:print-content"]),
   (.style_repeat_content, "set_repeat_content", ["style:repeat-content"]),
   (.style_rotation_align, "set_rotation_align", ["style:rotation-align"]),
   (.style_rotation_scale, "set_rotation_scale", ["style:text-rotation-scale"]),
   (.style_rotation_angle, "set_rotation_angle", ["style:rotation-angle"]),
   (.style_shadow, "set_shadow", ["style:shadow"]),
   (.style_shrink_to_fit, "set_shrink_to_fit", ["style:shrink-to-fit"]),
   (.style_text_align_source, "set_text_align_source", ["style:text-align-source"]),
   (.style_vertical_align, "set_vertical_align", ["style:vertical-align"]),
   (.style_auto_text_indent, "set_auto_text_indent", ["style:auto-text-indent"]),
   (.style_background_transparency, "set_background_transpareny", ["style:background-transparency"]),
   (.style_contextual_spacing, "set_contextual_spacing", ["style:contextual-spacing"]),
   (.style_font_independent_line_spacing, "set_font_independent_line_spacing", ["style:font-independent-line-spacing"]),
   (.style_join_border, "set_join_border", ["style:join-border"]),
   (.style_justify_single_word, "set_justify_single_word", ["style:justify-single-word"]),
   (.style_line_break, "set_line_break", ["style:line-break"]),
   (.style_line_height_at_least, "set_line_height_at_least", ["style:line-height-at-least"]),
   (.style_line_spacing, "set_line_spacing", ["style:line-spacing"]),
   (.style_page_number, "set_page_number", ["style:page-number"]),
   (.style_punctuation_wrap, "set_punctuation_wrap", ["style:punctuation-wrap"]),
   (.style_register_true, "set_register_true", ["style:register-true"]),
   (.style_snap_to_layout_grid, "set_snap_to_layout_grid", ["style:snap-to-layout-grid"]),
   (.style_tab_stop_distance, "set_tab_stop_distance", ["style:tab-stop-distance"]),
   (.style_text_autospace, "set_text_autospace", ["style:text-autospace"]),
   (.style_vertical_align_para, "set_vertical_align_para", ["style:vertical-align"]),
   (.style_writing_mode, "set_writing_mode", ["style:writing-mode"]),
   (.style_writing_mode_automatic, "set_writing_mode_automatic", ["style:writing-mode-automatic"]),
   (.style_line_number, "set_line_number", ["text:line-number"]),
   (.style_number_lines, "set_number_lines", ["text:number-lines"]),
   (.style_font_name, "set_font_name", ["style:font-name"]),
   (.style_locale_asian, "set_locale_asian", ["style:language-asian", "style:country-asian", "style:script-asian"]),
   (.style_font_name_asian, "set_font_name_asian", ["style:font-name-asian"]),
   (.style_font_size_asian, "set_font_size_asian", ["style:font-size-asian"]),
   (.style_font_size_rel_asian, "set_font_size_rel_asian", ["style:font-size-rel-asian"]),
   (.style_font_style_asian, "set_font_style_asian", ["style:font-style-asian"]),
   (.style_font_style_asian, "set_font_italic_asian", ["style:font-style-asian"]),
   (.style_font_weight_asian, "set_font_weight_asian", ["style:font-weight-asian"]),
   (.style_font_weight_asian, "set_font_bold_asian", ["style:font-weight-asian"]),
   (.style_font_attr_asian, "set_font_attr_asian", ["style:font-size-asian", "style:font-weight-asian", "style:font-style-asian"]),
   (.style_locale_complex, "set_locale_complex", ["style:language-complex", "style:country-complex", "style:script-complex"]),
   (.style_font_name_complex, "set_font_name_complex", ["style:font-name-complex"]),
   (.style_font_size_complex, "set_font_size_complex", ["style:font-size-complex"]),
   (.style_font_size_rel_complex, "set_font_size_rel_complex", ["style:font-size-rel-complex"]),
   (.style_font_style_complex, "set_font_style_complex", ["style:font-style-complex"]),
   (.style_font_style_complex, "set_font_italic_complex", ["style:font-style-complex"]),
   (.style_font_weight_complex, "set_font_weight_complex", ["style:font-weight-complex"]),
   (.style_font_weight_complex, "set_font_bold_complex", ["style:font-weight-complex"]),
   (.style_font_attr_complex, "set_font_attr_complex", ["style:font-size-complex", "style:font-weight-complex", "style:font-style-complex"]),
   (.style_font_relief, "set_font_relief", ["style:font-relief"]),
   (.style_text_position, "set_text_position", ["style:text-position"]),
   (.style_letter_kerning, "set_letter_kerning", ["style:letter-kerning"]),
   (.style_text_combine, "set_text_combine", ["style:text-combine"]),
   (.style_text_combine_start_char, "set_text_combine_start_char", ["style:text-combine-start-char"]),
   (.style_text_combine_end_char, "set_text_combine_end_char", ["style:text-combine-end-char"]),
   (.style_text_emphasize, "set_text_emphasize", ["style:text-emphasize"]),
   (.style_text_line_through, "set_text_line_through_color", ["style:text-line-through-color"]),
   (.style_text_line_through, "set_text_line_through_mode", ["style:text-line-through-mode"]),
   (.style_text_line_through, "set_text_line_through_style", ["style:text-line-through-style"]),
   (.style_text_line_through, "set_text_line_through_text", ["style:text-line-through-text"]),
   (.style_text_line_through, "set_text_line_through_text_style", ["style:text-line-through-text-style"]),
   (.style_text_line_through, "set_text_line_through_type", ["style:text-line-through-type"]),
   (.style_text_line_through, "set_text_line_through_width", ["style:text-line-through-width"]),
   (.style_text_outline, "set_font_text_outline", ["style:text-outline"]),
   (.style_text_overline, "set_text_overline_color", ["style:text-overline-color"]),
   (.style_text_overline, "set_text_overline_mode", ["style:text-overline-mode"]),
   (.style_text_overline, "set_text_overline_style", ["style:text-overline-style"]),
   (.style_text_overline, "set_text_overline_type", ["style:text-overline-type"]),
   (.style_text_overline, "set_text_overline_width", ["style:text-overline-width"]),
   (.style_text_underline, "set_text_underline_color", ["style:text-underline-color"]),
   (.style_text_underline, "set_text_underline_mode", ["style:text-underline-mode"]),
   (.style_text_underline, "set_text_underline_style", ["style:text-underline-style"]),
   (.style_text_underline, "set_text_underline_type", ["style:text-underline-type"]),
   (.style_text_underline, "set_text_underline_width", ["style:text-underline-width"]),
   (.style_use_window_font_color, "set_use_window_font_color", ["style:use-window-font-color"]),
   (.style_dynamic_spacing, "set_dynamic_spacing", ["style:dynamic-spacing"]),
   (.style_column_width, "set_col_width", ["style:column-width"]),
   (.style_rel_column_width, "set_rel_col_width", ["style:rel-column-width"]),
   (.style_use_optimal_column_width, "set_use_optimal_col_width", ["style:use-optimal-column-width"]),
   (.style_font_family_generic, "set_font_family_generic", ["style:font-family-generic"]),
   (.style_font_pitch, "set_font_pitch", ["style:font-pitch"]),
   (.style_first_page_number, "set_first_page_number", ["style:first-page-number"]),
   (.style_footnote_max_height, "set_footnote_max_height", ["style:footnote-max-height"]),
   (.style_num_format, "set_num_format", ["style:num-format"]),
   (.style_num_letter_sync, "set_num_letter_sync", ["style:num-letter-sync"]),
   (.style_num_prefix, "set_num_prefix", ["style:num-prefix"]),
   (.style_num_suffix, "set_num_suffix", ["style:num-suffix"]),
   (.style_paper_tray_name, "set_paper_tray_name", ["style:paper-tray-name"]),
   (.style_print, "set_print", ["style:print"]),
   (.style_print_orientation, "set_print_orientation", ["style:print-orientation"]),
   (.style_print_page_order, "set_print_page_order", ["style:print-page-order"]),
   (.style_scale_to, "set_scale_to", ["style:scale-to"]),
   (.style_scale_to_pages, "set_scale_to_pages", ["style:scale-to-pages"]),
   (.style_table_centering, "set_table_centering", ["style:table-centering"]),
   (.style_min_row_height, "set_min_row_height", ["style:min-row-height"]),
   (.style_row_height, "set_row_height", ["style:row-height"]),
   (.style_use_optimal_row_height, "set_use_optimal_row_height", ["style:use-optimal-row-height"]),
   (.style_may_break_between_rows, "set_may_break_between_rows", ["style:may-break-between-rows"]),
   (.style_rel_width, "set_rel_width", ["style:rel-width"]),
   (.style_rel_height, "set_rel_height", ["style:rel-height"]),
   (.style_width, "set_width", ["style:width"]),
   (.style_char, "set_char", ["style:char"]),
   (.style_leader_color, "set_leader_color", ["style:leader-color"]),
   (.style_leader_style, "set_leader_style", ["style:leader-style"]),
   (.style_leader_text, "set_leader_text", ["style:leader-text"]),
   (.style_leader_text_style, "set_leader_text_style", ["style:leader-text-style"]),
   (.style_leader_type, "set_leader_type", ["style:leader-type"]),
   (.style_leader_width, "set_leader_width", ["style:leader-width"]),
   (.style_position, "set_position", ["style:position"]),
   (.style_type, "set_type", ["style:type"]),
   (.style_volatile, "set_volatile", ["style:volatile"]),
   (.style_display_name, "set_display_name", ["style:display-name"]),
   (.style_auto_update, "set_auto_update", ["style:auto-update"]),
   (.style_class, "set_class", ["style:class"]),
   (.style_parent_style_name, "set_parent_style", ["style:parent-style-name"]),
   (.svg_font_family, "set_font_family", ["svg:font-family"]),
   (.svg_font_stretch, "set_font_stretch", ["svg:font-stretch"]),
   (.svg_font_style, "set_font_style", ["svg:font-style"]),
   (.svg_font_variant, "set_font_variant", ["svg:font-variant"]),
   (.svg_font_weight, "set_font_weight", ["svg:font-weight"]),
   (.svg_height, "set_height", ["svg:height"]),
   (.svg_width, "set_width", ["svg:width"]),
   (.svg_x, "svg_x", ["svg:x"]),
   (.svg_y, "svg_y", ["svg:y"]),
   (.table_align, "set_align", ["table:align"]),
   (.table_border_model, "set_border_model", ["table:border-model"]),
   (.table_display, "set_display", ["table:display"]),
   (.table_tab_color, "set_tab_color", ["table:tab-color"]),
   (.table_end_cell_address, "set_table_end_cell_address", ["table:end-cell-address"]),
   (.table_end_x, "set_table_end_x", ["table:end-x"]),
   (.table_end_y, "set_table_end_y", ["table:end-y"]),
   (.table_table_background, "set_table_table_background", ["table:table-background"]),
   (.text_condition, "set_text_condition", ["text:condition"]),
   (.text_display, "set_display", ["text:display"]),
   (.xlink_actuate, "set_xlink_actuate", ["xlink:actuate"]),
   (.xlink_href, "set_xlink_href", ["xlink:href"]),
   (.xlink_show, "set_xlink_show", ["xlink:show"]),
   (.xlink_type, "set_xlink_type", ["xlink:type"]),
   (.xml_id, "set_xml_id", ["xml_id"])]

/-- A number for each attribute, to compare them faster. -/
def codeL (s : Str) : Nat := s.foldl (fun n c => (n * 31 + c.toNat) % 1000003) 0
def code (s : String) : Nat := codeL s.toList

theorem code_ofList (l : Str) : code (String.ofList l) = codeL l := by rw [code, String.toList_ofList]

theorem code_0 : code "draw:caption-id" = 90970 := (code_ofList _).trans (by decide +kernel)
theorem code_1 : code "draw:name" = 872224 := (code_ofList _).trans (by decide +kernel)
theorem code_2 : code "draw:class-names" = 414328 := (code_ofList _).trans (by decide +kernel)
theorem code_3 : code "draw:corner-radius" = 308372 := (code_ofList _).trans (by decide +kernel)
theorem code_4 : code "draw:id" = 752 := (code_ofList _).trans (by decide +kernel)
theorem code_5 : code "draw:layer" = 203473 := (code_ofList _).trans (by decide +kernel)
theorem code_6 : code "draw:style-name" = 18031 := (code_ofList _).trans (by decide +kernel)
theorem code_7 : code "draw:text-style-name" = 747116 := (code_ofList _).trans (by decide +kernel)
theorem code_8 : code "draw:transform" = 601301 := (code_ofList _).trans (by decide +kernel)
theorem code_9 : code "draw:z-index" = 321464 := (code_ofList _).trans (by decide +kernel)
theorem code_10 : code "draw:caption-point-x" = 839565 := (code_ofList _).trans (by decide +kernel)
theorem code_11 : code "draw:caption-point-y" = 839566 := (code_ofList _).trans (by decide +kernel)
theorem code_12 : code "draw:copy-of" = 56100 := (code_ofList _).trans (by decide +kernel)
theorem code_13 : code "draw:filter-name" = 734789 := (code_ofList _).trans (by decide +kernel)
theorem code_14 : code "draw:mime-type" = 596684 := (code_ofList _).trans (by decide +kernel)
theorem code_15 : code "fo:background-color" = 387850 := (code_ofList _).trans (by decide +kernel)
theorem code_16 : code "fo:border" = 553243 := (code_ofList _).trans (by decide +kernel)
theorem code_17 : code "fo:border-bottom" = 540967 := (code_ofList _).trans (by decide +kernel)
theorem code_18 : code "fo:border-left" = 746283 := (code_ofList _).trans (by decide +kernel)
theorem code_19 : code "fo:border-right" = 795684 := (code_ofList _).trans (by decide +kernel)
theorem code_20 : code "fo:border-top" = 451434 := (code_ofList _).trans (by decide +kernel)
theorem code_21 : code "fo:padding" = 432398 := (code_ofList _).trans (by decide +kernel)
theorem code_22 : code "fo:padding-bottom" = 552806 := (code_ofList _).trans (by decide +kernel)
theorem code_23 : code "fo:padding-left" = 372725 := (code_ofList _).trans (by decide +kernel)
theorem code_24 : code "fo:padding-right" = 215419 := (code_ofList _).trans (by decide +kernel)
theorem code_25 : code "fo:padding-top" = 890998 := (code_ofList _).trans (by decide +kernel)
theorem code_26 : code "fo:wrap-option" = 855692 := (code_ofList _).trans (by decide +kernel)
theorem code_27 : code "style:border-line-width" = 997720 := (code_ofList _).trans (by decide +kernel)
theorem code_28 : code "style:border-line-width-bottom" = 693426 := (code_ofList _).trans (by decide +kernel)
theorem code_29 : code "style:border-line-width-left" = 720427 := (code_ofList _).trans (by decide +kernel)
theorem code_30 : code "style:border-line-width-right" = 994151 := (code_ofList _).trans (by decide +kernel)
theorem code_31 : code "style:border-line-width-top" = 63502 := (code_ofList _).trans (by decide +kernel)
theorem code_32 : code "fo:break-before" = 595243 := (code_ofList _).trans (by decide +kernel)
theorem code_33 : code "fo:break-after" = 912811 := (code_ofList _).trans (by decide +kernel)
theorem code_34 : code "fo:hyphenation-keep" = 895053 := (code_ofList _).trans (by decide +kernel)
theorem code_35 : code "fo:hyphenation-ladder-count" = 670807 := (code_ofList _).trans (by decide +kernel)
theorem code_36 : code "fo:keep-together" = 77479 := (code_ofList _).trans (by decide +kernel)
theorem code_37 : code "fo:keep-with-next" = 658419 := (code_ofList _).trans (by decide +kernel)
theorem code_38 : code "fo:line-height" = 625611 := (code_ofList _).trans (by decide +kernel)
theorem code_39 : code "fo:margin" = 546707 := (code_ofList _).trans (by decide +kernel)
theorem code_40 : code "fo:margin-bottom" = 177189 := (code_ofList _).trans (by decide +kernel)
theorem code_41 : code "fo:margin-left" = 176704 := (code_ofList _).trans (by decide +kernel)
theorem code_42 : code "fo:margin-right" = 138786 := (code_ofList _).trans (by decide +kernel)
theorem code_43 : code "fo:margin-top" = 336286 := (code_ofList _).trans (by decide +kernel)
theorem code_44 : code "fo:orphans" = 819194 := (code_ofList _).trans (by decide +kernel)
theorem code_45 : code "fo:text-align" = 964731 := (code_ofList _).trans (by decide +kernel)
theorem code_46 : code "fo:text-align-last" = 487979 := (code_ofList _).trans (by decide +kernel)
theorem code_47 : code "fo:text-indent" = 635370 := (code_ofList _).trans (by decide +kernel)
theorem code_48 : code "fo:widows" = 816559 := (code_ofList _).trans (by decide +kernel)
theorem code_49 : code "fo:color" = 161756 := (code_ofList _).trans (by decide +kernel)
theorem code_50 : code "fo:language" = 684311 := (code_ofList _).trans (by decide +kernel)
theorem code_51 : code "fo:country" = 734502 := (code_ofList _).trans (by decide +kernel)
theorem code_52 : code "fo:script" = 170278 := (code_ofList _).trans (by decide +kernel)
theorem code_53 : code "fo:font-size" = 6396 := (code_ofList _).trans (by decide +kernel)
theorem code_54 : code "fo:font-size-rel" = 275980 := (code_ofList _).trans (by decide +kernel)
theorem code_55 : code "fo:font-style" = 525334 := (code_ofList _).trans (by decide +kernel)
theorem code_56 : code "fo:font-weight" = 467543 := (code_ofList _).trans (by decide +kernel)
theorem code_57 : code "fo:font-variant" = 840962 := (code_ofList _).trans (by decide +kernel)
theorem code_58 : code "fo:hyphenate" = 293130 := (code_ofList _).trans (by decide +kernel)
theorem code_59 : code "fo:hyphenation-push-char-count" = 541570 := (code_ofList _).trans (by decide +kernel)
theorem code_60 : code "fo:hyphenation-remain-char-count" = 150821 := (code_ofList _).trans (by decide +kernel)
theorem code_61 : code "fo:letter-spacing" = 117826 := (code_ofList _).trans (by decide +kernel)
theorem code_62 : code "fo:text-shadow" = 294611 := (code_ofList _).trans (by decide +kernel)
theorem code_63 : code "fo:text-transform" = 113073 := (code_ofList _).trans (by decide +kernel)
theorem code_64 : code "fo:min-height" = 815145 := (code_ofList _).trans (by decide +kernel)
theorem code_65 : code "fo:page-height" = 951110 := (code_ofList _).trans (by decide +kernel)
theorem code_66 : code "fo:page-width" = 353052 := (code_ofList _).trans (by decide +kernel)
theorem code_67 : code "style:default-outline-level" = 303389 := (code_ofList _).trans (by decide +kernel)
theorem code_68 : code "style:master-page-name" = 846802 := (code_ofList _).trans (by decide +kernel)
theorem code_69 : code "style:next-style-name" = 133743 := (code_ofList _).trans (by decide +kernel)
theorem code_70 : code "style:cell-protect" = 155140 := (code_ofList _).trans (by decide +kernel)
theorem code_71 : code "style:decimal-places" = 189418 := (code_ofList _).trans (by decide +kernel)
theorem code_72 : code "style:diagonal-bl-tr" = 245257 := (code_ofList _).trans (by decide +kernel)
theorem code_73 : code "style:diagonal-bl-tr-widths" = 566561 := (code_ofList _).trans (by decide +kernel)
theorem code_74 : code "style:diagonal-tl-br" = 868029 := (code_ofList _).trans (by decide +kernel)
theorem code_75 : code "style:diagonal-tl-br-widths" = 599314 := (code_ofList _).trans (by decide +kernel)
theorem code_76 : code "style:direction" = 835095 := (code_ofList _).trans (by decide +kernel)
theorem code_77 : code "style:glyph-orientation-vertical" = 340438 := (code_ofList _).trans (by decide +kernel)
theorem code_78 : code "style:print-content" = 325472 := (code_ofList _).trans (by decide +kernel)
theorem code_79 : code "style:repeat-content" = 462265 := (code_ofList _).trans (by decide +kernel)
theorem code_80 : code "style:rotation-align" = 302242 := (code_ofList _).trans (by decide +kernel)
theorem code_81 : code "style:text-rotation-scale" = 650294 := (code_ofList _).trans (by decide +kernel)
theorem code_82 : code "style:rotation-angle" = 360048 := (code_ofList _).trans (by decide +kernel)
theorem code_83 : code "style:shadow" = 29385 := (code_ofList _).trans (by decide +kernel)
theorem code_84 : code "style:shrink-to-fit" = 863349 := (code_ofList _).trans (by decide +kernel)
theorem code_85 : code "style:text-align-source" = 663860 := (code_ofList _).trans (by decide +kernel)
theorem code_86 : code "style:vertical-align" = 37100 := (code_ofList _).trans (by decide +kernel)
theorem code_87 : code "style:auto-text-indent" = 657926 := (code_ofList _).trans (by decide +kernel)
theorem code_88 : code "style:background-transparency" = 722935 := (code_ofList _).trans (by decide +kernel)
theorem code_89 : code "style:contextual-spacing" = 975829 := (code_ofList _).trans (by decide +kernel)
theorem code_90 : code "style:font-independent-line-spacing" = 90727 := (code_ofList _).trans (by decide +kernel)
theorem code_91 : code "style:join-border" = 917172 := (code_ofList _).trans (by decide +kernel)
theorem code_92 : code "style:justify-single-word" = 58348 := (code_ofList _).trans (by decide +kernel)
theorem code_93 : code "style:line-break" = 163282 := (code_ofList _).trans (by decide +kernel)
theorem code_94 : code "style:line-height-at-least" = 868167 := (code_ofList _).trans (by decide +kernel)
theorem code_95 : code "style:line-spacing" = 539817 := (code_ofList _).trans (by decide +kernel)
theorem code_96 : code "style:page-number" = 945780 := (code_ofList _).trans (by decide +kernel)
theorem code_97 : code "style:punctuation-wrap" = 703418 := (code_ofList _).trans (by decide +kernel)
theorem code_98 : code "style:register-true" = 982859 := (code_ofList _).trans (by decide +kernel)
theorem code_99 : code "style:snap-to-layout-grid" = 767801 := (code_ofList _).trans (by decide +kernel)
theorem code_100 : code "style:tab-stop-distance" = 991164 := (code_ofList _).trans (by decide +kernel)
theorem code_101 : code "style:text-autospace" = 851465 := (code_ofList _).trans (by decide +kernel)
theorem code_102 : code "style:writing-mode" = 680221 := (code_ofList _).trans (by decide +kernel)
theorem code_103 : code "style:writing-mode-automatic" = 321861 := (code_ofList _).trans (by decide +kernel)
theorem code_104 : code "text:line-number" = 436681 := (code_ofList _).trans (by decide +kernel)
theorem code_105 : code "text:number-lines" = 677014 := (code_ofList _).trans (by decide +kernel)
theorem code_106 : code "style:font-name" = 357499 := (code_ofList _).trans (by decide +kernel)
theorem code_107 : code "style:language-asian" = 695846 := (code_ofList _).trans (by decide +kernel)
theorem code_108 : code "style:country-asian" = 371993 := (code_ofList _).trans (by decide +kernel)
theorem code_109 : code "style:script-asian" = 68242 := (code_ofList _).trans (by decide +kernel)
theorem code_110 : code "style:font-name-asian" = 30814 := (code_ofList _).trans (by decide +kernel)
theorem code_111 : code "style:font-size-asian" = 981688 := (code_ofList _).trans (by decide +kernel)
theorem code_112 : code "style:font-size-rel-asian" = 776696 := (code_ofList _).trans (by decide +kernel)
theorem code_113 : code "style:font-style-asian" = 964571 := (code_ofList _).trans (by decide +kernel)
theorem code_114 : code "style:font-weight-asian" = 434198 := (code_ofList _).trans (by decide +kernel)
theorem code_115 : code "style:language-complex" = 334043 := (code_ofList _).trans (by decide +kernel)
theorem code_116 : code "style:country-complex" = 112243 := (code_ofList _).trans (by decide +kernel)
theorem code_117 : code "style:script-complex" = 208408 := (code_ofList _).trans (by decide +kernel)
theorem code_118 : code "style:font-name-complex" = 240208 := (code_ofList _).trans (by decide +kernel)
theorem code_119 : code "style:font-size-complex" = 27380 := (code_ofList _).trans (by decide +kernel)
theorem code_120 : code "style:font-size-rel-complex" = 30659 := (code_ofList _).trans (by decide +kernel)
theorem code_121 : code "style:font-style-complex" = 577994 := (code_ofList _).trans (by decide +kernel)
theorem code_122 : code "style:font-weight-complex" = 891071 := (code_ofList _).trans (by decide +kernel)
theorem code_123 : code "style:font-relief" = 743130 := (code_ofList _).trans (by decide +kernel)
theorem code_124 : code "style:text-position" = 977323 := (code_ofList _).trans (by decide +kernel)
theorem code_125 : code "style:letter-kerning" = 25478 := (code_ofList _).trans (by decide +kernel)
theorem code_126 : code "style:text-combine" = 758213 := (code_ofList _).trans (by decide +kernel)
theorem code_127 : code "style:text-combine-start-char" = 65966 := (code_ofList _).trans (by decide +kernel)
theorem code_128 : code "style:text-combine-end-char" = 413289 := (code_ofList _).trans (by decide +kernel)
theorem code_129 : code "style:text-emphasize" = 580895 := (code_ofList _).trans (by decide +kernel)
theorem code_130 : code "style:text-line-through-color" = 210821 := (code_ofList _).trans (by decide +kernel)
theorem code_131 : code "style:text-line-through-mode" = 304449 := (code_ofList _).trans (by decide +kernel)
theorem code_132 : code "style:text-line-through-style" = 148454 := (code_ofList _).trans (by decide +kernel)
theorem code_133 : code "style:text-line-through-text" = 504011 := (code_ofList _).trans (by decide +kernel)
theorem code_134 : code "style:text-line-through-text-style" = 921668 := (code_ofList _).trans (by decide +kernel)
theorem code_135 : code "style:text-line-through-type" = 522968 := (code_ofList _).trans (by decide +kernel)
theorem code_136 : code "style:text-line-through-width" = 494898 := (code_ofList _).trans (by decide +kernel)
theorem code_137 : code "style:text-outline" = 307361 := (code_ofList _).trans (by decide +kernel)
theorem code_138 : code "style:text-overline-color" = 468047 := (code_ofList _).trans (by decide +kernel)
theorem code_139 : code "style:text-overline-mode" = 990168 := (code_ofList _).trans (by decide +kernel)
theorem code_140 : code "style:text-overline-style" = 405680 := (code_ofList _).trans (by decide +kernel)
theorem code_141 : code "style:text-overline-type" = 208684 := (code_ofList _).trans (by decide +kernel)
theorem code_142 : code "style:text-overline-width" = 752124 := (code_ofList _).trans (by decide +kernel)
theorem code_143 : code "style:text-underline-color" = 750936 := (code_ofList _).trans (by decide +kernel)
theorem code_144 : code "style:text-underline-mode" = 708970 := (code_ofList _).trans (by decide +kernel)
theorem code_145 : code "style:text-underline-style" = 688569 := (code_ofList _).trans (by decide +kernel)
theorem code_146 : code "style:text-underline-type" = 927489 := (code_ofList _).trans (by decide +kernel)
theorem code_147 : code "style:text-underline-width" = 35010 := (code_ofList _).trans (by decide +kernel)
theorem code_148 : code "style:use-window-font-color" = 157385 := (code_ofList _).trans (by decide +kernel)
theorem code_149 : code "style:dynamic-spacing" = 10865 := (code_ofList _).trans (by decide +kernel)
theorem code_150 : code "style:column-width" = 170455 := (code_ofList _).trans (by decide +kernel)
theorem code_151 : code "style:rel-column-width" = 805905 := (code_ofList _).trans (by decide +kernel)
theorem code_152 : code "style:use-optimal-column-width" = 304874 := (code_ofList _).trans (by decide +kernel)
theorem code_153 : code "style:font-family-generic" = 409048 := (code_ofList _).trans (by decide +kernel)
theorem code_154 : code "style:font-pitch" = 174569 := (code_ofList _).trans (by decide +kernel)
theorem code_155 : code "style:first-page-number" = 136727 := (code_ofList _).trans (by decide +kernel)
theorem code_156 : code "style:footnote-max-height" = 426345 := (code_ofList _).trans (by decide +kernel)
theorem code_157 : code "style:num-format" = 874212 := (code_ofList _).trans (by decide +kernel)
theorem code_158 : code "style:num-letter-sync" = 998447 := (code_ofList _).trans (by decide +kernel)
theorem code_159 : code "style:num-prefix" = 541660 := (code_ofList _).trans (by decide +kernel)
theorem code_160 : code "style:num-suffix" = 229200 := (code_ofList _).trans (by decide +kernel)
theorem code_161 : code "style:paper-tray-name" = 963505 := (code_ofList _).trans (by decide +kernel)
theorem code_162 : code "style:print" = 923401 := (code_ofList _).trans (by decide +kernel)
theorem code_163 : code "style:print-orientation" = 20535 := (code_ofList _).trans (by decide +kernel)
theorem code_164 : code "style:print-page-order" = 850304 := (code_ofList _).trans (by decide +kernel)
theorem code_165 : code "style:scale-to" = 756640 := (code_ofList _).trans (by decide +kernel)
theorem code_166 : code "style:scale-to-pages" = 369448 := (code_ofList _).trans (by decide +kernel)
theorem code_167 : code "style:table-centering" = 711189 := (code_ofList _).trans (by decide +kernel)
theorem code_168 : code "style:min-row-height" = 43878 := (code_ofList _).trans (by decide +kernel)
theorem code_169 : code "style:row-height" = 434742 := (code_ofList _).trans (by decide +kernel)
theorem code_170 : code "style:use-optimal-row-height" = 969743 := (code_ofList _).trans (by decide +kernel)
theorem code_171 : code "style:may-break-between-rows" = 994059 := (code_ofList _).trans (by decide +kernel)
theorem code_172 : code "style:rel-width" = 315909 := (code_ofList _).trans (by decide +kernel)
theorem code_173 : code "style:rel-height" = 799680 := (code_ofList _).trans (by decide +kernel)
theorem code_174 : code "style:width" = 115277 := (code_ofList _).trans (by decide +kernel)
theorem code_175 : code "style:char" = 955231 := (code_ofList _).trans (by decide +kernel)
theorem code_176 : code "style:leader-color" = 28403 := (code_ofList _).trans (by decide +kernel)
theorem code_177 : code "style:leader-style" = 966039 := (code_ofList _).trans (by decide +kernel)
theorem code_178 : code "style:leader-text" = 788450 := (code_ofList _).trans (by decide +kernel)
theorem code_179 : code "style:leader-text-style" = 121918 := (code_ofList _).trans (by decide +kernel)
theorem code_180 : code "style:leader-type" = 807407 := (code_ofList _).trans (by decide +kernel)
theorem code_181 : code "style:leader-width" = 312480 := (code_ofList _).trans (by decide +kernel)
theorem code_182 : code "style:position" = 231125 := (code_ofList _).trans (by decide +kernel)
theorem code_183 : code "style:type" = 478464 := (code_ofList _).trans (by decide +kernel)
theorem code_184 : code "style:volatile" = 628863 := (code_ofList _).trans (by decide +kernel)
theorem code_185 : code "style:display-name" = 823431 := (code_ofList _).trans (by decide +kernel)
theorem code_186 : code "style:auto-update" = 293931 := (code_ofList _).trans (by decide +kernel)
theorem code_187 : code "style:class" = 731384 := (code_ofList _).trans (by decide +kernel)
theorem code_188 : code "style:parent-style-name" = 954383 := (code_ofList _).trans (by decide +kernel)
theorem code_189 : code "svg:font-family" = 706912 := (code_ofList _).trans (by decide +kernel)
theorem code_190 : code "svg:font-stretch" = 885224 := (code_ofList _).trans (by decide +kernel)
theorem code_191 : code "svg:font-style" = 864249 := (code_ofList _).trans (by decide +kernel)
theorem code_192 : code "svg:font-variant" = 537299 := (code_ofList _).trans (by decide +kernel)
theorem code_193 : code "svg:font-weight" = 973878 := (code_ofList _).trans (by decide +kernel)
theorem code_194 : code "svg:height" = 70016 := (code_ofList _).trans (by decide +kernel)
theorem code_195 : code "svg:width" = 2048 := (code_ofList _).trans (by decide +kernel)
theorem code_196 : code "svg:x" = 820827 := (code_ofList _).trans (by decide +kernel)
theorem code_197 : code "svg:y" = 820828 := (code_ofList _).trans (by decide +kernel)
theorem code_198 : code "table:align" = 984331 := (code_ofList _).trans (by decide +kernel)
theorem code_199 : code "table:border-model" = 545912 := (code_ofList _).trans (by decide +kernel)
theorem code_200 : code "table:display" = 59620 := (code_ofList _).trans (by decide +kernel)
theorem code_201 : code "table:tab-color" = 134264 := (code_ofList _).trans (by decide +kernel)
theorem code_202 : code "table:end-cell-address" = 116644 := (code_ofList _).trans (by decide +kernel)
theorem code_203 : code "table:end-x" = 731392 := (code_ofList _).trans (by decide +kernel)
theorem code_204 : code "table:end-y" = 731393 := (code_ofList _).trans (by decide +kernel)
theorem code_205 : code "table:table-background" = 870406 := (code_ofList _).trans (by decide +kernel)
theorem code_206 : code "text:condition" = 405671 := (code_ofList _).trans (by decide +kernel)
theorem code_207 : code "text:display" = 177904 := (code_ofList _).trans (by decide +kernel)
theorem code_208 : code "xlink:actuate" = 504949 := (code_ofList _).trans (by decide +kernel)
theorem code_209 : code "xlink:href" = 765168 := (code_ofList _).trans (by decide +kernel)
theorem code_210 : code "xlink:show" = 83583 := (code_ofList _).trans (by decide +kernel)
theorem code_211 : code "xlink:type" = 129724 := (code_ofList _).trans (by decide +kernel)
theorem code_212 : code "xml_id" = 463370 := (code_ofList _).trans (by decide +kernel)

/-- The same table with numbers: the place, and those of the attributes. -/
def codes : List (Nat × List Nat) :=
  [(0, [90970]), (1, [872224]), (2, [414328]), (3, [308372]), (4, [752]), (5, [203473]), (6, [18031]),
   (7, [747116]), (8, [601301]), (9, [321464]), (10, [839565]), (11, [839566]), (12, [56100]), (13, [734789]),
   (14, [596684]), (15, [387850]), (16, [553243]), (17, [540967]), (18, [746283]), (19, [795684]), (20, [451434]),
   (21, [432398]), (22, [552806]), (23, [372725]), (24, [215419]), (25, [890998]), (26, [855692]), (27, [997720]),
   (28, [693426]), (29, [720427]), (30, [994151]), (31, [63502]), (32, [595243]), (33, [912811]), (34, [895053]),
   (35, [670807]), (36, [77479]), (37, [658419]), (38, [625611]), (39, [546707]), (40, [177189]), (41, [176704]),
   (42, [138786]), (43, [336286]), (44, [819194]), (45, [964731]), (46, [487979]), (47, [635370]), (48, [816559]),
   (49, [161756]), (50, [684311, 734502, 170278]), (51, [6396]), (52, [275980]), (53, [525334]), (54, [525334]),
   (55, [467543]), (56, [467543]), (57, [840962]), (58, [6396, 467543, 525334]), (59, [293130]), (60, [541570]),
   (61, [150821]), (62, [117826]), (63, [294611]), (64, [113073]), (65, [815145]), (66, [951110]), (67, [353052]),
   (68, [303389]), (69, [846802]), (70, [133743]), (71, [155140]), (72, [189418]), (73, [245257]), (74, [566561]),
   (75, [868029]), (76, [599314]), (77, [835095]), (78, [340438]), (79, [325472]), (80, [462265]), (81, [302242]),
   (82, [650294]), (83, [360048]), (84, [29385]), (85, [863349]), (86, [663860]), (87, [37100]), (88, [657926]),
   (89, [722935]), (90, [975829]), (91, [90727]), (92, [917172]), (93, [58348]), (94, [163282]), (95, [868167]),
   (96, [539817]), (97, [945780]), (98, [703418]), (99, [982859]), (100, [767801]), (101, [991164]),
   (102, [851465]), (103, [37100]), (104, [680221]), (105, [321861]), (106, [436681]), (107, [677014]),
   (108, [357499]), (109, [695846, 371993, 68242]), (110, [30814]), (111, [981688]), (112, [776696]),
   (113, [964571]), (114, [964571]), (115, [434198]), (116, [434198]), (117, [981688, 434198, 964571]),
   (118, [334043, 112243, 208408]), (119, [240208]), (120, [27380]), (121, [30659]), (122, [577994]),
   (123, [577994]), (124, [891071]), (125, [891071]), (126, [27380, 891071, 577994]), (127, [743130]),
   (128, [977323]), (129, [25478]), (130, [758213]), (131, [65966]), (132, [413289]), (133, [580895]),
   (134, [210821]), (135, [304449]), (136, [148454]), (137, [504011]), (138, [921668]), (139, [522968]),
   (140, [494898]), (141, [307361]), (142, [468047]), (143, [990168]), (144, [405680]), (145, [208684]),
   (146, [752124]), (147, [750936]), (148, [708970]), (149, [688569]), (150, [927489]), (151, [35010]),
   (152, [157385]), (153, [10865]), (154, [170455]), (155, [805905]), (156, [304874]), (157, [409048]),
   (158, [174569]), (159, [136727]), (160, [426345]), (161, [874212]), (162, [998447]), (163, [541660]),
   (164, [229200]), (165, [963505]), (166, [923401]), (167, [20535]), (168, [850304]), (169, [756640]),
   (170, [369448]), (171, [711189]), (172, [43878]), (173, [434742]), (174, [969743]), (175, [994059]),
   (176, [315909]), (177, [799680]), (178, [115277]), (179, [955231]), (180, [28403]), (181, [966039]),
   (182, [788450]), (183, [121918]), (184, [807407]), (185, [312480]), (186, [231125]), (187, [478464]),
   (188, [628863]), (189, [823431]), (190, [293931]), (191, [731384]), (192, [954383]), (193, [706912]),
   (194, [885224]), (195, [864249]), (196, [537299]), (197, [973878]), (198, [70016]), (199, [2048]),
   (200, [820827]), (201, [820828]), (202, [984331]), (203, [545912]), (204, [59620]), (205, [134264]),
   (206, [116644]), (207, [731392]), (208, [731393]), (209, [870406]), (210, [405671]), (211, [177904]),
   (212, [504949]), (213, [765168]), (214, [83583]), (215, [129724]), (216, [463370])]

/-- The pairs that share an attribute. -/
def pairs : List Nat := [51058, 53054, 53058, 54053, 54058, 55056, 55058, 56055, 56058, 58051, 58053, 58054, 58055, 58056, 87103, 103087, 111117, 113114, 113117, 114113, 114117, 115116, 115117, 116115, 116117, 117111, 117113, 117114, 117115, 117116, 120126, 122123, 122126, 123122, 123126, 124125, 124126, 125124, 125126, 126120, 126122, 126123, 126124, 126125]

theorem one_key (k : String) (v : Option Str) : ∀ a ∈ [(k, v)], a.1 ∈ [k] := by
  intro a ha
  rw [List.mem_singleton] at ha
  subst ha
  exact List.mem_singleton.2 rfl

theorem tags_keys (x y z : String) (l : Locale) : ∀ a ∈ Spec.tags x y z l, a.1 ∈ [x, y, z] := by
  intro a ha
  unfold Spec.tags at ha
  split at ha <;> simp only [List.mem_cons, List.not_mem_nil, or_false] at ha <;> rcases ha with rfl | rfl | rfl <;> simp

theorem font_keys (x y z : String) (v : Str) (b i : Bool) :
    ∀ a ∈ (x, some v) :: (Spec.boldIf y b ++ Spec.italicIf z i), a.1 ∈ [x, y, z] := by
  intro a ha
  cases b <;> cases i <;> simp [Spec.boldIf, Spec.italicIf] at ha
  · subst ha; simp
  · rcases ha with rfl | rfl <;> simp
  · rcases ha with rfl | rfl <;> simp
  · rcases ha with rfl | rfl | rfl <;> simp

set_option maxHeartbeats 1000000 in
theorem entry_at (fl : Floats) (c : Call) : ∃ e, entries[c.ctorIdx]? = some e ∧ e.1 = c.macroName ∧ e.2.1 = c.name
    ∧ ∀ a ∈ Spec.asks fl c, a.1 ∈ e.2.2 := by
  cases c
  all_goals first
    | exact ⟨_, rfl, rfl, rfl, one_key _ _⟩
    | exact ⟨_, rfl, rfl, rfl, tags_keys _ _ _ _⟩
    | exact ⟨_, rfl, rfl, rfl, font_keys _ _ _ _ _ _⟩

theorem entry_of (fl : Floats) (c : Call) : ∃ e ∈ entries, e.1 = c.macroName ∧ e.2.1 = c.name
    ∧ ∀ a ∈ Spec.asks fl c, a.1 ∈ e.2.2 := by
  obtain ⟨e, h1, h2⟩ := entry_at fl c
  exact ⟨e, List.mem_of_getElem? h1, h2⟩

def inL : Nat → List Nat → Bool
  | _, [] => false
  | a, b :: l => Nat.beq a b || inL a l

def meet : List Nat → List Nat → Bool
  | [], _ => false
  | a :: l, m => inL a m || meet l m

def rowOk (i : Nat) (e : List Nat) : List (Nat × List Nat) → Bool
  | [] => true
  | (j, d) :: l => (!meet e d || inL (Nat.add (Nat.mul i 1000) j) pairs) && rowOk i e l

def allOk : List (Nat × List Nat) → Bool
  | [] => true
  | (i, e) :: l => rowOk i e l && allOk l

theorem codes_ok : allOk codes = true := by decide +kernel

set_option maxRecDepth 20000 in
/-- The table with numbers is the table. -/
theorem codes_eq : codes = (entries.map (fun e => e.2.2.map code)).zipIdx.map (fun x => (x.2, x.1)) := by
  simp only [entries, List.map, List.zipIdx, Nat.reduceAdd, codes,
    code_0, code_1, code_2, code_3, code_4, code_5, code_6, code_7, code_8, code_9, code_10, code_11, code_12,
    code_13, code_14, code_15, code_16, code_17, code_18, code_19, code_20, code_21, code_22, code_23, code_24,
    code_25, code_26, code_27, code_28, code_29, code_30, code_31, code_32, code_33, code_34, code_35, code_36,
    code_37, code_38, code_39, code_40, code_41, code_42, code_43, code_44, code_45, code_46, code_47, code_48,
    code_49, code_50, code_51, code_52, code_53, code_54, code_55, code_56, code_57, code_58, code_59, code_60,
    code_61, code_62, code_63, code_64, code_65, code_66, code_67, code_68, code_69, code_70, code_71, code_72,
    code_73, code_74, code_75, code_76, code_77, code_78, code_79, code_80, code_81, code_82, code_83, code_84,
    code_85, code_86, code_87, code_88, code_89, code_90, code_91, code_92, code_93, code_94, code_95, code_96,
    code_97, code_98, code_99, code_100, code_101, code_102, code_103, code_104, code_105, code_106, code_107,
    code_108, code_109, code_110, code_111, code_112, code_113, code_114, code_115, code_116, code_117, code_118,
    code_119, code_120, code_121, code_122, code_123, code_124, code_125, code_126, code_127, code_128, code_129,
    code_130, code_131, code_132, code_133, code_134, code_135, code_136, code_137, code_138, code_139, code_140,
    code_141, code_142, code_143, code_144, code_145, code_146, code_147, code_148, code_149, code_150, code_151,
    code_152, code_153, code_154, code_155, code_156, code_157, code_158, code_159, code_160, code_161, code_162,
    code_163, code_164, code_165, code_166, code_167, code_168, code_169, code_170, code_171, code_172, code_173,
    code_174, code_175, code_176, code_177, code_178, code_179, code_180, code_181, code_182, code_183, code_184,
    code_185, code_186, code_187, code_188, code_189, code_190, code_191, code_192, code_193, code_194, code_195,
    code_196, code_197, code_198, code_199, code_200, code_201, code_202, code_203, code_204, code_205, code_206,
    code_207, code_208, code_209, code_210, code_211, code_212]

theorem inL_iff (a : Nat) (l : List Nat) : inL a l = true ↔ a ∈ l := by
  induction l with
  | nil => simp [inL]
  | cons b l ih => rw [inL, Bool.or_eq_true, Nat.beq_eq, ih, List.mem_cons]

theorem meet_of {a : Nat} {l m : List Nat} (h1 : a ∈ l) (h2 : a ∈ m) : meet l m = true := by
  induction l with
  | nil => cases h1
  | cons b l ih =>
    rw [meet, Bool.or_eq_true]
    rcases List.mem_cons.1 h1 with rfl | h
    · exact .inl ((inL_iff _ _).2 h2)
    · exact .inr (ih h)

theorem rowOk_mem {i : Nat} {e : List Nat} {l : List (Nat × List Nat)} (h : rowOk i e l = true) {j : Nat} {d : List Nat}
    (hm : (j, d) ∈ l) {a : Nat} (h1 : a ∈ e) (h2 : a ∈ d) : i * 1000 + j ∈ pairs := by
  induction l with
  | nil => cases hm
  | cons x l ih =>
    obtain ⟨j', d'⟩ := x
    rw [rowOk, Bool.and_eq_true, Bool.or_eq_true, Bool.not_eq_true'] at h
    rcases List.mem_cons.1 hm with hx | hx
    · injection hx with hj hd
      subst hj hd
      rcases h.1 with h | h
      · rw [meet_of h1 h2] at h; cases h
      · exact (inL_iff _ _).1 h
    · exact ih h.2 hx

theorem allOk_get {l : List (Nat × List Nat)} (h : allOk l = true) {m n : Nat} (hmn : m < n) {i j : Nat} {e d : List Nat}
    (hm : l[m]? = some (i, e)) (hn : l[n]? = some (j, d)) {a : Nat} (h1 : a ∈ e) (h2 : a ∈ d) : i * 1000 + j ∈ pairs := by
  induction l generalizing m n with
  | nil => cases hm
  | cons x l ih =>
    obtain ⟨i', e'⟩ := x
    rw [allOk, Bool.and_eq_true] at h
    obtain ⟨n, rfl⟩ : ∃ k, n = k + 1 := ⟨n - 1, by omega⟩
    cases m with
    | zero =>
      injection hm with hm
      injection hm with hi he
      subst hi he
      exact rowOk_mem h.1 (List.mem_of_getElem? hn) h1 h2
    | succ m => exact ih h.2 (by omega) hm hn

theorem codes_get (i : Nat) (e : Macro × String × List String) (h : entries[i]? = some e) :
    codes[i]? = some (i, e.2.2.map code) := by
  rw [codes_eq, List.getElem?_map, List.getElem?_zipIdx, List.getElem?_map, h]
  simp

/-- The setters of two places are about the same property, or about the vertical alignment of cells and of
paragraphs. -/
def pairOk (e d : Macro × String × List String) : Bool :=
  Spec.sameName e.2.1 d.2.1 || (e.1 == .style_vertical_align && d.1 == .style_vertical_align_para)
    || (e.1 == .style_vertical_align_para && d.1 == .style_vertical_align)

def placeOk (p : Nat) : Bool :=
  match entries[p / 1000]?, entries[p % 1000]? with
  | some e, some d => pairOk e d && pairOk d e
  | _, _ => false

theorem pairs_ok : ∀ p ∈ pairs, placeOk p = true := by decide +kernel

theorem codes_length : entries.length < 1000 := by decide +kernel

theorem pairOk_of {e d : Macro × String × List String} (h : pairOk e d = true) : Spec.sameName e.2.1 d.2.1 = true
    ∨ (e.1 = .style_vertical_align ∧ d.1 = .style_vertical_align_para)
    ∨ (e.1 = .style_vertical_align_para ∧ d.1 = .style_vertical_align) := by
  simpa [pairOk, or_assoc] using h

/-- Two setters that share an attribute are about the same property, except for the vertical alignment of cells and of
paragraphs. -/
theorem shared (e d : Macro × String × List String) (he : e ∈ entries) (hd : d ∈ entries) (k : String) (h1 : k ∈ e.2.2)
    (h2 : k ∈ d.2.2) :
    Spec.sameName e.2.1 d.2.1 = true ∨ (e.1 = .style_vertical_align ∧ d.1 = .style_vertical_align_para)
    ∨ (e.1 = .style_vertical_align_para ∧ d.1 = .style_vertical_align) := by
  obtain ⟨i, hi⟩ := List.getElem?_of_mem he
  obtain ⟨j, hj⟩ := List.getElem?_of_mem hd
  have hl := codes_length
  have bound : ∀ {n : Nat} {x}, entries[n]? = some x → n < 1000 := fun h => by
    have := (List.getElem?_eq_some_iff.1 h).1
    omega
  have place : ∀ {m n : Nat} {x y}, entries[m]? = some x → entries[n]? = some y → m * 1000 + n ∈ pairs →
      pairOk x y = true ∧ pairOk y x = true := by
    intro m n x y hm hn hp
    have := pairs_ok _ hp
    have hb := bound hn
    rw [placeOk, show (m * 1000 + n) / 1000 = m by omega, show (m * 1000 + n) % 1000 = n by omega, hm, hn] at this
    simpa using this
  rcases Nat.lt_trichotomy i j with h | h | h
  · exact pairOk_of (place hi hj (allOk_get codes_ok h (codes_get i e hi) (codes_get j d hj)
      (List.mem_map_of_mem h1) (List.mem_map_of_mem h2))).1
  · subst h
    rw [hi] at hj
    injection hj with hj
    subst hj
    exact .inl (by simp [Spec.sameName])
  · exact pairOk_of (place hj hi (allOk_get codes_ok h (codes_get j d hj) (codes_get i e hi)
      (List.mem_map_of_mem h2) (List.mem_map_of_mem h1))).2

end Verif.Attr
