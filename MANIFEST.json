{
 "claims": [
  {
   "property": "C01",
   "status": "proved",
   "theorems": [
    "Verif.C01_history",
    "Verif.C01_panics",
    "Verif.C01_isolation"
   ],
   "note": "History refinement for all cell operations."
  },
  {
   "property": "C02",
   "status": "proved",
   "theorems": [
    "Verif.C02_copy",
    "Verif.C02_remove",
    "Verif.C02_draw_frames_option"
   ],
   "note": "None and an empty list of draw frames are identified; the raw getter distinguishes them (C02_draw_frames_option)."
  },
  {
   "property": "C03",
   "status": "partial",
   "theorems": [
    "Verif.C03_iter_complete",
    "Verif.C03_peek_partial",
    "Verif.C03_peek_fresh_counterexample"
   ],
   "note": "Completeness and order proved; peek_cell on a fresh iterator is None although a cell follows (code violates the property)."
  },
  {
   "property": "C04",
   "status": "partial",
   "theorems": [
    "Verif.C04_iter_rows_partial",
    "Verif.C04_no_panic",
    "Verif.C04_excluded_start_counterexample",
    "Verif.C04_open_end_counterexample"
   ],
   "note": "Proved for inclusive and open starts; the code violates it for exclusive starts and panics for an open end before the start."
  },
  {
   "property": "C05",
   "status": "partial",
   "theorems": [
    "Verif.C05_iter_cols_partial",
    "Verif.C05_colMajor_mem",
    "Verif.C05_colMajor_order",
    "Verif.C05_empty_corner",
    "Verif.C05_diverges_counterexample",
    "Verif.C05_empty_rect_counterexample"
   ],
   "note": "Proved if the lower right corner is stored; otherwise the code never terminates or yields a cell outside (C05_empty_corner characterises both)."
  },
  {
   "property": "C06",
   "status": "partial",
   "theorems": [
    "Verif.C06_fresh_hint_partial",
    "Verif.C06_cols_hint_partial",
    "Verif.C06_hint_after_counterexample",
    "Verif.C06_rows_hint_counterexample"
   ],
   "note": "Code violates the property after the first step and for iter_rows."
  },
  {
   "property": "C07",
   "status": "proved",
   "theorems": [
    "Verif.C07_used_grid_size"
   ],
   "note": ""
  },
  {
   "property": "C08",
   "status": "partial",
   "theorems": [
    "Verif.C08_history_partial",
    "Verif.C08_step_partial",
    "Verif.C08_leak_counterexample",
    "Verif.C08_second_call_counterexample"
   ],
   "note": "Proved for sheets built by setter calls, and for a single call on repeated columns unless it names the last of them; the code leaks attributes otherwise."
  },
  {
   "property": "C09",
   "status": "partial",
   "theorems": [
    "Verif.C09_named_row",
    "Verif.C09_history_partial",
    "Verif.C09_next_row_counterexample"
   ],
   "note": "The named row and the rows above are proved for every history; the code resets the row below on a second call."
  },
  {
   "property": "C10",
   "status": "proved",
   "theorems": [
    "Verif.C10_never_cross",
    "Verif.C10_add_panics",
    "Verif.C10_remove"
   ],
   "note": "Groups reached by add/remove; changing bounds through col_group_mut is outside."
  },
  {
   "property": "C11",
   "status": "partial",
   "theorems": [
    "Verif.C11_cols_partial",
    "Verif.C11_rows_partial",
    "Verif.C11_rows_counterexample"
   ],
   "note": "Columns exact on sheets without repeated columns; rows: members get the visibility, but the code resets other attributes and the row behind the group."
  },
  {
   "property": "C12",
   "status": "partial",
   "theorems": [
    "Verif.C12_grid_partial",
    "Verif.C12_stale_repeat_counterexample",
    "Verif.C12_big_repeat_counterexample",
    "Verif.C12_trailing_style_counterexample"
   ],
   "note": "Every position with content shows the same cell after writing and reading, for every sheet whose row repeats are those row_repeat reports and at most 1000. The code fails outside of that; three counterexamples are proved."
  },
  {
   "property": "C13",
   "status": "partial",
   "theorems": [
    "Verif.C13_clash_rejected",
    "Verif.C13_accepted_partial",
    "Verif.C13_group_panic_counterexample"
   ],
   "note": "Overlapping repeats are always rejected; sheets without overlap are written if they have no row groups or if the groups fit the rows. The code panics for some groups on empty rows (counterexample)."
  },
  {
   "property": "C14",
   "status": "partial",
   "theorems": [
    "Verif.C14_layout_partial"
   ],
   "note": "Widths and totals for every sheet that is written, except for the row headers left behind by set_row_repeat (RowOK, see rowOK_reachable)."
  },
  {
   "property": "C15",
   "status": "partial",
   "theorems": [
    "Verif.C15_balanced_partial",
    "Verif.C15_plain_balanced",
    "Verif.C15_header_gap_counterexample"
   ],
   "note": "Balanced for every sheet without groups and header ranges, and for every sheet whose groups and header ranges fit its rows and columns; false in general (counterexamples)."
  },
  {
   "property": "C16",
   "status": "partial",
   "theorems": [
    "Verif.C16_columns_partial",
    "Verif.C16_unclosed_group_counterexample"
   ],
   "note": "Coverage is proved for all sheets without a gap between equal columns; balance is C15; a group over merged columns is never closed (counterexample)."
  },
  {
   "property": "C17",
   "status": "partial",
   "theorems": [
    "Verif.C17_merge_partial",
    "Verif.C17_gap_counterexample"
   ],
   "note": "Proved if equal neighbours are adjacent; the code merges over gaps."
  },
  {
   "property": "C18",
   "status": "partial",
   "theorems": [
    "Verif.C18_split_partial",
    "Verif.C18_reachable",
    "Verif.C18_overlap_counterexample"
   ],
   "note": "Proved for non-overlapping spans, which every sheet built by setters has; overlapping spans left behind by setters on repeated columns violate it."
  },
  {
   "property": "C19",
   "status": "partial",
   "theorems": [
    "Verif.C19_columns_partial",
    "Verif.C19_hole_counterexample"
   ],
   "note": "Proved for all sheets in which equal columns are not separated by columns without attributes; false otherwise (counterexample)."
  },
  {
   "property": "C20",
   "status": "partial",
   "theorems": [
    "Verif.C20_rows_partial",
    "Verif.C20_content_partial",
    "Verif.C20_leak",
    "Verif.C20_leak_counterexample",
    "Verif.C20_gap_counterexample"
   ],
   "note": "Attributes of all rows up to the last data row come back, except in the cases the counterexamples show: an attribute-less empty row below a row with attributes (C20_leak: always), neighbouring empty rows with different attributes, more than 1000 empty rows with attributes. Rows with content always keep theirs."
  },
  {
   "property": "C21",
   "status": "partial",
   "theorems": [
    "Verif.C21_again_partial",
    "Verif.C21_shift_counterexample"
   ],
   "note": "For the table of any file (not only files this library wrote) in which rows with attributes and cells are not repeated; for those the counterexample shows that cells move."
  },
  {
   "property": "C22",
   "status": "proved",
   "theorems": [
    "Verif.C22_exact_partition",
    "Verif.C22_pruning"
   ],
   "note": ""
  },
  {
   "property": "C23",
   "status": "partial",
   "theorems": [
    "Verif.C23_covered_partial"
   ],
   "note": "For every sheet that is written; excluded are the row headers left behind by set_row_repeat (RowOK)."
  },
  {
   "property": "C24",
   "status": "partial",
   "theorems": [
    "Verif.C24_header_ranges_partial",
    "Verif.C24_gap_counterexample",
    "Verif.C15_header_gap_counterexample"
   ],
   "note": "Header ranges within rows that have cells come back; a header range with an empty row is written with unbalanced tags, and one that ends in empty rows loses its last row (counterexamples)."
  },
  {
   "property": "C25",
   "status": "partial",
   "theorems": [
    "Verif.C25_groups_partial",
    "Verif.C25_display_counterexample",
    "Verif.C16_unclosed_group_counterexample"
   ],
   "note": "Groups that fit the rows and columns come back; false in general (counterexamples)."
  },
  {
   "property": "C26",
   "status": "partial",
   "theorems": [
    "Verif.Codec.C26_cell_partial",
    "Verif.Codec.C26_exact",
    "Verif.Codec.C26_style_counterexample",
    "Verif.Codec.C26_textXml_counterexample",
    "Verif.Codec.C26_notParagraph_counterexample",
    "Verif.Codec.C26_attributes_counterexample"
   ],
   "note": "Value, formula, style, validation, repeat and spans survive for the values of ValueKept; the exact outcome is proved for every cell with such a value. The property fails for cells without style when a default style exists, for single plain TextXml paragraphs, for other tags than text:p, and for attributes of plain paragraphs. Annotations and draw frames are C66 and C67."
  },
  {
   "property": "C27",
   "status": "partial",
   "theorems": [
    "Verif.Codec.C27_text_partial",
    "Verif.Codec.C27_exact",
    "Verif.Codec.C27_lines",
    "Verif.Codec.splitLines_join",
    "Verif.Codec.C27_lines_counterexample",
    "Verif.Codec.C27_blank_counterexample",
    "Verif.Codec.C27_empty_counterexample"
   ],
   "note": "The value every string is read as is proved exactly; the same text comes back exactly if it is not empty and has no line break; lines that are not blank are never lost. The property itself is false."
  },
  {
   "property": "C28",
   "status": "partial",
   "theorems": [
    "Verif.Codec.C28_exact",
    "Verif.Codec.C28_roundtrip_partial",
    "Verif.Codec.C28_seconds",
    "Verif.Codec.C28_millis_counterexample",
    "Verif.Codec.C28_negative_counterexample",
    "Verif.Codec.C28_panic_counterexample"
   ],
   "note": "False of the code in general (counterexamples). What is read back is characterised exactly for every non-negative duration."
  },
  {
   "property": "C29",
   "status": "partial",
   "theorems": [
    "Verif.Codec.C29_symbol_partial",
    "Verif.Codec.C29_exact",
    "Verif.Codec.C29_symbol_counterexample"
   ],
   "note": "The symbol is read back escaped, for every string; it is the same exactly if it has no markup characters."
  },
  {
   "property": "C30",
   "status": "proved",
   "theorems": [
    "Verif.Xml.C30_unescape_escape",
    "Verif.Xml.C30_text_reads_back",
    "Verif.Xml.C30_no_markup",
    "Verif.Xml.C30_injective",
    "Verif.Xml.C30_plain_unchanged"
   ],
   "note": "The unescaping function and the tokeniser stand for quick-xml."
  },
  {
   "property": "C31",
   "status": "proved",
   "theorems": [
    "Verif.Xml.C31_tokenizes_back",
    "Verif.Xml.C31_injective",
    "Verif.Xml.C31_close_counterexample",
    "Verif.Xml.C31_raw_attr_counterexample"
   ],
   "note": "Calls are grouped into items (a start tag with its attributes, a text, an end tag). What is written through the calls without escaping must need none: the two counterexamples show what the hypotheses exclude."
  },
  {
   "property": "C32",
   "status": "partial",
   "theorems": [
    "Verif.Xml.C32_round_trip_partial",
    "Verif.Xml.C32_same_tree_partial",
    "Verif.Xml.C32_nested_counterexample",
    "Verif.Xml.C32_flat_counterexample",
    "Verif.Xml.C32_split_counterexample"
   ],
   "note": "False of the code for an element inside an element of the same name as the root, and in flat files. Proved for all other trees in package files."
  },
  {
   "property": "C33",
   "status": "partial",
   "theorems": [
    "Verif.Refs.C33_form",
    "Verif.Refs.C33_injective",
    "Verif.Refs.C33_surjective",
    "Verif.Refs.C33_roundtrip_partial",
    "Verif.Refs.C33_parse_exact",
    "Verif.Refs.C33_order",
    "Verif.Refs.C33_last_counterexample",
    "Verif.Refs.C33_wrap_counterexample"
   ],
   "note": "Everything for every column except that the name of the last u32 column is refused (counterexample); without overflow checks too long names wrap around (counterexample)."
  },
  {
   "property": "C34",
   "status": "proved",
   "theorems": [
    "Verif.Refs.C34_form",
    "Verif.Refs.C34_injective",
    "Verif.Refs.C34_parse",
    "Verif.Refs.C34_roundtrip"
   ],
   "note": "The last u32 row is not accepted by the parser, as the round trip theorem says."
  },
  {
   "property": "C35",
   "status": "partial",
   "theorems": [
    "Verif.Refs.C35_roundtrip_partial",
    "Verif.Refs.C35_hyphen_counterexample",
    "Verif.Refs.C35_dollar_counterexample"
   ],
   "note": "Exact characterisation of the references that read back; the others (sheet names with other punctuation, empty names, the last row or column) are refused or changed."
  },
  {
   "property": "C36",
   "status": "partial",
   "theorems": [
    "Verif.Refs.C36_cellrange_partial",
    "Verif.Refs.C36_colrange_partial",
    "Verif.Refs.C36_rowrange_partial"
   ],
   "note": "Exact characterisation of the ranges that read back, as for C35."
  },
  {
   "property": "C37",
   "status": "partial",
   "theorems": [
    "Verif.Refs.C37_roundtrip_partial",
    "Verif.Refs.C37_empty",
    "Verif.Refs.C37_cut_counterexample"
   ],
   "note": "Non-empty lists of good ranges read back; a list is silently cut at a range that does not parse."
  },
  {
   "property": "C38",
   "status": "proved",
   "theorems": [
    "Verif.Refs.C38_cellref",
    "Verif.Refs.C38_cellrange",
    "Verif.Refs.C38_colrange",
    "Verif.Refs.C38_rowrange",
    "Verif.Refs.C38_empty_counterexample"
   ],
   "note": "For all references whose names the parser accepts, with no bound on the indexes."
  },
  {
   "property": "C39",
   "status": "partial",
   "theorems": [
    "Verif.Refs.C39_release",
    "Verif.Refs.C39_checked_partial",
    "Verif.Refs.C39_rowrange",
    "Verif.Refs.C39_checked_counterexample"
   ],
   "note": "Without overflow checks: every text. With overflow checks eight letters panic; proved for texts without seven letters in a row."
  },
  {
   "property": "C40",
   "status": "proved",
   "theorems": [
    "Verif.Book.C40_fresh",
    "Verif.Book.C40_any_state"
   ],
   "note": "For every history of fewer than 2^32 calls on the 18 stores; the counter is a u32."
  },
  {
   "property": "C41",
   "status": "proved",
   "theorems": [
    "Verif.Book.C41_map",
    "Verif.Book.C41_reference",
    "Verif.Book.C41_remove",
    "Verif.Book.C41_rename_counterexample"
   ],
   "note": "For every history of fewer than 2^32 calls. The counterexample shows that renaming through *_mut does not move the entry."
  },
  {
   "property": "C42",
   "status": "partial",
   "theorems": [
    "Verif.Book.C42_attach_partial",
    "Verif.Book.C42_immediately",
    "Verif.Book.C42_insert_counterexample",
    "Verif.Book.C42_remove_counterexample",
    "Verif.Book.C42_idx_counterexample"
   ],
   "note": "Proved for calls that do not insert or remove sheets in front of the detached one; false otherwise."
  },
  {
   "property": "C43",
   "status": "proved",
   "theorems": [
    "Verif.Book.C43_list",
    "Verif.Book.C43_getters",
    "Verif.Book.C43_idx"
   ],
   "note": "For workbooks without detached sheets, see C42_idx_counterexample."
  },
  {
   "property": "C44",
   "status": "proved",
   "theorems": [
    "Verif.Book.AttrMap.C44_map",
    "Verif.Book.AttrMap.C44_clear",
    "Verif.Book.AttrMap.C44_order",
    "Verif.Book.AttrMap.C44_addAll_counterexample"
   ],
   "note": "For histories of set_attr and clear_attr; add_all, which is not among them, can make duplicates."
  },
  {
   "property": "C45",
   "status": "proved",
   "theorems": [
    "Verif.Config.C45_map",
    "Verif.Config.C45_set_iff",
    "Verif.Config.C45_get_set",
    "Verif.Config.C45_get_other",
    "Verif.Config.C45_value"
   ],
   "note": "the map behind a configuration item refines an association list under every sequence of operations; a value set at a path is found there, all other values are unchanged; the call panics exactly if an item on the path is of another kind"
  },
  {
   "property": "C46",
   "status": "partial",
   "theorems": [
    "Verif.Config.C46_roundtrip_partial",
    "Verif.Config.C46_value_partial",
    "Verif.Config.C46_same_partial",
    "Verif.Config.C46_no_panic",
    "Verif.Config.C46_read_shape",
    "Verif.Config.C46_empty_counterexample",
    "Verif.Config.C46_value_in_map_counterexample",
    "Verif.Config.C46_panic_counterexample",
    "Verif.Config.C46_raw_counterexample"
   ],
   "note": "every configuration of the shape the format allows comes back without its empty texts; everything that is read has that shape; false of the code for empty texts, values directly in maps, base64 texts with markup and years of more than four digits"
  },
  {
   "property": "C47",
   "status": "partial",
   "theorems": [
    "Verif.Config.C47_roundtrip_partial",
    "Verif.Config.C47_no_panic",
    "Verif.Config.C47_new",
    "Verif.Config.C47_page_zoom_counterexample",
    "Verif.Config.C47_same_name_counterexample",
    "Verif.Config.C47_panic_counterexample",
    "Verif.Config.C47_empty_name_counterexample"
   ],
   "note": "every field of SheetConfig but page_view_zoom_value, for every sheet, and the settings of the workbook, in every workbook whose sheets have different names, over the written and read settings file; false of the code for page_view_zoom_value (written, never read) and for sheets with the same name"
  },
  {
   "property": "C48",
   "status": "proved",
   "theorems": [
    "Verif.Cond.C48_content",
    "Verif.Cond.C48_value",
    "Verif.Cond.C48_list",
    "Verif.Cond.C48_injective",
    "Verif.Cond.C48_value_injective"
   ],
   "note": "For operands that are texts, integers and booleans and cell ranges with good sheet names; f32/f64 operands are not modelled. List entries are compared as shown."
  },
  {
   "property": "C49",
   "status": "partial",
   "theorems": [
    "Verif.Valid.C49_exact",
    "Verif.Valid.C49_rules_partial",
    "Verif.Valid.C49_messages_lost",
    "Verif.Valid.C49_messages_counterexample",
    "Verif.Valid.C49_display_counterexample",
    "Verif.Valid.C49_panic_counterexample"
   ],
   "note": "Exactly what is read back from a package file. The rules are kept under their names; the messages are lost (stored under a generated name), lists that are not shown make the file unreadable."
  },
  {
   "property": "C50",
   "status": "partial",
   "theorems": [
    "Verif.Enum.C50_parsed_partial",
    "Verif.Enum.C50_file",
    "Verif.Enum.C50_distinct",
    "Verif.Enum.C50_arguments",
    "Verif.Enum.C50_number_format",
    "Verif.Enum.C50_actuate_counterexample",
    "Verif.Enum.C50_display_counterexample",
    "Verif.Enum.C50_number_format_counterexample",
    "Verif.Enum.C50_arguments_meets"
   ],
   "note": "Every enumeration the reader parses is mapped to the same value, except the link actuation and the undisplayed validation list (counterexamples). The attributes of styles are kept as texts by the reader: the texts of the 44 enumerations and of the values with arguments determine the value and survive a file unchanged."
  },
  {
   "property": "C51",
   "status": "partial",
   "theorems": [
    "Verif.Style.C51_package_partial",
    "Verif.Style.C51_formats_partial",
    "Verif.Style.C51_pages",
    "Verif.Style.C51_fonts_partial",
    "Verif.Style.C51_flat_partial",
    "Verif.Style.C51_flat_pages",
    "Verif.Style.C51_flat_fonts_partial",
    "Verif.Style.C51_default_partial",
    "Verif.Style.C51_once_partial",
    "Verif.Style.C51_once_default",
    "Verif.Style.C51_once_format_partial",
    "Verif.Style.C51_page_twice",
    "Verif.Style.C51_once_flat",
    "Verif.Style.C51_content_counterexample",
    "Verif.Style.C51_flat_then_package_counterexample",
    "Verif.Style.C51_from_flat_counterexample",
    "Verif.Style.C51_font_counterexample",
    "Verif.Style.C51_flat_font_counterexample",
    "Verif.Style.C51_tabs_counterexample",
    "Verif.Style.C51_format_counterexample"
   ],
   "note": "Every style and format that has a place in the package comes back with name, origin, use and attributes, every page layout comes back; false of the code for named styles of the content (not written in packages, so all named styles of a flat file are lost), for fonts, for tab stops without paragraph attributes."
  },
  {
   "property": "C52",
   "status": "partial",
   "theorems": [
    "Verif.Style.C52_named",
    "Verif.Style.C52_unnamed_partial",
    "Verif.Style.C52_counterexample",
    "Verif.Style.C52_meets"
   ],
   "note": "A style without a name never replaces a named style, for every file; it is found unless a later style of the file carries its generated name (counterexample)."
  },
  {
   "property": "C53",
   "status": "partial",
   "theorems": [
    "Verif.Style.C53_part_iff",
    "Verif.Style.C53_package_partial",
    "Verif.Style.C53_embedded_counterexample",
    "Verif.Style.C53_flat_counterexample",
    "Verif.Style.C53_number_counterexample"
   ],
   "note": "Number and order of the parts always; exactly which parts keep their text is C53_part_iff; embedded texts with markup characters, embedded texts in flat files and texts of numbers without a position are changed (counterexamples)."
  },
  {
   "property": "C54",
   "status": "partial",
   "theorems": [
    "Verif.Save.C54_save_partial",
    "Verif.Save.C54_overwritten",
    "Verif.Save.C54_counterexample"
   ],
   "note": "False of the code: the file is created, and so emptied, before anything is checked (counterexample, and C54_overwritten: what is left never depends on the old content). Proved: other files are never touched, and nothing changes if the file cannot be created."
  },
  {
   "property": "C55",
   "status": "partial",
   "theorems": [
    "Verif.Save.C55_ods",
    "Verif.Save.C55_ods_willing",
    "Verif.Save.C55_fods_partial",
    "Verif.Save.C55_fods_willing",
    "Verif.Save.C55_fods_counterexample"
   ],
   "note": "Proved for package files, for every schedule of short writes, interruptions and failures. False for flat files, which are never flushed (counterexample); proved for them if the flush made on drop succeeds."
  },
  {
   "property": "C56",
   "status": "partial",
   "theorems": [
    "Verif.Save.C56_ods_exact",
    "Verif.Save.C56_ods_partial",
    "Verif.Save.C56_ods_counterexample",
    "Verif.Save.C56_fods_exact",
    "Verif.Save.C56_fods_partial"
   ],
   "note": "What is in the buffer or stream afterwards is characterised exactly; an empty buffer receives exactly the document, a longer one keeps its tail (counterexample)."
  },
  {
   "property": "C57",
   "status": "partial",
   "theorems": [
    "Verif.Width.C57_sizes_partial",
    "Verif.Width.C57_flat_partial",
    "Verif.Width.C57_sizes_meets",
    "Verif.Width.C57_heights_counterexample",
    "Verif.Width.C57_style_then_height_counterexample",
    "Verif.Width.C57_widths_partial",
    "Verif.Width.C57_exact",
    "Verif.Width.C57_shared_counterexample",
    "Verif.Width.C57_default_counterexample",
    "Verif.Width.C57_optimal_counterexample",
    "Verif.Width.C57_missing_counterexample",
    "Verif.Width.C57_widths_meets"
   ],
   "note": "Through the styles, the two files and the tables: the widths of all covered columns and the heights of all rows come back if the columns and rows that share a style share the width and the styles can carry it; C57_exact says which width all columns of a style get in every case; false of the code for shared styles with different widths, for every row that gets first its style and then its height, styles that say that the width is computed, missing styles."
  },
  {
   "property": "C58",
   "status": "partial",
   "theorems": [
    "Verif.C58_prepare_partial"
   ],
   "note": "Idempotence proved for every non-overlapping header map; getters unchanged only without gaps (C17)."
  },
  {
   "property": "C59",
   "status": "proved",
   "theorems": [
    "Verif.Package.C59_package",
    "Verif.Package.C59_written",
    "Verif.Package.C59_bytes",
    "Verif.Package.C59_read_back",
    "Verif.Package.C59_counterexample"
   ],
   "note": "For every history of calls on the manifest. C59_written: exactly the names mimetype, META-INF/ and META-INF/manifest.xml make it impossible to save (the counterexample is such a name)."
  },
  {
   "property": "C60",
   "status": "proved",
   "theorems": [
    "Verif.C60_contains",
    "Verif.C60_contains_cols",
    "Verif.C60_contains_rows",
    "Verif.C60_out_looped",
    "Verif.C60_origin_span"
   ],
   "note": "out_looped for ranges with from <= to."
  },
  {
   "property": "C61",
   "status": "partial",
   "theorems": [
    "Verif.Width.C61_length_partial",
    "Verif.Width.C61_injective",
    "Verif.Width.C61_default_counterexample"
   ],
   "note": "Every length but the default is parsed to the same length; the default is written as an empty text, which is refused. The printing and parsing of f64 is a parameter; the hypothesis is that the number at hand is read as it was written."
  },
  {
   "property": "C62",
   "status": "partial",
   "theorems": [
    "Verif.Codec.C62_u32",
    "Verif.Codec.C62_int",
    "Verif.Codec.C62_u32_range",
    "Verif.Codec.C62_int_range",
    "Verif.Codec.C62_bool",
    "Verif.Codec.C62_datetime_partial",
    "Verif.Codec.C62_datetime_iff",
    "Verif.Codec.C62_year_counterexample",
    "Verif.Codec.C62_default_counterexample",
    "Verif.Codec.C62_cut_counterexample"
   ],
   "note": "Integers and switches completely; date-times exactly up to the year 9999 (C62_datetime_iff). Later years cannot be read back, and dates that do not exist are accepted (counterexamples)."
  },
  {
   "property": "C63",
   "status": "partial",
   "theorems": [
    "Verif.Meta.C63_exact",
    "Verif.Meta.C63_metadata_partial",
    "Verif.Meta.C63_string_iff",
    "Verif.Meta.C63_lost_counterexample",
    "Verif.Meta.C63_string_counterexample",
    "Verif.Meta.C63_short_counterexample",
    "Verif.Meta.C63_year_counterexample",
    "Verif.Meta.C63_name_counterexample",
    "Verif.Meta.C63_template_read",
    "Verif.Meta.C63_meets",
    "Verif.Meta.C63_template_written",
    "Verif.Meta.C63_reload_written",
    "Verif.Meta.C63_hyperlink_written",
    "Verif.Meta.C63_written_meets"
   ],
   "note": "C63_exact says what is read of all metadata that can be read; the fields survive without markup characters in user strings and with durations of C28; template, reload, hyperlink behaviour and statistics are never read back (counterexample)."
  },
  {
   "property": "C64",
   "status": "partial",
   "theorems": [
    "Verif.TableXml.C64_exact",
    "Verif.TableXml.C64_sheet_partial",
    "Verif.TableXml.C64_meets",
    "Verif.TableXml.C64_endless_counterexample",
    "Verif.TableXml.C64_column_counterexample",
    "Verif.TableXml.C64_no_ranges_counterexample"
   ],
   "note": "From the sheet to the characters of the file and back, with escaping, tokeniser and attribute parsing. C64_exact reduces the text to the grid rules in both directions; C64_sheet_partial composes it with C12, C15, C16, C19, C24, C25 and C26 under their conditions."
  },
  {
   "property": "C65",
   "status": "partial",
   "theorems": [
    "Verif.TableXml.C65_sheets_partial",
    "Verif.TableXml.C65_names",
    "Verif.TableXml.C65_extra_perm",
    "Verif.TableXml.C65_meets",
    "Verif.TableXml.C65_moved_counterexample"
   ],
   "note": "All sheets in their order, each as in C64; named expressions and conditional formats of a sheet are found among those of the workbook (counterexample)."
  },
  {
   "property": "C66",
   "status": "partial",
   "theorems": [
    "Verif.Codec.C66_annotation_partial",
    "Verif.Codec.C66_notes_partial",
    "Verif.Codec.C66_same",
    "Verif.Codec.C66_heading_counterexample",
    "Verif.Codec.C66_list_counterexample",
    "Verif.Codec.C66_flat_counterexample",
    "Verif.Codec.C66_year_counterexample"
   ],
   "note": "In package files, for texts of paragraphs and lists that are not nested and dates up to the year 9999; counterexamples for the others."
  },
  {
   "property": "C67",
   "status": "partial",
   "theorems": [
    "Verif.Codec.C67_frames_partial",
    "Verif.Codec.C66_notes_partial",
    "Verif.Codec.C67_binary_counterexample"
   ],
   "note": "In package files, as for C66; binary data with markup characters set by set_binary_base64 makes the file unreadable (counterexample)."
  },
  {
   "property": "C68",
   "status": "proved",
   "theorems": [
    "Verif.Codec.C68_binary",
    "Verif.Codec.C68_file",
    "Verif.Codec.C68_accepts",
    "Verif.Codec.C68_padding_counterexample"
   ],
   "note": "For all bytes, and in a file. C68_accepts: exactly the unpadded canonical texts are accepted; the padded text of other programs is refused (counterexample to what a user may expect of their files)."
  },
  {
   "property": "C69",
   "status": "proved",
   "theorems": [
    "Verif.Conv.C69_int",
    "Verif.Conv.C69_long",
    "Verif.Conv.C69_nearest",
    "Verif.Conv.C69_order",
    "Verif.Conv.C69_other_type",
    "Verif.Conv.C69_kinds",
    "Verif.Conv.C69_file",
    "Verif.Conv.C69_double",
    "Verif.Conv.C69_bounds",
    "Verif.Conv.C69_long_counterexample"
   ],
   "note": "Rust's `as` between integers and doubles is modelled on the bits. C69_long: exactly the integers of 53 significant bits, and the greatest of the type, come back as they were; C69_nearest for the others. Through a file under FloatOk (the double's text is parsed to the double)."
  },
  {
   "property": "C70",
   "status": "partial",
   "theorems": [
    "Verif.Conv.C70_text_partial",
    "Verif.Conv.C70_text",
    "Verif.Conv.C70_markup_partial",
    "Verif.Conv.C70_markup",
    "Verif.Conv.C70_str_counterexample",
    "Verif.Conv.C70_blank_counterexample"
   ],
   "note": "Exact for texts: the lines that are not blank are shown; the same text exactly if it has no blank line. Exact for paragraphs with any markup in package files. Blank lines are lost and as_str_opt gives nothing for several lines (counterexamples)."
  },
  {
   "property": "C71",
   "status": "proved",
   "theorems": [
    "Verif.Conv.C71_same",
    "Verif.Conv.C71_only",
    "Verif.Conv.C71_file"
   ],
   "note": "In memory for all values; through a file for doubles under FloatOk, currency codes without markup characters, texts of one line, dates up to the year 9999 and durations of whole seconds. Decimal and f32 are not modelled."
  },
  {
   "property": "C72",
   "status": "partial",
   "theorems": [
    "Verif.Master.C72_exact",
    "Verif.Master.C72_same_partial",
    "Verif.Master.C72_heading_counterexample",
    "Verif.Master.C72_style_counterexample",
    "Verif.Master.C72_empty_counterexample",
    "Verif.Master.C72_region_text"
   ],
   "note": "C72_exact says for every list of master pages what comes back, on the characters of office:master-styles. Headings of plain text become paragraphs, plain paragraphs lose their attributes, and an empty header loses its display flag (counterexamples). Regions hold elements, the free content paragraphs and headings."
  },
  {
   "property": "C73",
   "status": "partial",
   "theorems": [
    "Verif.Master.C73_hidden_counterexample",
    "Verif.Master.C73_shown_partial"
   ],
   "note": "False for every content changed in place in a new master page (C73_hidden_counterexample quantifies over all contents, names and places); true for a header made with HeaderFooter::new and set as a whole."
  },
  {
   "property": "C74",
   "status": "partial",
   "theorems": [
    "Verif.Script.C74_scripts_counterexample",
    "Verif.Script.C74_listener_counterexample",
    "Verif.Script.C74_empty_counterexample",
    "Verif.Script.C74_foreign_partial"
   ],
   "note": "False of every workbook with a script: what is written cannot be read (C74_scripts_counterexample, for all scripts and listeners), and every listener is written with a value its reader refuses. C74_foreign_partial: the section as other programs write it is read completely. Scripts within scripts are excluded; with line breaks (flat files) only texts as content."
  },
  {
   "property": "C75",
   "status": "partial",
   "theorems": [
    "Verif.Ns.C75_own",
    "Verif.Ns.C75_foreign_partial",
    "Verif.Ns.C75_flat_counterexample",
    "Verif.Ns.C75_default_counterexample"
   ],
   "note": "Over all histories of reading and writing root elements, on the characters of the files. Foreign prefixes of the files of a package are kept; those of flat files never (universal counterexample), nor the default namespace; a prefix of the crate is always bound to the crate's namespace."
  },
  {
   "property": "C76",
   "status": "proved",
   "theorems": [
    "Verif.Ns.C76_written",
    "Verif.Ns.C76_version",
    "Verif.Ns.C76_mimetype"
   ],
   "note": "Over all histories of reading and writing root elements, on the characters of the files."
  },
  {
   "property": "C77",
   "status": "partial",
   "theorems": [
    "Verif.Ns.C77_settings",
    "Verif.Ns.C77_meta_iff",
    "Verif.Ns.C77_meta_counterexample"
   ],
   "note": "settings.xml: proved for all configurations the format allows. meta.xml: C77_meta_iff says exactly when it holds; it does not for a new workbook with a title, because dc is not declared. The other files are not covered: styles and cells can have attributes with any prefix."
  },
  {
   "property": "C78",
   "status": "partial",
   "theorems": [
    "Verif.Whole.C78_package_partial",
    "Verif.Whole.C78_no_sheets",
    "Verif.Whole.C78_listeners_counterexample",
    "Verif.Whole.C78_meets"
   ],
   "note": "All files and all sections at once, for every workbook that meets the conditions of the theorems about its parts (C46, C51, C63, C65, C72, C75). Missing: those limits, scripts (C74 alone), and calc_config/calc_derived, which C47 and C60 cover on their own."
  },
  {
   "property": "C79",
   "status": "partial",
   "theorems": [
    "Verif.Whole.C79_flat_partial",
    "Verif.Whole.C78_no_sheets",
    "Verif.Whole.C79_meets"
   ],
   "note": "All sections of one flat file at once. Missing: the limits of the parts; foreign elements and validations in flat files; scripts."
  },
  {
   "property": "C80",
   "status": "partial",
   "theorems": [
    "Verif.Formula.C80_cells_partial",
    "Verif.Formula.C80_ranges_partial",
    "Verif.Formula.C80_ranges_panic",
    "Verif.Formula.C80_cols_rows",
    "Verif.Formula.C80_cols_rows_panic",
    "Verif.Formula.C80_macro_here",
    "Verif.Formula.C80_macro_ranges_partial",
    "Verif.Formula.C80_macro_there_counterexample",
    "Verif.Formula.C80_injective",
    "Verif.Formula.C80_meets"
   ],
   "note": "All functions and macros, all cells but those of the last row and column, names of sheets as in C35. cell!(table => ..) gives absolute references whatever the markers (C80_macro_there_counterexample, for all arguments)."
  },
  {
   "property": "C81",
   "status": "partial",
   "theorems": [
    "Verif.Formula.C81_covers_partial",
    "Verif.Formula.C81_checked",
    "Verif.Formula.C81_release_counterexample",
    "Verif.Formula.C81_last_counterexample",
    "Verif.Formula.C81_meets"
   ],
   "note": "Holds while corner + size fits into u32. With overflow checks it panics in all other cases, also for a block that ends in the last row; without, a block past the last row gives an empty range."
  },
  {
   "property": "C82",
   "status": "partial",
   "theorems": [
    "Verif.Fmt.C82_roundtrip_partial",
    "Verif.Fmt.C82_unknown",
    "Verif.Fmt.C82_frame",
    "Verif.Fmt.C82_rest_counterexample",
    "Verif.Fmt.C82_transliteration_counterexample",
    "Verif.Fmt.C82_meets"
   ],
   "note": "The locale itself: for all locales of language, script and region; variants and extensions are always lost. The transliteration: what is set is never read (for all locales). The parser of subtags is a parameter."
  },
  {
   "property": "C83",
   "status": "partial",
   "theorems": [
    "Verif.Fmt.C83_builders_partial",
    "Verif.Fmt.C83_fraction_counterexample",
    "Verif.Fmt.C83_meets"
   ],
   "note": "All builders and all chains of calls, except min_integer_digits of a fraction, which sets the digits of the numerator: no fraction ever gets its integer digits."
  },
  {
   "property": "C84",
   "status": "partial",
   "theorems": [
    "Verif.Fmt.C84_dates",
    "Verif.Fmt.C84_loc_dates_partial",
    "Verif.Fmt.C84_loc_datetime_counterexample",
    "Verif.Fmt.C84_overflow",
    "Verif.Fmt.C84_numbers",
    "Verif.Fmt.C84_currency_partial",
    "Verif.Fmt.C84_currency_prefix_counterexample",
    "Verif.Fmt.C84_locale",
    "Verif.Fmt.C84_kept",
    "Verif.Fmt.C84_meets"
   ],
   "note": "All 23 functions, for every value. Two do not: the currency format with the symbol in front for a locale shows the amount twice, and date and time for a locale are in another order than documented."
  },
  {
   "property": "C85",
   "status": "partial",
   "theorems": [
    "Verif.Fmt.C85_supported_partial",
    "Verif.Fmt.C85_us",
    "Verif.Fmt.C85_interval_counterexample",
    "Verif.Fmt.C85_defs",
    "Verif.Fmt.C85_frame",
    "Verif.Fmt.C85_create",
    "Verif.Fmt.C85_meets"
   ],
   "note": "All workbooks, locales and features. For en, cs-CZ and de-AT the default style of intervals names a format that does not exist, and date and time show the time only; for en-US and with create_default_styles all of them are there."
  },
  {
   "property": "C86",
   "status": "proved",
   "theorems": [
    "Verif.Whole.C86_statistics",
    "Verif.Whole.C86_meets"
   ],
   "note": "Packages, for counts the code can hold (below 2^32). That the counts are read again does not hold, see C63."
  },
  {
   "property": "C87",
   "status": "partial",
   "theorems": [
    "Verif.Attr.C87_last_partial",
    "Verif.Attr.C87_frame",
    "Verif.Attr.C87_refused",
    "Verif.Attr.C87_font_attr_counterexample",
    "Verif.Attr.C87_meets"
   ],
   "note": "All chains of the 217 modelled setters on the 15 kinds of styles and drawings. False of the code for set_font_attr: without its flags bold and italic text stay bold and italic."
  },
  {
   "property": "C88",
   "status": "partial",
   "theorems": [
    "Verif.Attr.C88_attributes_partial",
    "Verif.Attr.C88_misplaced_counterexample",
    "Verif.Attr.C88_named",
    "Verif.Attr.C88_meets"
   ],
   "note": "All chains of setters on all kinds. The lists of attributes are written down from the standard. Ten pairs of kind and attribute are false of the code: fo:font-size-rel, style:rotation-angle on text, style:dynamic-spacing on pages, draw:corner-radius on frames, xml_id."
  },
  {
   "property": "C89",
   "status": "partial",
   "theorems": [
    "Verif.Attr.C89_values_partial",
    "Verif.Attr.C89_no_limit_counterexample",
    "Verif.Attr.C89_text_align_counterexample",
    "Verif.Attr.C89_dash_counterexample",
    "Verif.Attr.C89_font_size_rel_counterexample",
    "Verif.Attr.C89_em_counterexample",
    "Verif.Attr.C89_default_counterexample",
    "Verif.Attr.C89_negative_counterexample",
    "Verif.Attr.C89_radius_counterexample",
    "Verif.Attr.C89_relative_counterexample",
    "Verif.Attr.C89_glyph_counterexample",
    "Verif.Attr.C89_link_counterexample",
    "Verif.Attr.C89_rel_width_counterexample",
    "Verif.Attr.C89_meets"
   ],
   "note": "All chains of setters on all kinds with regular arguments, for every printer of numbers that prints digits, a point and a minus as Rust does. Missing: the arguments for which the code writes something else, each with a counterexample. Names, zero and the limits of percentages are not looked at."
  },
  {
   "property": "C90",
   "status": "partial",
   "theorems": [
    "Verif.Meta.C90_statistics",
    "Verif.Meta.C90_template",
    "Verif.Meta.C90_reload",
    "Verif.Meta.C90_hyperlink_partial",
    "Verif.Meta.C90_target_counterexample",
    "Verif.Meta.C90_reload_name_counterexample",
    "Verif.Meta.C90_actuate_counterexample",
    "Verif.Meta.C90_meets"
   ],
   "note": "All values of the four elements, one element in a file. Missing: the target frame of hyperlinks, which is read under a name that is not in the standard, and delays with fractions that C28 loses. What the library itself writes for an automatic reload and for xlink:actuate has names that neither the standard nor its reader knows."
  },
  {
   "property": "C91",
   "status": "partial",
   "theorems": [
    "Verif.Text.C91_tree_partial",
    "Verif.Text.C91_slice_counterexample",
    "Verif.Text.C91_text_partial",
    "Verif.Text.C91_allowed_partial",
    "Verif.Text.C91_missing_counterexample",
    "Verif.Text.C91_misnamed_counterexample",
    "Verif.Text.C91_vec",
    "Verif.Text.C91_names",
    "Verif.Text.C91_display_partial",
    "Verif.Text.C91_display_counterexample",
    "Verif.Text.C91_meets"
   ],
   "note": "All chains of calls. Missing because the code is otherwise: outline levels and conditional styles are set under names that are not in the standard, slices of attributes can bring an attribute twice, and printing does not escape."
  },
  {
   "property": "C92",
   "status": "partial",
   "theorems": [
    "Verif.Sheets.C92_settings",
    "Verif.Sheets.C92_cells",
    "Verif.Sheets.C92_columns",
    "Verif.Sheets.C92_rows_partial",
    "Verif.Sheets.C92_groups",
    "Verif.Sheets.C92_view",
    "Verif.Sheets.C92_panics",
    "Verif.Sheets.C92_copy_partial",
    "Verif.Sheets.C92_copy_counterexample",
    "Verif.Sheets.C92_meets"
   ],
   "note": "All histories over 22 kinds of calls. Missing because the code is otherwise: rows that are named a second time after the row below (C09), and the view settings of the copy without data, which are reset."
  },
  {
   "property": "C93",
   "status": "partial",
   "theorems": [
    "Verif.Whole.C93_package_partial",
    "Verif.Whole.C93_flat_partial",
    "Verif.Whole.C93_meets"
   ],
   "note": "All histories of calls that a file can hold (Saveable: the limits of C12, C15, C16, C19, C24, C25 and C26 in terms of the calls; each limit has its counterexample there). C92 composed with C78 and C79. Missing: the view, the limits, and the row limits of C09."
  },
  {
   "property": "C94",
   "status": "partial",
   "theorems": [
    "Verif.Whole.C94_package_partial",
    "Verif.Whole.C94_flat_partial",
    "Verif.Whole.C94_saves",
    "Verif.Whole.C94_meets"
   ],
   "note": "All histories of calls that a file can hold (Saveable as in C93) and whose sizes can be kept (SizesFit: the limits of C60 and C62 in terms of the calls; each has its counterexample there). Composes C93 with the calculations before writing and after reading (C47, C60, C62). Missing: those limits, the zoom of the page view, which is not read (C47), and rows without content."
  },
  {
   "property": "C95",
   "status": "partial",
   "theorems": [
    "Verif.Whole.C95_package_partial",
    "Verif.Whole.C95_flat_partial",
    "Verif.Whole.C95_meets",
    "Verif.Whole.C95_rules_counterexample",
    "Verif.Whole.C95_groups_counterexample",
    "Verif.Whole.C95_paragraph_counterexample",
    "Verif.C21_shift_counterexample"
   ],
   "note": "Induction over the number of times: what was loaded meets the conditions again (Lasting), and being still the same is transitive. Lasting = the limits of C78/C79 and: no validations (each time there is one more, proved for all workbooks), no empty paragraph in a header or footer (gone after the second time), no two groups that begin at the same place (their flags are swapped the second time), no repeated rows (C21), content in the last row of each row group and in the header rows. Missing: those cases."
  },
  {
   "property": "C96",
   "status": "partial",
   "theorems": [
    "Verif.Whole.C96_package_partial",
    "Verif.Whole.C96_flat_partial",
    "Verif.Whole.C96_loaded_partial",
    "Verif.Whole.C96_next_package_partial",
    "Verif.Whole.C96_next_flat_partial",
    "Verif.C96_ready_partial",
    "Verif.C96_unready",
    "Verif.Whole.C96_meets",
    "Verif.Whole.C96_shift_counterexample",
    "Verif.Whole.C96_unready_meets"
   ],
   "note": "Induction over the history (Works), with the refinement of C01 for each call and C95 for each time the workbook is saved and loaded. Sound = the arguments fit into a file, no repeat is set, no cell is emptied in a header row or in the last row of a group, and the row is Ready. C96_ready_partial says which rows of a loaded sheet are Ready; C96_unready proves for all sheets that below a row with content and attributes an empty row is not, and C96_shift_counterexample shows what happens then: all rows below move down by one. Missing: the limits of C95, those rows, and calls that set repeats."
  },
  {
   "property": "C97",
   "status": "partial",
   "theorems": [
    "Verif.Whole.C97_package",
    "Verif.Whole.C97_left",
    "Verif.Whole.C97_other_files",
    "Verif.Whole.C97_flat_partial",
    "Verif.Whole.C97_meets",
    "Verif.Whole.C97_flat_meets",
    "Verif.Whole.C97_flat_counterexample"
   ],
   "note": "For packages the full property, for all texts: a simulation of the two readers, in which one has seen fewer styles (Book/Less.lean, Style/Form.lean). For flat files: those that were written from a workbook within the limits of C79. C97_flat_counterexample: in a file from elsewhere an element office:body within a script is no sheet for one reader and one for the other. Missing: flat files from elsewhere."
  },
  {
   "property": "C98",
   "status": "partial",
   "theorems": [
    "Verif.Archive.C98_archive_partial",
    "Verif.Archive.C98_bytes",
    "Verif.Archive.C98_histories",
    "Verif.Archive.C98_often",
    "Verif.Archive.C98_settled",
    "Verif.Archive.C98_listed",
    "Verif.Archive.C98_missing",
    "Verif.Archive.C98_unlisted",
    "Verif.Archive.C98_no_manifest",
    "Verif.Archive.C98_content",
    "Verif.Archive.C98_meets",
    "Verif.Package.manifest_text"
   ],
   "note": "C98_archive_partial composes C78, C59 and the text of the manifest (Package.manifest_text: all paths, versions and types) at the level of bytes (UTF-8). C98_bytes, C98_often (induction over the number of times) and C98_settled hold for every workbook that can be written and read. C98_listed, C98_missing, C98_unlisted, C98_no_manifest and C98_content hold for all archives. Missing: the limits of C78, and the format of zip files, which is not part of the repository (an archive is a list of names and bytes)."
  },
  {
   "property": "C99",
   "status": "partial",
   "theorems": [
    "Verif.C99_built_partial",
    "Verif.C99_panics",
    "Verif.C99_repeat",
    "Verif.C99_meets",
    "Verif.Whole.C99_lost_counterexample",
    "Verif.Whole.C99_panic_counterexample",
    "Verif.Whole.C99_lost_meets"
   ],
   "note": "The getters for all chains of calls in which set_repeat occurs. In all others the repeat count is 0 (C99_repeat), and for all workbooks, sheets and positions the file does not depend on what was put into the cell (C99_lost_counterexample), or cannot be written if the cell has a span, validation, annotation or drawing (C99_panic_counterexample). That a cell with a repeat count of 1 is in the file is C93 and C96 (add_cell is one of their calls)."
  },
  {
   "property": "C100",
   "status": "partial",
   "theorems": [
    "Verif.Whole.C100_calls",
    "Verif.Whole.C100_package_partial",
    "Verif.Whole.C100_flat_partial",
    "Verif.Whole.C100_settings",
    "Verif.Whole.C100_new_settings",
    "Verif.Whole.C100_default_styles",
    "Verif.Whole.C100_meets",
    "Verif.Whole.C100_default_meets",
    "Verif.Config.new_config"
   ],
   "note": "Invariant over all calls (BookInv), from WorkBook::new with any locale, then C94. C100_settings: each default setting comes back, but for the empty ones (name and setup of the printer), which are lost. Missing: the limits of the sheets as in C94 (SheetsOk, SizesFit), validations in flat files (C65), scripts and additional files (C74, C98), detached sheets (C42), set_version."
  },
  {
   "property": "C101",
   "status": "partial",
   "theorems": [
    "Verif.Codec.C101_duration",
    "Verif.Codec.C101_duration_refused_counterexample",
    "Verif.Codec.C101_months_counterexample",
    "Verif.Codec.C101_date_accepts",
    "Verif.Codec.C101_date",
    "Verif.Codec.C101_no_date_counterexample",
    "Verif.Codec.C101_date_refused_counterexample",
    "Verif.Codec.C101_west_counterexample"
   ],
   "note": "For all texts, both directions. The property is false where the standard allows more: negative durations, years and weeks are refused, months are refused, offsets are refused (east) or ignored (west), and a date that does not exist is read as 1970-01-01 (counterexamples)."
  },
  {
   "property": "C102",
   "status": "partial",
   "theorems": [
    "Verif.Codec.C102_cell",
    "Verif.Codec.C102_accepts",
    "Verif.Codec.C102_text",
    "Verif.Codec.C102_void_counterexample",
    "Verif.Codec.C102_untyped_counterexample"
   ],
   "note": "C102_cell for all attributes (no name twice, as in well-formed XML) and any content. Acceptance for cells without content, and for paragraphs of plain text (C102_text). The property fails for the value type void, which makes the file unreadable, and the text of a cell without value type is lost. Missing: which other contents are accepted."
  },
  {
   "property": "C103",
   "status": "partial",
   "theorems": [
    "Verif.C103_only",
    "Verif.C103_cells_partial",
    "Verif.C103_styled_partial",
    "Verif.C103_thousand_counterexample"
   ],
   "note": "For all tables (FileTable.OK: counts of at least one) and the default options. The first half (C103_only) without further limits. For the other half rows may be repeated at most 1000 times: of a row near the end of the table that is repeated more often only the first keeps its cells (C103_thousand_counterexample). Missing: empty cells that are repeated, the options that keep repeat counts (C33), and that a table can be read at all."
  },
  {
   "property": "C104",
   "status": "partial",
   "theorems": [
    "Verif.Codec.C104_cell",
    "Verif.Codec.C104_annotation",
    "Verif.Codec.C104_frame",
    "Verif.Codec.C104_object_counterexample",
    "Verif.Codec.C104_group_counterexample",
    "Verif.Codec.C104_line_counterexample"
   ],
   "note": "For all trees in which a paragraph or list has no element of its own name inside (C32_nested_counterexample), and in which elements of other kinds have none of the known ones inside. The property is false for embedded objects (lost), groups of drawings (their frames become frames of the cell) and lines without text that have an end tag (lost, although the empty tag is kept): counterexamples. Missing: comments and CDATA sections, which the model of the parser does not have."
  },
  {
   "property": "C105",
   "status": "partial",
   "theorems": [
    "Verif.TableXml.C105_cell",
    "Verif.TableXml.C105_cell_void",
    "Verif.TableXml.C105_table",
    "Verif.C105_accepts",
    "Verif.TableXml.C105_cells_partial",
    "Verif.TableXml.C105_spelling",
    "Verif.TableXml.C105_column_counterexample",
    "Verif.TableXml.C105_empty_counterexample"
   ],
   "note": "For all trees without a table inside the table, with the conditions of C103 and C104 on counts and contents. C105_table is exact: the table is read if and only if its row and column tags are accepted, and then with this result. The property is false for columns that are written with an end tag (lost) and for tables that begin with a header or a group without rows (not readable): counterexamples. Missing: rows repeated more than 1000 times (C103_thousand_counterexample), CDATA sections (C108_cdata_counterexample)."
  },
  {
   "property": "C106",
   "status": "partial",
   "theorems": [
    "Verif.Valid.C106_rules_partial",
    "Verif.Valid.C106_empty_counterexample"
   ],
   "note": "For all lists in which names are different and not empty, conditions have the prefix of: and messages have paragraphs or nothing. The property is false for validations that are empty tags, which is how validations without messages are usually written: they are lost, whatever is around them (counterexample, for all lists). Messages are stored under another name (C49_messages_counterexample)."
  },
  {
   "property": "C107",
   "status": "partial",
   "theorems": [
    "Verif.TableXml.C107_body",
    "Verif.TableXml.C107_cells_partial"
   ],
   "note": "For all bodies whose tables meet the conditions of C105 and whose validations those of C106. Missing: what is missing there (rows repeated more than 1000 times, columns with end tags, empty validation tags, CDATA sections)."
  },
  {
   "property": "C108",
   "status": "partial",
   "theorems": [
    "Verif.Codec.C108_value",
    "Verif.Codec.C108_error",
    "Verif.Codec.C108_one",
    "Verif.Codec.C108_text",
    "Verif.Codec.C108_cell",
    "Verif.Codec.C108_cdata_counterexample"
   ],
   "note": "C108_value and C108_error are exact for values. For texts: a text without tags is a content that says what it stands for, and a cell with such a paragraph has this text. The property is false for CDATA sections: their text is lost, everywhere (counterexample, for all texts). An unknown name in a text stays as it is in the file, it is not refused."
  },
  {
   "property": "C109",
   "status": "proved",
   "theorems": [
    "Verif.Whole.C109_same",
    "Verif.Whole.C109_flat",
    "Verif.Whole.C109_package"
   ],
   "note": "For all texts that are spellings of trees of elements: white space in tags, quotes, comments between tags and texts, an optional declaration. Processing instructions and document type declarations are not in the model."
  },
  {
   "property": "C110",
   "status": "partial",
   "theorems": [
    "Verif.Whole.C110_body",
    "Verif.Whole.C110_cells_partial",
    "Verif.Whole.C110_meets"
   ],
   "note": "For all files with one body, whose tables and validations meet the conditions of C105 and C106. Missing: what is missing in C107."
  },
  {
   "property": "C111",
   "status": "partial",
   "theorems": [
    "Verif.Style.C111_file",
    "Verif.Style.C111_package",
    "Verif.Style.C111_flat",
    "Verif.Style.C111_meets",
    "Verif.Style.C111_header_counterexample",
    "Verif.Style.C111_empty_counterexample"
   ],
   "note": "For all files whose style sections meet StylesFine: no name or attribute twice, counts and names readable, no empty tags as style of a header or footer, no formats that are empty tags. For those two the property is false (counterexamples): an empty style of a header is never left, so the properties of the footer also become its own, and an empty format swallows the styles behind it. Master pages are not part of it."
  },
  {
   "property": "C112",
   "status": "partial",
   "theorems": [
    "Verif.Master.C112_masters_partial",
    "Verif.Master.C112_meets",
    "Verif.Master.C112_empty_counterexample"
   ],
   "note": "For all sections that meet MastersFine: no attribute twice, no nested header with the same name, regions whose content can be read. The property is false for master pages that are empty tags, which is how master pages without header and footer are written: the page swallows everything behind it, to the end of the file (counterexample, for all that follows)."
  },
  {
   "property": "C113",
   "status": "partial",
   "theorems": [
    "Verif.Script.C113_scripts_partial",
    "Verif.Script.C113_meets"
   ],
   "note": "For all sections that meet ScriptsFine: no attribute twice, link attributes readable, scripts with start tag and end tag, listeners as empty tags. Missing: scripts that are empty tags (C74_empty_counterexample) and listeners with an end tag, which the model passes over (DESIGN.md)."
  },
  {
   "property": "C114",
   "status": "partial",
   "theorems": [
    "Verif.Config.C114_settings",
    "Verif.Config.C114_found",
    "Verif.Config.C114_named",
    "Verif.Config.C114_indexed",
    "Verif.Config.C114_meets",
    "Verif.Config.C114_empty_counterexample"
   ],
   "note": "C114_settings is exact for all files with one settings section that meets ItemsFine: items have names and types, values have the form of their types, no element is in one of its own kind as text. The property is false for values that are empty tags, which is how empty texts are often written: they are lost (counterexample)."
  },
  {
   "property": "C115",
   "status": "partial",
   "theorems": [
    "Verif.Meta.C115_meta",
    "Verif.Meta.C115_meets",
    "Verif.Meta.C115_empty_counterexample",
    "Verif.Meta.C115_reference_counterexample"
   ],
   "note": "C115_meta is exact for all files with one metadata section that meets MetaFine: dates, numbers and attributes have their forms, a value with a name has one text. The property is false for elements that are empty tags, which are lost with all their attributes, and for values with names whose text has a reference, of which only the last piece is kept (counterexamples, for all attributes and all texts)."
  },
  {
   "property": "C116",
   "status": "partial",
   "theorems": [
    "Verif.Whole.C116_flat",
    "Verif.Whole.C116_package",
    "Verif.Whole.C116_cells_partial",
    "Verif.Whole.C116_meets",
    "Verif.Whole.C116_package_meets",
    "Verif.Whole.C116_empty_counterexample",
    "Verif.Whole.C116_empty_meets"
   ],
   "note": "C116_flat and C116_package are for all files whose sections meet the conditions of C107 and C111-C115, no section twice, sections as elements of the root element. The property is false for a flat file with a master page that is an empty tag: no sheet is read, whatever the body is (counterexample for all bodies). The exceptions of C107 and C111-C115 hold here too."
  },
  {
   "property": "C117",
   "status": "partial",
   "theorems": [
    "Verif.Whole.C117_flat_partial",
    "Verif.Whole.C117_package_partial",
    "Verif.Whole.C117_complete_partial",
    "Verif.Whole.C117_complete_meets",
    "Verif.Whole.C117_meets",
    "Verif.Whole.C117_broken_meets",
    "Verif.Whole.C117_truncated_counterexample",
    "Verif.Whole.C117_header_counterexample",
    "Verif.Whole.C117_repeat_counterexample",
    "Verif.Whole.C117_condition_counterexample",
    "Verif.Whole.C117_duration_counterexample",
    "Verif.Whole.C117_script_counterexample"
   ],
   "note": "The two theorems are for all texts, also those that are not well-formed or end too early, without the traps that Smooth names: for these the property is false, and for each kind there is a file that makes the reader panic or wait (counterexamples). C117_complete_partial says the same about files of complete elements, with the traps as seen in the tree. Also left out: builds with overflow checks, files with 2^32 events, and the counters of rows and columns, which are unbounded in the model."
  },
  {
   "property": "C118",
   "status": "partial",
   "theorems": [
    "Verif.Fmt.C118_push_partial",
    "Verif.Fmt.C118_push_whole",
    "Verif.Fmt.C118_fraction_counterexample",
    "Verif.Fmt.C118_meets"
   ],
   "note": "All functions, all arguments, all sequences. The attribute number:min-integer-digits of push_fraction is left out, because it is lost for all arguments (counterexample). Which functions a type of format offers is decided by the compiler and is not modelled."
  },
  {
   "property": "C119",
   "status": "partial",
   "theorems": [
    "Verif.Valid.C119_setters",
    "Verif.Valid.C119_saved_partial",
    "Verif.Valid.C119_meets"
   ],
   "note": "In memory for all sequences of calls. The file is the one of a package. Missing after a file: the messages and lists that are not shown, for which the property is false (C49 counterexamples), and base cells whose reference cannot be read (C35). Conditions are texts; the functions that make them are C48."
  }
 ]
}