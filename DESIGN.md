# Formal model of thscharler/spreadsheet-ods in Lean 4

This file says what is modelled, how each property of `properties.jsonl` is stated and proved, what is
trusted, and where the code violates a property. `MANIFEST.json` maps properties to theorems;
`seeded/LOG.jsonl` records the wrong programs the theorems were tested against.

## Trusted base

* Lean 4.33.0's kernel. The theorems depend on no axioms other than `propext`, `Classical.choice` and
  `Quot.sound`; the axioms of each are listed below. No axioms are added; there is no `sorry`, `admit`,
  `native_decide` or `bv_decide`. Mathlib is not used.
* The reading of the Rust source. Nothing was compiled or run: each definition cites the file and lines of
  `/repo` it models, and says where it simplifies. That the model is the program is by reading.
* The following assumptions about code that is not in `/repo/src`:
  * `quick-xml` 0.38: the tokeniser (`Xml/Token.lean`) stands for its reader: tags, attributes in quotes,
    references as their own events, texts between them, end tags compared with the open element. `Eof` is
    returned again and again. White space within tags, both kinds of quotes, comments, CDATA sections, the
    declaration and numeric references are read as in `quick-xml`; processing instructions end at the first `>`, and
    document type declarations are refused.
  * `chrono`: `%Y-%m-%dT%H:%M:%S%.f` prints years below 10000 with four digits and others with a sign
    (`Codec/Time.lean`).
  * `f64`: printing and parsing are the parameter `Floats`; theorems that need it assume of the number at
    hand that it is read as it was written (`FloatOk`), which Rust's shortest printing guarantees for finite
    numbers.
  * `HashMap`: an association list whose order is not relied upon: where the code iterates over one, the
    theorem holds for every order of the list.
  * `std::io::BufWriter` and `File`: a buffer in front of a store of bytes, whose drop ignores errors
    (`Save/Model.lean`). The zip archive is the list of its entries; adding a name twice is an error (zip 6.0).
  * `u32` arithmetic: natural numbers, with the bound explicit where a property is about overflow. `Refs.Ints`
    distinguishes builds with and without overflow checks. Counters of generated names are assumed not to
    run over 2^32.
  * `nom` combinators are functions on lists of characters with the ordered choice and the error kinds that
    decide which alternative is tried.

## Conventions

* `BTreeMap` is a strictly sorted association list, `Vec` a `List`, `String` a `List Char` where its
  characters matter and Lean's `String` where it is only compared.
* A panic is an explicit error value (`none`, `.error .panic`), an endless loop is `.error .endless`.
* Loops are functions with fuel; the theorems show that the fuel given suffices (readers: the number of
  events; no theorem about readers has a bound on the size).
* The XML the library writes is a list of calls of `XmlWriter`, whose characters are modelled (C31). The
  readers are state machines over the events of the tokeniser. `TableXml`, `Style`, `Config`, `Valid`, `Meta`
  and `Codec/Cell` are stated on characters of the file.
* If a property is false of the code, a theorem `…_counterexample` states the negation on a concrete
  witness and a theorem `…_partial` what does hold. `…_exact` theorems say what the code does in every
  case. `…_meets` theorems and `example`s show that the hypotheses can be met by non-trivial cases.

## What is modelled

| Source | Model |
|---|---|
| src/sheet_.rs cell store, setters, getters, copies | `Store` |
| src/sheet_.rs iterators, size hints | `Iter` |
| src/sheet_.rs column and row headers, groups, header ranges | `Header` |
| src/io/write.rs `write_sheet`, `calc_col_headers`, row and column groups, header ranges, gaps, repeats, covered cells | `Grid`, `Hidden` |
| src/io/read.rs `read_table`, rows, columns, cells, row and column repeats | `Grid`, `TableXml` |
| src/io/write.rs `write_cell`, src/io/read.rs `read_table_cell`, `read_text_or_tag`, content of cells | `Codec` |
| src/value_.rs: conversions and getters of `Value`, without `Decimal` and `f32`; src/xmltree.rs `extract_text` | `Conv/Float.lean`, `Conv/Model.lean` |
| src/draw.rs, `write_annotation`, `write_draw_frame`, `write_draw_image` and their readers, base64 | `Codec/Note.lean`, `Codec/Base64.lean` |
| src/io/write.rs `write_office_body`, src/io/read.rs `read_office_body` | `TableXml/Body.lean` |
| src/io/parse.rs, src/io/format.rs | `Codec/Num.lean`, `Codec/Time.lean` |
| src/io/xmlwriter.rs | `Xml/Writer.lean` |
| src/xmltree.rs, `write_xmltag`, `read_xml` | `Xml/Tree.lean` |
| src/refs.rs, src/refs/format.rs, src/refs/parser.rs, src/refs_impl | `Refs` |
| src/workbook_.rs stores of styles, generated names, sheet list, detaching | `Book` |
| src/attrmap2.rs | `Book/AttrMap.lean` |
| src/config.rs, `write_config`, `read_config` | `Config` |
| src/io/write.rs `calc_config`, src/io/read.rs `calc_derived`, sheet and workbook view settings | `Config/View.lean` |
| src/io/read.rs `default_settings` | `Config/Default.lean` |
| src/workbook_.rs `WorkBook::new`, `new_empty` and the calls that change a workbook | `Whole/New.lean` |
| src/condition.rs | `Cond` |
| src/validation.rs, its writer and reader | `Valid` |
| src/style/*, src/format: which styles are written where, with which attributes, and what is read | `Style` |
| src/style/units.rs enumerations, lengths | `Enum`, `Width` |
| `calc_col_header_styles`, `calc_row_header_styles`, widths in `calc_derived` | `Width` |
| src/style/masterpage.rs, `write_masterpage`, `write_regions`, `read_master_page`, `read_headerfooter` | `Master` |
| `Script` and `EventListener` of src/workbook_.rs, src/xlink.rs, `write_office_scripts`, `read_scripts` | `Script` |
| `NamespaceMap`, `write_xmlns`, the root elements, `read_namespaces_and_version` | `Ns` |
| `write_ods_impl`, `write_fods_impl`, `read_ods_impl`, `read_fods_impl`: all sections of all files | `Whole` |
| `read_ods_impl_content_only`, `read_fods_impl_content_only`, missing files, the option `content_only` | `Whole/Content.lean` |
| `write_ods_manifest`, `read_ods_manifest`, `create_manifest_rdf`: the texts | `Package/Xml.lean` |
| the whole archive: `write_ods_impl`, `read_ods_impl`, `read_ods_impl_content_only` with the manifest and the additional files | `Archive/Model.lean` |
| `calculations` before writing and `calc_derived` after reading, on the whole workbook | `Whole/Cycle.lean` |
| src/formula.rs and the constructors of src/refs.rs | `Formula` |
| src/format/builder.rs, src/format/create.rs, src/locale, src/defaultstyles.rs, `locale_settings` | `Fmt` |
| the setters of src/macro_attr_*.rs as used in src/style/*.rs and src/draw.rs | `Attr` |
| src/text.rs, src/macro_text.rs, the builder methods and `Display` of src/xmltree.rs | `Text` |
| `Sheet` of src/sheet_.rs with all its setters as one state | `Sheet` |
| src/metadata.rs, its writer and reader | `Meta` |
| src/manifest.rs, `write_ods_impl`, `create_manifest`, `read_ods_manifest`, extra entries | `Package` |
| `write_ods`, `write_ods_buf`, `write_fods`, … on files and buffers | `Save` |

Not modelled: the bytes of zip archives and UTF-8; ods `font-face` contents; passwords; memory and time.

## Where the code violates a property

Found while modelling. Each is a theorem on a concrete witness, or a general one.

* `C03_peek_fresh_counterexample`: C03 is violated for a fresh iterator: `peek_cell` is `None` although `next` yields a cell.
* `C04_excluded_start_counterexample`: C04 is violated for an exclusive start: the cell (0, 5) is not in the rectangle behind (0, 0) but is yielded.
* `C04_open_end_counterexample`: Further violation: an open end starting behind the used area panics (debug build) instead of yielding nothing.
* `C05_diverges_counterexample`: A small sheet where `iter_cols(..)` never ends: two cells on the anti-diagonal.
* `C05_empty_rect_counterexample`: A rectangle without rows panics in a failed assertion instead of yielding nothing.
* `C06_hint_after_counterexample`: C06 is violated at every later point: after at least one call the upper bound is one less than the number of items still to come, as long as there are any.
* `C06_rows_hint_counterexample`: C06 is violated by `iter_rows` for every rectangle that starts in column 0: the upper bound is zero although cells are yielded.
* `C08_leak_counterexample`: C08 is violated on a repeated column: three equal columns are merged when the sheet is written; then hiding the last one also hides the next column, for which nothing was ever set, and gives it their style.
* `C08_second_call_counterexample`: C08 is violated on a repeated column by a second call: the visibility of column 1 is set, its style changes.
* `C09_next_row_counterexample`: C09 is violated in general: row 1 has a style; the second call for row 0 removes it.
* `C11_rows_counterexample`: C11 is violated for rows: hiding the group of the rows 0 to 2 makes the filtered row 3 visible, and removes the style of row 1.
* `C12_stale_repeat_counterexample`: `set_row_repeat(5, 3)`, then `set_row_repeat(5, 1)`: every row reports a repeat of at most 1, yet the cell at `(9, 0)` comes back at `(7, 0)`; and with cells in rows 6 and 7 the sheet cannot be written at all.
* `C12_big_repeat_counterexample`: A row with cells repeated 1001 times: it is written so, but the copies are gone after reading.
* `C12_trailing_style_counterexample`: A styled cell without a value, repeated twice at the end of its row: it is gone after reading.
* `C13_group_panic_counterexample`: `add_row_group(1, 1)` with cells in rows 0 and 3 only: the counter of open groups underflows and writing panics.
* `C15_header_gap_counterexample`: Header rows 0 to 1 with cells in rows 0 and 2: the tags are not balanced, the sheet cannot be read back (C15, C24).
* `C16_unclosed_group_counterexample`: Columns 0 to 2 with the same style in a column group: the group is opened and never closed, the sheet cannot be read back (C16, C25).
* `C17_gap_counterexample`: C17 is violated if there is a column between two equal ones: columns 0 and 5 get the style `a`; after merging column 1 has this style and column 5 has lost it.
* `C18_overlap_counterexample`: C18 is violated for overlapping spans: five equal columns are merged when the sheet is written, a setter is called for the second one, then a border at column 5 makes column 5 look like them.
* `C19_hole_counterexample`: Columns 0 and 2 with style "a", column 1 with no attribute: after writing and reading column 1 has the style and column 2 has none.
* `C20_leak_counterexample`: Row 0 has a style and a cell, row 1 nothing, row 2 a cell: after writing and reading row 1 has the style of row 0.
* `C20_gap_counterexample`: Two empty rows between rows with cells, only the second of them hidden: the visibility of the first is written for both.
* `C21_shift_counterexample`: A styled row with a cell, repeated twice: read, written and read again the cell in row 3 has moved to row 4.
* `C24_gap_counterexample`: Header rows 1 to 3 with cells in rows 0 and 5 only: the last row of the header is lost, it is read back as 1 to 2.
* `C25_display_counterexample`: Row groups 0..0 (hidden) and then 0..1 (shown) around it: the display flags come back swapped.
* `C26_style_counterexample`: C26 fails if the workbook has a default style for the type of the value: a cell without style comes back with this style.
* `C26_textXml_counterexample`: C26 fails for a `TextXml` of one paragraph that is only text: it comes back as `Text`.
* `C26_notParagraph_counterexample`: C26 fails for a `TextXml` whose tag is not a paragraph: it is lost, and with it the cell.
* `C26_attributes_counterexample`: C26 fails for the attributes of a paragraph that is only text.
* `C27_lines_counterexample`: C27 fails for two lines, which come back as XML paragraphs.
* `C27_blank_counterexample`: C27 fails for blank lines, which are lost.
* `C27_empty_counterexample`: C27 fails for the empty text: the cell is lost.
* `C28_millis_counterexample`: C28 fails for 5 milliseconds, which come back as half a second.
* `C28_negative_counterexample`: C28 fails for negative durations, which cannot be read.
* `C28_panic_counterexample`: C28: near the end of the range reading panics.
* `C29_symbol_counterexample`: C29 fails for symbols with markup characters.
* `C31_close_counterexample`: C31, what the last hypothesis is for: `close` does not finish an open start tag.
* `C31_raw_attr_counterexample`: C31, what the hypothesis on raw attributes is for: an attribute written without escaping may end the value early.
* `C32_nested_counterexample`: C32 fails for an element in an element of the same name: what is around the inner element is lost.
* `C32_flat_counterexample`: C32 fails in a flat file: the line breaks of the writer become text.
* `C32_split_counterexample`: C32, why only what the tree says is the same: texts are split at markup characters.
* `C33_last_counterexample`: The last column of a `u32` is the exception: its name is refused, and in a build with overflow checks parsing it panics.
* `C33_wrap_counterexample`: In a build without overflow checks longer texts are accepted and wrap around: two different names give the same column.
* `C35_hyphen_counterexample`: Sheet names with a hyphen are written without quotes, and refused when read.
* `C35_dollar_counterexample`: A sheet name with a leading dollar loses it.
* `C37_cut_counterexample`: A list is cut at the first range that does not parse, without an error.
* `C38_empty_counterexample`: Without the condition on the names it fails: the empty name is written like no name.
* `C39_checked_counterexample`: With overflow checks a column of eight letters panics instead of giving an error.
* `C41_rename_counterexample`: Renaming a style with `*_mut` and `set_name` does not move it: it is found under its old name only, and its reference (`style_ref`) is wrong.
* `C42_insert_counterexample`: C42 fails if a sheet is inserted in front meanwhile: the new sheet is overwritten, and the slot the sheet came from stays without sheet.
* `C42_remove_counterexample`: C42 fails if a sheet in front is removed meanwhile: another sheet is overwritten, or there is a panic.
* `C42_idx_counterexample`: C43 while a sheet is detached: `sheet_idx` panics if it meets it.
* `C44_addAll_counterexample`: With `add_all`, which the other calls of the crate use for attributes read from a file, there can be duplicate keys: `clear_attr` then shows the hidden value.
* `C46_empty_counterexample`: C46 fails for empty texts: the entry is gone.
* `C46_value_in_map_counterexample`: C46 fails for values directly in a map: they are written, but not read.
* `C46_panic_counterexample`: C46: other shapes cannot be written at all, e.g. a value at the top.
* `C46_raw_counterexample`: C46: a base64 text with markup is written as it is, and the file is refused.
* `C47_page_zoom_counterexample`: C47 fails for the zoom of the page view: it is written but not read.
* `C47_same_name_counterexample`: C47 fails for two sheets with one name: both have the settings of the last one.
* `C47_panic_counterexample`: C47: a configuration that was read from a file can make the save panic.
* `C47_empty_name_counterexample`: C47 fails without the first condition: the active table of a workbook whose sheets have empty names is lost (it is written as an empty text).
* `C49_messages_lost`: C49 (messages): whatever messages a validation has, it has the default messages after reading.
* `C49_messages_counterexample`: The hypotheses can be met; the help message is found under a name nobody gave.
* `C49_display_counterexample`: A validation whose list is not shown is written, and the file is refused when it is read.
* `C49_panic_counterexample`: A condition of fewer than three bytes in a file is a panic.
* `C50_actuate_counterexample`: The text of no actuate value is one that is read: reading such a value is an error.
* `C50_display_counterexample`: A validation list that is not displayed is written with a text that is not read.
* `C50_number_format_counterexample`: A page number format given as a text can have the same text as one of the others.
* `C51_content_counterexample`: A named style with the origin `Content`: it is in no file of the package.
* `C51_flat_then_package_counterexample`: A flat file converts the workbook: saved as a flat file and then as a package, its named styles are lost.
* `C51_from_flat_counterexample`: A flat file that is read and written as a package: its named styles are lost.
* `C51_font_counterexample`: The second font of `styles.xml` gets the origin `Content`.
* `C51_flat_font_counterexample`: Fonts with the origin `Styles` are not in a flat file.
* `C51_tabs_counterexample`: Tab stops without other properties of the paragraph are lost.
* `C51_format_counterexample`: A format with the use `Default` is read as `Named`.
* `C52_counterexample`: A default style, and an automatic style with the first generated name: the default style is lost.
* `C53_embedded_counterexample`: A text within a number with a character that is escaped: only the end is read.
* `C53_flat_counterexample`: In a flat file a line break takes the place of a text within a number.
* `C53_number_counterexample`: The content of a number without position is lost.
* `C54_counterexample`: C54 is false: saving a workbook without sheets fails, and the file that was there is gone, whatever the zip writer does when it is dropped. (Two files with different contents cannot both have survived.)
* `C55_fods_counterexample`: C55 is false for `write_fods`: a disk that takes nothing at all. Every document that fits the buffer is reported as saved, and the file is empty.
* `C56_ods_counterexample`: C56 is false for `write_ods_buf`: for every document and each longer buffer.
* `C57_shared_counterexample`: C57 fails if columns share a style: columns with the style `co1` and the widths 1 cm and 3 cm. After saving and reading both are 3 cm wide.
* `C57_default_counterexample`: C57 fails if a column without width shares the style: the other column loses its width.
* `C57_optimal_counterexample`: C57 fails if the style says that the width is computed: `set_col_width` does not change this, and the width is lost. Every style of a column that was saved without width says so.
* `C57_missing_counterexample`: C57 fails if there is no such style: two workbooks that differ in the width of a column only. They are saved as the same stores and the same table.
* `C57_heights_counterexample`: C57 fails if rows share a style: two workbooks that differ in the height of the first row only, 1 cm and 3 cm. The second row has the same style and is 3 cm high. They are saved as the same styles and the same table.
* `C57_style_then_height_counterexample`: C57 fails for a row that gets first its style and then its height, whatever row, style and height: a header that covers no row is left behind by the second call, and when the workbook is saved this header makes the style say that the height is computed. In memory the height is there; whoever reads the saved styles gets the default.
* `C59_counterexample`: C59 is false for a workbook to which somebody adds one of these names: it cannot be saved.
* `C61_default_counterexample`: C61, the negative: the default length is written as an empty text, which is refused.
* `C62_year_counterexample`: C62 fails from the year 10000 on: the year is written with a plus sign, which the parser refuses.
* `C62_default_counterexample`: C62: a text that is not a date of the calendar is read as 1970-01-01, without an error.
* `C62_cut_counterexample`: C62: fields that are too large for 32 bits are cut: this is read as the year 1.
* `C63_lost_counterexample`: C63 fails for a template, whatever the rest is: it is written, and not read.
* `C63_string_counterexample`: The characters of a string of the user up to the last one that is escaped are lost.
* `C63_short_counterexample`: An editing time of less than a second is lost.
* `C63_year_counterexample`: A date after the year 9999 makes the file unreadable.
* `C63_name_counterexample`: The name of a value of the user is not escaped: with a quote in it the value gets another name.
* `C64_endless_counterexample`: A file that ends inside a table: the reader waits for the end of the table forever.
* `C64_column_counterexample`: A column that another program has written with a start tag and an end tag is not read, the following columns take its place.
* `C64_no_ranges_counterexample`: Print ranges without a range come back as no print ranges.
* `C65_moved_counterexample`: The named expressions of a sheet are written behind the end of its table, and are found among those of the workbook.
* `C66_heading_counterexample`: C66 fails for a heading: the text is lost.
* `C66_list_counterexample`: C66 fails for a list in a list: it does not come back (the reader of the list stops at the end of the inner list, see `C32_nested_counterexample`).
* `C66_flat_counterexample`: C66 fails in a flat file: the line breaks of the writer become text.
* `C66_year_counterexample`: C66 fails for a date after the year 9999: the cell, and so the file, cannot be read.
* `C67_binary_counterexample`: C67 fails for binary data with markup characters, which `set_binary_base64` accepts: it is not escaped, and the file cannot be read.
* `C68_padding_counterexample`: What other programs write, with padding or line breaks as the standard allows, is refused by `get_binary`.
* `C69_long_counterexample`: 64-bit numbers of more than 53 bits do not come back: the number got is another one.
* `C70_str_counterexample`: C70 fails for `as_str_opt`: a text of two lines is not a text any more.
* `C70_blank_counterexample`: C70 fails for blank lines.
* `C72_heading_counterexample`: C72 is false of the code: a heading comes back as a paragraph.
* `C72_style_counterexample`: C72 is false of the code: a paragraph of plain text loses its style.
* `C72_empty_counterexample`: C72 is false of the code: an empty header that is shown comes back as one that is not.
* `C73_hidden_counterexample`: C73 is false of the code: whatever is put into a header or footer of a new master page by changing it in place, it is written as not shown and comes back as not shown.
* `C74_scripts_counterexample`: C74: a workbook with a script is written to a file that cannot be read: the end tag of a script is written as `<//office:script>`. This holds for all scripts and all listeners.
* `C74_listener_counterexample`: C74: event listeners are written so that their own reader refuses them: `xlink:actuate` is written as `OnLoad` or `OnRequest`, and only `onLoad` and `onRequest` are read. This holds for all listeners, also when no script stands in the way.
* `C74_empty_counterexample`: C74: an empty script, as another program may write it, is not read: the reader panics at the end of the section.
* `C75_flat_counterexample`: C75: of a flat file no foreign prefix is kept: it is read to one place and written from another. Whatever the file declares, what is written has only the prefixes of the crate.
* `C75_default_counterexample`: C75: the default namespace of a root element is not kept: no file that is written has one, after any history.
* `C77_meta_counterexample`: C77: a new workbook with a title: `dc:title` is written, and `dc` is not declared.
* `C78_listeners_counterexample`: C78 is false of the code for event listeners of a workbook without scripts: none of them comes back, whatever else there is.
* `C80_macro_there_counterexample`: `cell!(table => …)` does not heed the markers: every reference to a cell of another sheet is absolute, so that it means another reference than the one asked for, unless both markers are written.
* `C81_release_counterexample`: Without the checks a block that reaches past the last row gives a range without any cell, not even the corner.
* `C81_last_counterexample`: The block of the very last cell.
* `C82_rest_counterexample`: Variants and extensions of a locale are lost.
* `C82_transliteration_counterexample`: The locale for the transliteration is stored but never read: what is read is the language and country of the format, whichever locale was set.
* `C83_fraction_counterexample`: `min_integer_digits` of a fraction does something else: no fraction ever has the attribute for its integer digits, and the call overwrites the digits of the numerator.
* `C84_loc_datetime_counterexample`: The format of date and time for a locale, documented as Y-M-D H:M:S, begins with the day.
* `C84_currency_prefix_counterexample`: With the symbol in front for a locale, the amount is shown twice, whatever the locale and the symbol.
* `C85_interval_counterexample`: For `en`, `cs-CZ` and `de-AT` the formats for times and intervals replace the one for date and time: in a new workbook the default style of intervals names a format that does not exist, and date and time show the time only.
* `C87_font_attr_counterexample`: Making text neither bold nor italic with `set_font_attr` does not: text that was bold stays bold, text that was italic stays italic.
* `C88_misplaced_counterexample`: C88 is false of the code: each of the misplaced attributes can be set, and the standard does not have it there.
* `C89_no_limit_counterexample`: C89 is false of the code: `HyphenationLadderCount::NoLimit` is spelled wrong.
* `C89_text_align_counterexample`: C89 is false of the code: two alignments of text are not in the standard.
* `C89_dash_counterexample`: C89 is false of the code: a width of lines, "dash", is not in the standard.
* `C89_font_size_rel_counterexample`: C89 is false of the code: a relative font size has to be a length, and a percentage can be asked for.
* `C89_em_counterexample`: C89 is false of the code: the unit `em` can be chosen for a height, which no length of the standard has.
* `C89_default_counterexample`: C89 is false of the code: the default height is written as an empty text.
* `C89_negative_counterexample`: C89 is false of the code: a negative height is taken and written.
* `C89_radius_counterexample`: C89 is false of the code: the radius of corners is written without a unit.
* `C89_relative_counterexample`: C89 is false of the code: a relative width of a column that is printed with a point is not one of the standard.
* `C89_glyph_counterexample`: C89 is false of the code: angles are taken where the standard knows only zero.
* `C89_link_counterexample`: C89 is false of the code: whatever is chosen for the links of an image, the standard does not have it, but for the type "simple".
* `C89_rel_width_counterexample`: C89 is false of the code: the relative width of a table has to be a percentage.
* `C90_target_counterexample`: C90 fails for the name of the frame: the name of the attribute that is read is not the one of the standard.
* `C90_reload_name_counterexample`: What the library writes for an automatic reload has a name that is not in the standard: it is not read with two tags either, whatever its attributes are.
* `C90_actuate_counterexample`: What the library writes for `xlink:actuate` of a template is refused by its reader, when it is written with two tags: the word has another case than that of the standard.
* `C91_slice_counterexample`: A slice with an attribute that is there: the attribute is there twice, and the old value counts.
* `C91_missing_counterexample`: No chain of calls gives a heading the outline level that the standard requires; nor anything a conditional style.
* `C91_misnamed_counterexample`: What is set instead is not an attribute of the standard.
* `C91_display_counterexample`: What is printed is not escaped: a text can be read as a tag, and a value as another attribute.
* `C92_copy_counterexample`: C92 is false of the code for the view: the copy of any sheet has the view of a new sheet, whatever was set.
* `C95_rules_counterexample`: C95 is false of the code for validations: with any validation, each time there is one more that was not there before. (All validations that were there are still there, `C78_package_partial`.)
* `C95_groups_counterexample`: C95 is false of the code for two row groups that begin in the same row: the first time they stay as they are, the second time the inner one is shown and the outer one is hidden.
* `C95_paragraph_counterexample`: C95 is false of the code for an empty paragraph in a header or footer: it is there after the first time, and gone after the second.
* `C96_shift_counterexample`: C96 is false of the code for rows that are not ready: a sheet has cells in the rows 0 and 2, and row 0 has a style. It is saved and loaded, a cell is set in row 1, and it is saved and loaded again. Then the cell of row 2 is in row 3.
* `C97_flat_counterexample`: C97 is false of the code for some flat files that the library did not write: what stands in a script as an element `office:body` is no sheet for the reader of the whole file, but one for the reader of the content.
* `C99_lost_counterexample`: C99, where it fails. Whatever value, formula and style a cell is given, if its repeat count is not set, the package and the flat file are those of a cell to which nothing was given: none of it is in the file. This holds for all workbooks, sheets and positions.
* `C99_panic_counterexample`: C99, where it fails. If the repeat count is not set and the cell has a validation, a span, an annotation or a drawing, no file can be written at all.

Not stated as theorems:

* Writing a flat file changes the origin of the styles of the workbook in memory.
* `clone_no_data` resets the configuration of the sheet.
* `set_header_rows` does not check `from <= to`.
* The values of `meta:generator`, base64 texts and image data are written without escaping.
* An empty tag of a value style from another program swallows the styles behind it.
* The use-optimal flag of column and row styles is set for default sizes and never reset.

## Where the model and the code differ

* `calc_col_header_styles` is modelled after the row step; the two write different families of styles.
* The attributes of `office:document-meta` are not read in the model. A numeric reference that is no
  character is refused wherever it is, in the code only where the text is used.
* If `read_xml` or a similar loop stops at a nested element of the same name, the surrounding loops of the model
  refuse the end tags that are left over, `quick-xml` accepts them. No theorem rests on this.
* Cells store their style and formula as `String`, the cell codec as `List Char`; `toContent`/`toData` convert.

## Properties

For each property: the status, how it is modelled and proved, the modules, and the theorems with the axioms
each depends on (P `propext`, C `Classical.choice`, Q `Quot.sound`).

### C01 Cell store behaves as a map over any history — proved

Association-list model of the sheet's ordered map with all per-field setters; refinement to a function (row,col) -> cell record by induction over the operation list.
History refinement for all cell operations.

* `Verif.C01_history` (Store/Props.lean) [P, C, Q]
* `Verif.C01_panics` (Store/Props.lean) [P, C, Q]
* `Verif.C01_isolation` (Store/Props.lean) [P, C, Q]

### C02 Cell copy round trip — proved

Cell/add_cell/remove_cell as in the code; equality of all getters.
None and an empty list of draw frames are identified; the raw getter distinguishes them (C02_draw_frames_option).

* `Verif.C02_copy` (Store/Props.lean) [P, C, Q]
* `Verif.C02_remove` (Store/Props.lean) [P, C, Q]
* `Verif.C02_draw_frames_option` (Store/Props.lean) [P, C, Q]

### C03 Full iteration is complete, ordered and duplicate free — partial

CellIter modelled as iterator state machine with lookahead; running it to the end equals the sorted store.
Completeness and order proved; peek_cell on a fresh iterator is None although a cell follows (code violates the property).

* `Verif.C03_iter_complete` (Iter/Props.lean) [P, C, Q]
* `Verif.C03_peek_partial` (Iter/Props.lean) [P]
* `Verif.C03_peek_fresh_counterexample` (Iter/Props.lean) [none]

### C04 iter_rows visits exactly the rectangle row by row — partial

IterRows filter; membership + order theorem for Included/Unbounded start; counterexample for Excluded start.
Proved for inclusive and open starts; the code violates it for exclusive starts and panics for an open end before the start.

* `Verif.C04_iter_rows_partial` (Iter/Props.lean) [P, C, Q]
* `Verif.C04_no_panic` (Iter/Props.lean) [P, C, Q]
* `Verif.C04_excluded_start_counterexample` (Iter/Props.lean) [P, C, Q]
* `Verif.C04_open_end_counterexample` (Iter/Props.lean) [P, C, Q]

### C05 iter_cols visits exactly the rectangle column by column — partial

IterCols as fuelled stepper; positive theorem when the last cell of the rectangle is stored, counterexamples otherwise.
Proved if the lower right corner is stored; otherwise the code never terminates or yields a cell outside (C05_empty_corner characterises both).

* `Verif.C05_iter_cols_partial` (Iter/Props.lean) [P, C, Q]
* `Verif.C05_colMajor_mem` (Iter/Props.lean) [P, C, Q]
* `Verif.C05_colMajor_order` (Iter/Props.lean) [P, C, Q]
* `Verif.C05_empty_corner` (Iter/Props.lean) [P, Q]
* `Verif.C05_diverges_counterexample` (Iter/Props.lean) [P, Q]
* `Verif.C05_empty_rect_counterexample` (Iter/Props.lean) [P]

### C06 size_hint of the sheet iterators is valid — partial

Size_hint formulas; counterexamples, partial for the fresh CellIter.
Code violates the property after the first step and for iter_rows.

* `Verif.C06_fresh_hint_partial` (Iter/Props.lean) [P]
* `Verif.C06_cols_hint_partial` (Iter/Props.lean) [P, Q]
* `Verif.C06_hint_after_counterexample` (Iter/Props.lean) [P, Q]
* `Verif.C06_rows_hint_counterexample` (Iter/Props.lean) [P, C, Q]

### C07 used_grid_size is the tight bound of the used area — proved

Fold max; least-bound theorem.

* `Verif.C07_used_grid_size` (Store/Props.lean) [P, C, Q]

### C08 Column attributes are independent per column — partial

Create_split_col_header literally; isolation invariant for API-only sheets (all spans 1); counterexample with span > 1.
Proved for sheets built by setter calls, and for a single call on repeated columns unless it names the last of them; the code leaks attributes otherwise.

* `Verif.C08_history_partial` (Header/Props.lean) [P, C, Q]
* `Verif.C08_step_partial` (Header/Props.lean) [P, C, Q]
* `Verif.C08_leak_counterexample` (Header/Props.lean) [P, Q]
* `Verif.C08_second_call_counterexample` (Header/Props.lean) [P, Q]

### C09 Row attributes are independent per row — partial

Create_split_row_header literally; counterexample; partial.
The named row and the rows above are proved for every history; the code resets the row below on a second call.

* `Verif.C09_named_row` (Header/Props.lean) [P, C, Q]
* `Verif.C09_history_partial` (Header/Props.lean) [P, C, Q]
* `Verif.C09_next_row_counterexample` (Header/Props.lean) [P, Q]

### C10 Groups never cross — proved

History invariant, panic as none.
Groups reached by add/remove; changing bounds through col_group_mut is outside.

* `Verif.C10_never_cross` (Header/Props.lean) [P, C, Q]
* `Verif.C10_add_panics` (Header/Props.lean) [P, C, Q]
* `Verif.C10_remove` (Header/Props.lean) [P, Q]

### C11 Hiding a group hides exactly its members — partial

Composition of Group and Header; partial under the isolation conditions of C08/C09.
Columns exact on sheets without repeated columns; rows: members get the visibility, but the code resets other attributes and the row behind the group.

* `Verif.C11_cols_partial` (Header/Props.lean) [P, C, Q]
* `Verif.C11_rows_partial` (Header/Props.lean) [P, C, Q]
* `Verif.C11_rows_counterexample` (Header/Props.lean) [P, Q]

### C12 Grid round trip — partial

Writer emits a list of XML events, reader consumes events; induction over the sorted cell list.
Every position with content shows the same cell after writing and reading, for every sheet whose row repeats are those row_repeat reports and at most 1000. The code fails outside of that; three counterexamples are proved.

* `Verif.C12_grid_partial` (Grid/Props.lean) [P, C, Q]
* `Verif.C12_stale_repeat_counterexample` (Grid/TableProps.lean) [P, C, Q]
* `Verif.C12_big_repeat_counterexample` (Grid/TableProps.lean) [P, C, Q]
* `Verif.C12_trailing_style_counterexample` (Grid/TableProps.lean) [P, C, Q]

### C13 Overlapping repeats are rejected, others are accepted — partial

Error path explicit in Except; iff with an independent overlap predicate.
Overlapping repeats are always rejected; sheets without overlap are written if they have no row groups or if the groups fit the rows. The code panics for some groups on empty rows (counterexample).

* `Verif.C13_clash_rejected` (Grid/Errors.lean) [P, C, Q]
* `Verif.C13_accepted_partial` (Grid/Errors.lean) [P, C, Q]
* `Verif.C13_group_panic_counterexample` (Grid/TableProps.lean) [P, C, Q]

### C14 Every written row has the same width and the rows add up — partial

Sums over the event list.
Widths and totals for every sheet that is written, except for the row headers left behind by set_row_repeat (RowOK, see rowOK_reachable).

* `Verif.C14_layout_partial` (Grid/LayoutProps.lean) [P, C, Q]

### C15 The table body is well-formed XML — partial

Balanced-tag predicate on events; counterexample for header rows over gaps; partial theorem.
Balanced for every sheet without groups and header ranges, and for every sheet whose groups and header ranges fit its rows and columns; false in general (counterexamples).

* `Verif.C15_balanced_partial` (Grid/TableProps.lean) [P, C, Q]
* `Verif.C15_plain_balanced` (Grid/TableProps.lean) [P, C, Q]
* `Verif.C15_header_gap_counterexample` (Grid/TableProps.lean) [P, C, Q]

### C16 The column section is well-formed XML and covers the columns — partial

Same, for columns.
Coverage is proved for all sheets without a gap between equal columns; balance is C15; a group over merged columns is never closed (counterexample).

* `Verif.C16_columns_partial` (Grid/ColProps.lean) [P, C, Q]
* `Verif.C16_unclosed_group_counterexample` (Grid/TableProps.lean) [P, C, Q]

### C17 Merging equal columns preserves every column's attributes — partial

Lookup equality when headers are contiguous; counterexample with a gap.
Proved if equal neighbours are adjacent; the code merges over gaps.

* `Verif.C17_merge_partial` (Header/Props.lean) [P, C, Q]
* `Verif.C17_gap_counterexample` (Header/Props.lean) [P, Q]

### C18 Splitting columns at group borders preserves every column's attributes — partial

Lookup equality + no border inside a span.
Proved for non-overlapping spans, which every sheet built by setters has; overlapping spans left behind by setters on repeated columns violate it.

* `Verif.C18_split_partial` (Header/Props.lean) [P, C, Q]
* `Verif.C18_reachable` (Header/Props.lean) [P, C, Q]
* `Verif.C18_overlap_counterexample` (Header/Props.lean) [P, Q]

### C19 Column attributes survive write and read — partial

Composition with the column reader.
Proved for all sheets in which equal columns are not separated by columns without attributes; false otherwise (counterexample).

* `Verif.C19_columns_partial` (Grid/ColProps.lean) [P, C, Q]
* `Verif.C19_hole_counterexample` (Grid/TableProps.lean) [P, C, Q]

### C20 Row attributes survive write and read — partial

The written rows are a chain of tiles; the headers after each tile are followed (`Grid/RowAttrs.lean`), giving the attributes of each row exactly; counterexamples (row style leak, gap rows); partial.
Attributes of all rows up to the last data row come back, except in the cases the counterexamples show: an attribute-less empty row below a row with attributes (C20_leak: always), neighbouring empty rows with different attributes, more than 1000 empty rows with attributes. Rows with content always keep theirs.

* `Verif.C20_rows_partial` (Grid/RowProps.lean) [P, C, Q]
* `Verif.C20_content_partial` (Grid/RowProps.lean) [P, C, Q]
* `Verif.C20_leak` (Grid/RowProps.lean) [P, C, Q]
* `Verif.C20_leak_counterexample` (Grid/TableProps.lean) [P, C, Q]
* `Verif.C20_gap_counterexample` (Grid/TableProps.lean) [P, C, Q]

### C21 Read-write-read is stable — partial

Table content of any file (`FileTable`); invariant of the row loop, then C12 for the sheet read; counterexample for repeated styled rows; partial.
For the table of any file (not only files this library wrote) in which rows with attributes and cells are not repeated; for those the counterexample shows that cells move.

* `Verif.C21_again_partial` (Grid/Again.lean) [P, C, Q]
* `Verif.C21_shift_counterexample` (Grid/TableProps.lean) [P, C, Q]

### C22 Splitting of repeated cells at covered areas is an exact partition — proved

Partition theorem by induction on the scan.

* `Verif.C22_exact_partition` (Hidden/Props.lean) [P, Q]
* `Verif.C22_pruning` (Hidden/Props.lean) [P, C, Q]

### C23 Covered cells are exactly those under an earlier span — partial

Invariant of the span list along the row-major traversal.
For every sheet that is written; excluded are the row headers left behind by set_row_repeat (RowOK).

* `Verif.C23_covered_partial` (Grid/LayoutProps.lean) [P, C, Q]

### C24 Header rows and header columns survive write and read — partial

Partial + counterexamples.
Header ranges within rows that have cells come back; a header range with an empty row is written with unbalanced tags, and one that ends in empty rows loses its last row (counterexamples).

* `Verif.C24_header_ranges_partial` (Grid/TableProps.lean) [P, C, Q]
* `Verif.C24_gap_counterexample` (Grid/TableProps.lean) [P, C, Q]
* `Verif.C15_header_gap_counterexample` (Grid/TableProps.lean) [P, C, Q]

### C25 Groups survive write and read — partial

Partial + counterexamples.
Groups that fit the rows and columns come back; false in general (counterexamples).

* `Verif.C25_groups_partial` (Grid/TableProps.lean) [P, C, Q]
* `Verif.C25_display_counterexample` (Grid/TableProps.lean) [P, C, Q]
* `Verif.C16_unclosed_group_counterexample` (Grid/TableProps.lean) [P, C, Q]

### C26 Cell values survive write and read — partial

Attribute list codec; number formatting is a parameter with an assumed parse/format law.
Value, formula, style, validation, repeat and spans survive for the values of ValueKept; the exact outcome is proved for every cell with such a value. The property fails for cells without style when a default style exists, for single plain TextXml paragraphs, for other tags than text:p, and for attributes of plain paragraphs. Annotations and draw frames are C66 and C67.

* `Verif.Codec.C26_cell_partial` (Codec/CellProps.lean) [P, C, Q]
* `Verif.Codec.C26_exact` (Codec/CellProps.lean) [P, C, Q]
* `Verif.Codec.C26_style_counterexample` (Codec/CellProps.lean) [P, C, Q]
* `Verif.Codec.C26_textXml_counterexample` (Codec/CellProps.lean) [P, C, Q]
* `Verif.Codec.C26_notParagraph_counterexample` (Codec/CellProps.lean) [P, C, Q]
* `Verif.Codec.C26_attributes_counterexample` (Codec/CellProps.lean) [P, C, Q]

### C27 Multi-line text survives write and read — partial

Line splitting and append_text; counterexample; partial for texts without blank lines.
The value every string is read as is proved exactly; the same text comes back exactly if it is not empty and has no line break; lines that are not blank are never lost. The property itself is false.

* `Verif.Codec.C27_text_partial` (Codec/CellProps.lean) [P, C, Q]
* `Verif.Codec.C27_exact` (Codec/CellProps.lean) [P, C, Q]
* `Verif.Codec.C27_lines` (Codec/CellProps.lean) [P, C, Q]
* `Verif.Codec.splitLines_join` (Codec/CellProps.lean) [P, Q]
* `Verif.Codec.C27_lines_counterexample` (Codec/CellProps.lean) [P, C, Q]
* `Verif.Codec.C27_blank_counterexample` (Codec/CellProps.lean) [P, C, Q]
* `Verif.Codec.C27_empty_counterexample` (Codec/CellProps.lean) [P, C, Q]

### C28 Durations survive write and read — partial

Duration as nanoseconds; decimal digits; counterexample; partial.
False of the code in general (counterexamples). What is read back is characterised exactly for every non-negative duration.

* `Verif.Codec.C28_exact` (Codec/TimeProps.lean) [P, Q]
* `Verif.Codec.C28_roundtrip_partial` (Codec/TimeProps.lean) [P, C, Q]
* `Verif.Codec.C28_seconds` (Codec/TimeProps.lean) [P, C, Q]
* `Verif.Codec.C28_millis_counterexample` (Codec/TimeProps.lean) [P, C, Q]
* `Verif.Codec.C28_negative_counterexample` (Codec/TimeProps.lean) [P, C, Q]
* `Verif.Codec.C28_panic_counterexample` (Codec/TimeProps.lean) [P, Q]

### C29 Currency codes survive write and read — partial

Counterexample; partial for texts without markup characters.
The symbol is read back escaped, for every string; it is the same exactly if it has no markup characters.

* `Verif.Codec.C29_symbol_partial` (Codec/CellProps.lean) [P, Q]
* `Verif.Codec.C29_exact` (Codec/CellProps.lean) [P, C, Q]
* `Verif.Codec.C29_symbol_counterexample` (Codec/CellProps.lean) [P, C, Q]

### C30 XML escaping is lossless — proved

Escape/unescape on List Char.
The unescaping function and the tokeniser stand for quick-xml.

* `Verif.Xml.C30_unescape_escape` (Xml/Props.lean) [P]
* `Verif.Xml.C30_text_reads_back` (Xml/Props.lean) [P]
* `Verif.Xml.C30_no_markup` (Xml/Props.lean) [P]
* `Verif.Xml.C30_injective` (Xml/Props.lean) [P]
* `Verif.Xml.C30_plain_unchanged` (Xml/Props.lean) [none]

### C31 The XML writer's output tokenises back to what was written — proved

Writer state machine to chars, tokenizer back to events.
Calls are grouped into items (a start tag with its attributes, a text, an end tag). What is written through the calls without escaping must need none: the two counterexamples show what the hypotheses exclude.

* `Verif.Xml.C31_tokenizes_back` (Xml/Props.lean) [P, C, Q]
* `Verif.Xml.C31_injective` (Xml/Props.lean) [P, C, Q]
* `Verif.Xml.C31_close_counterexample` (Xml/Props.lean) [P, C, Q]
* `Verif.Xml.C31_raw_attr_counterexample` (Xml/Props.lean) [P, C, Q]

### C32 Foreign XML is carried through unchanged — partial

Write_xmltag to events, read_xml from events; partial up to text merging, no self-nesting; counterexample.
False of the code for an element inside an element of the same name as the root, and in flat files. Proved for all other trees in package files.

* `Verif.Xml.C32_round_trip_partial` (Xml/TreeProps.lean) [P, C, Q]
* `Verif.Xml.C32_same_tree_partial` (Xml/TreeProps.lean) [P, C, Q]
* `Verif.Xml.C32_nested_counterexample` (Xml/TreeProps.lean) [P, C, Q]
* `Verif.Xml.C32_flat_counterexample` (Xml/TreeProps.lean) [P, C, Q]
* `Verif.Xml.C32_split_counterexample` (Xml/TreeProps.lean) [P, C, Q]

### C33 Column names are a bijection — partial

Bijective base 26.
Everything for every column except that the name of the last u32 column is refused (counterexample); without overflow checks too long names wrap around (counterexample).

* `Verif.Refs.C33_form` (Refs/Props.lean) [P, Q]
* `Verif.Refs.C33_injective` (Refs/Props.lean) [P, Q]
* `Verif.Refs.C33_surjective` (Refs/Props.lean) [P, Q]
* `Verif.Refs.C33_roundtrip_partial` (Refs/Props.lean) [P, Q]
* `Verif.Refs.C33_parse_exact` (Refs/Props.lean) [P, Q]
* `Verif.Refs.C33_order` (Refs/Props.lean) [P, C, Q]
* `Verif.Refs.C33_last_counterexample` (Refs/Props.lean) [P, Q]
* `Verif.Refs.C33_wrap_counterexample` (Refs/Props.lean) [P, C, Q]

### C34 Row names are a bijection — proved

Decimal digits.
The last u32 row is not accepted by the parser, as the round trip theorem says.

* `Verif.Refs.C34_form` (Refs/Props.lean) [P, C, Q]
* `Verif.Refs.C34_injective` (Refs/Props.lean) [P, Q]
* `Verif.Refs.C34_parse` (Refs/Props.lean) [P, Q]
* `Verif.Refs.C34_roundtrip` (Refs/Props.lean) [P, Q]

### C35 Cell references round trip — partial

Parser combinators on List Char literally; partial for names the grammar accepts; counterexamples.
Exact characterisation of the references that read back; the others (sheet names with other punctuation, empty names, the last row or column) are refused or changed.

* `Verif.Refs.C35_roundtrip_partial` (Refs/Props.lean) [P, C, Q]
* `Verif.Refs.C35_hyphen_counterexample` (Refs/Props.lean) [P, C, Q]
* `Verif.Refs.C35_dollar_counterexample` (Refs/Props.lean) [P, C, Q]

### C36 Cell ranges, column ranges and row ranges round trip — partial

As C35.
Exact characterisation of the ranges that read back, as for C35.

* `Verif.Refs.C36_cellrange_partial` (Refs/Props.lean) [P, C, Q]
* `Verif.Refs.C36_colrange_partial` (Refs/Props.lean) [P, C, Q]
* `Verif.Refs.C36_rowrange_partial` (Refs/Props.lean) [P, C, Q]

### C37 Lists of cell ranges round trip — partial

As C35, separator handling.
Non-empty lists of good ranges read back; a list is silently cut at a range that does not parse.

* `Verif.Refs.C37_roundtrip_partial` (Refs/Props.lean) [P, C, Q]
* `Verif.Refs.C37_empty` (Refs/Props.lean) [P, Q]
* `Verif.Refs.C37_cut_counterexample` (Refs/Props.lean) [P, C, Q]

### C38 Reference formatting is injective — proved

Corollary of round trips.
For all references whose names the parser accepts, with no bound on the indexes.

* `Verif.Refs.C38_cellref` (Refs/Props.lean) [P, C, Q]
* `Verif.Refs.C38_cellrange` (Refs/Props.lean) [P, C, Q]
* `Verif.Refs.C38_colrange` (Refs/Props.lean) [P, C, Q]
* `Verif.Refs.C38_rowrange` (Refs/Props.lean) [P, C, Q]
* `Verif.Refs.C38_empty_counterexample` (Refs/Props.lean) [P, Q]

### C39 Parsing a reference never fails otherwise than with an error — partial

U32 arithmetic explicit; counterexample.
Without overflow checks: every text. With overflow checks eight letters panic; proved for texts without seven letters in a row.

* `Verif.Refs.C39_release` (Refs/Props.lean) [P, Q]
* `Verif.Refs.C39_checked_partial` (Refs/Props.lean) [P, Q]
* `Verif.Refs.C39_rowrange` (Refs/Props.lean) [P]
* `Verif.Refs.C39_checked_counterexample` (Refs/Props.lean) [P, C, Q]

### C40 Generated style names are fresh — proved

Counter loop; freshness by pigeonhole; history invariant.
For every history of fewer than 2^32 calls on the 18 stores; the counter is a u32.

* `Verif.Book.C40_fresh` (Book/NameProps.lean) [P, C, Q]
* `Verif.Book.C40_any_state` (Book/NameProps.lean) [P, C, Q]

### C41 Style stores are maps — proved

Refinement to a partial function.
For every history of fewer than 2^32 calls. The counterexample shows that renaming through *_mut does not move the entry.

* `Verif.Book.C41_map` (Book/NameProps.lean) [P, C, Q]
* `Verif.Book.C41_reference` (Book/NameProps.lean) [P, C, Q]
* `Verif.Book.C41_remove` (Book/NameProps.lean) [P, Q]
* `Verif.Book.C41_rename_counterexample` (Book/NameProps.lean) [P, C, Q]

### C42 Detach and attach give the sheet back — partial

Slot list; frame theorem without insert/remove; counterexample with them.
Proved for calls that do not insert or remove sheets in front of the detached one; false otherwise.

* `Verif.Book.C42_attach_partial` (Book/SheetProps.lean) [P, C, Q]
* `Verif.Book.C42_immediately` (Book/SheetProps.lean) [P, C, Q]
* `Verif.Book.C42_insert_counterexample` (Book/SheetProps.lean) [P]
* `Verif.Book.C42_remove_counterexample` (Book/SheetProps.lean) [P]
* `Verif.Book.C42_idx_counterexample` (Book/SheetProps.lean) [P, C, Q]

### C43 The sheet list behaves as a list — proved

Refinement to List.
For workbooks without detached sheets, see C42_idx_counterexample.

* `Verif.Book.C43_list` (Book/SheetProps.lean) [P, C, Q]
* `Verif.Book.C43_getters` (Book/SheetProps.lean) [P]
* `Verif.Book.C43_idx` (Book/SheetProps.lean) [P, C, Q]

### C44 Attribute maps are maps — proved

Two parallel lists; refinement and invariants.
For histories of set_attr and clear_attr; add_all, which is not among them, can make duplicates.

* `Verif.Book.AttrMap.C44_map` (Book/AttrProps.lean) [P, C, Q]
* `Verif.Book.AttrMap.C44_clear` (Book/AttrProps.lean) [P, C, Q]
* `Verif.Book.AttrMap.C44_order` (Book/AttrProps.lean) [P, C, Q]
* `Verif.Book.AttrMap.C44_addAll_counterexample` (Book/AttrProps.lean) [P, C, Q]

### C45 Configuration trees are maps — proved

Insertion-ordered tree; get/insert laws by induction on the path.
the map behind a configuration item refines an association list under every sequence of operations; a value set at a path is found there, all other values are unchanged; the call panics exactly if an item on the path is of another kind

* `Verif.Config.C45_map` (Config/Map.lean) [P, Q]
* `Verif.Config.C45_set_iff` (Config/Tree.lean) [P, Q]
* `Verif.Config.C45_get_set` (Config/Tree.lean) [P]
* `Verif.Config.C45_get_other` (Config/Tree.lean) [P]
* `Verif.Config.C45_value` (Config/Tree.lean) [P]

### C46 Configuration survives write and read — partial

Tree to events and back; partial without empty string values; counterexample.
every configuration of the shape the format allows comes back without its empty texts; everything that is read has that shape; false of the code for empty texts, values directly in maps, base64 texts with markup and years of more than four digits

* `Verif.Config.C46_roundtrip_partial` (Config/SettingsProps.lean) [P, C, Q]
* `Verif.Config.C46_value_partial` (Config/SettingsProps.lean) [P, C, Q]
* `Verif.Config.C46_same_partial` (Config/SettingsProps.lean) [P, C, Q]
* `Verif.Config.C46_no_panic` (Config/SettingsProps.lean) [P, C, Q]
* `Verif.Config.C46_read_shape` (Config/SettingsProps.lean) [P, C, Q]
* `Verif.Config.C46_empty_counterexample` (Config/SettingsProps.lean) [P, C, Q]
* `Verif.Config.C46_value_in_map_counterexample` (Config/SettingsProps.lean) [P, C, Q]
* `Verif.Config.C46_panic_counterexample` (Config/SettingsProps.lean) [P, C, Q]
* `Verif.Config.C46_raw_counterexample` (Config/SettingsProps.lean) [P, C, Q]

### C47 Sheet view settings survive write and read — partial

Field-wise codec incl. u32/i32 wrap; counterexample for page_view_zoom_value; partial for the rest.
every field of SheetConfig but page_view_zoom_value, for every sheet, and the settings of the workbook, in every workbook whose sheets have different names, over the written and read settings file; false of the code for page_view_zoom_value (written, never read) and for sheets with the same name

* `Verif.Config.C47_roundtrip_partial` (Config/ViewProps.lean) [P, C, Q]
* `Verif.Config.C47_no_panic` (Config/ViewProps.lean) [P, C, Q]
* `Verif.Config.C47_new` (Config/ViewProps.lean) [P, C, Q]
* `Verif.Config.C47_page_zoom_counterexample` (Config/ViewProps.lean) [P, C, Q]
* `Verif.Config.C47_same_name_counterexample` (Config/ViewProps.lean) [P, C, Q]
* `Verif.Config.C47_panic_counterexample` (Config/ViewProps.lean) [P, C, Q]
* `Verif.Config.C47_empty_name_counterexample` (Config/ViewProps.lean) [P, C, Q]

### C48 Condition strings are faithful — proved

Quote/unquote.
For operands that are texts, integers and booleans and cell ranges with good sheet names; f32/f64 operands are not modelled. List entries are compared as shown.

* `Verif.Cond.C48_content` (Cond/Props.lean) [P, C, Q]
* `Verif.Cond.C48_value` (Cond/Props.lean) [P, C, Q]
* `Verif.Cond.C48_list` (Cond/Props.lean) [P, C, Q]
* `Verif.Cond.C48_injective` (Cond/Props.lean) [P, C, Q]
* `Verif.Cond.C48_value_injective` (Cond/Props.lean) [P, C, Q]

### C49 Validations survive write and read — partial

Reader event loop literally; counterexamples; partial for rule fields.
Exactly what is read back from a package file. The rules are kept under their names; the messages are lost (stored under a generated name), lists that are not shown make the file unreadable.

* `Verif.Valid.C49_exact` (Valid/Props.lean) [P, C, Q]
* `Verif.Valid.C49_rules_partial` (Valid/Props.lean) [P, C, Q]
* `Verif.Valid.C49_messages_lost` (Valid/Props.lean) [P, C, Q]
* `Verif.Valid.C49_messages_counterexample` (Valid/Props.lean) [P, C, Q]
* `Verif.Valid.C49_display_counterexample` (Valid/Props.lean) [P, C, Q]
* `Verif.Valid.C49_panic_counterexample` (Valid/Props.lean) [P, C, Q]

### C50 Enumerated attributes survive write and read — partial

Total tables; counterexamples.
Every enumeration the reader parses is mapped to the same value, except the link actuation and the undisplayed validation list (counterexamples). The attributes of styles are kept as texts by the reader: the texts of the 44 enumerations and of the values with arguments determine the value and survive a file unchanged.

* `Verif.Enum.C50_parsed_partial` (Enum/Props.lean) [P, C, Q]
* `Verif.Enum.C50_file` (Enum/Props.lean) [P, C, Q]
* `Verif.Enum.C50_distinct` (Enum/Props.lean) [P, C, Q]
* `Verif.Enum.C50_arguments` (Enum/Props.lean) [P, C, Q]
* `Verif.Enum.C50_number_format` (Enum/Props.lean) [P, C, Q]
* `Verif.Enum.C50_actuate_counterexample` (Enum/Props.lean) [P, C, Q]
* `Verif.Enum.C50_display_counterexample` (Enum/Props.lean) [P, C, Q]
* `Verif.Enum.C50_number_format_counterexample` (Enum/Props.lean) [P, C, Q]
* `Verif.Enum.C50_arguments_meets` (Enum/Props.lean) [P, Q]

### C51 Every style is written exactly once and comes back with its origin — partial

Origin/use filters; counterexample; partial.
Every style and format that has a place in the package comes back with name, origin, use and attributes, every page layout comes back; false of the code for named styles of the content (not written in packages, so all named styles of a flat file are lost), for fonts, for tab stops without paragraph attributes.

* `Verif.Style.C51_package_partial` (Style/Props.lean) [P, C, Q]
* `Verif.Style.C51_formats_partial` (Style/Props.lean) [P, C, Q]
* `Verif.Style.C51_pages` (Style/Props.lean) [P, C, Q]
* `Verif.Style.C51_fonts_partial` (Style/Props.lean) [P, C, Q]
* `Verif.Style.C51_flat_partial` (Style/Props.lean) [P, C, Q]
* `Verif.Style.C51_flat_pages` (Style/Props.lean) [P, C, Q]
* `Verif.Style.C51_flat_fonts_partial` (Style/Props.lean) [P, C, Q]
* `Verif.Style.C51_default_partial` (Style/FormatProps.lean) [P, C, Q]
* `Verif.Style.C51_once_partial` (Style/Once.lean) [P, C, Q]
* `Verif.Style.C51_once_default` (Style/Once.lean) [P, C, Q]
* `Verif.Style.C51_once_format_partial` (Style/Once.lean) [P, C, Q]
* `Verif.Style.C51_page_twice` (Style/Once.lean) [P, C, Q]
* `Verif.Style.C51_once_flat` (Style/Once.lean) [P, C, Q]
* `Verif.Style.C51_content_counterexample` (Style/Examples.lean) [P, C, Q]
* `Verif.Style.C51_flat_then_package_counterexample` (Style/Examples.lean) [P, C, Q]
* `Verif.Style.C51_from_flat_counterexample` (Style/Examples.lean) [P, C, Q]
* `Verif.Style.C51_font_counterexample` (Style/Examples.lean) [P, C, Q]
* `Verif.Style.C51_flat_font_counterexample` (Style/Examples.lean) [P, C, Q]
* `Verif.Style.C51_tabs_counterexample` (Style/Examples.lean) [P, C, Q]
* `Verif.Style.C51_format_counterexample` (Style/Examples.lean) [P, C, Q]

### C52 Reading default styles never displaces another style — partial

Counterexample; partial.
A style without a name never replaces a named style, for every file; it is found unless a later style of the file carries its generated name (counterexample).

* `Verif.Style.C52_named` (Style/Unnamed.lean) [P, C, Q]
* `Verif.Style.C52_unnamed_partial` (Style/Unnamed.lean) [P, C, Q]
* `Verif.Style.C52_counterexample` (Style/Examples.lean) [P, C, Q]
* `Verif.Style.C52_meets` (Style/Examples.lean) [P, C, Q]

### C53 Value formats survive write and read — partial

Part list to events and back; counterexample; partial.
Number and order of the parts always; exactly which parts keep their text is C53_part_iff; embedded texts with markup characters, embedded texts in flat files and texts of numbers without a position are changed (counterexamples).

* `Verif.Style.C53_part_iff` (Style/FormatProps.lean) [P, Q]
* `Verif.Style.C53_package_partial` (Style/FormatProps.lean) [P, C, Q]
* `Verif.Style.C53_embedded_counterexample` (Style/Examples.lean) [P, C, Q]
* `Verif.Style.C53_flat_counterexample` (Style/Examples.lean) [P, C, Q]
* `Verif.Style.C53_number_counterexample` (Style/Examples.lean) [P, C, Q]

### C54 A failed save leaves the previous file intact — partial

File system as path -> bytes; counterexample; partial.
False of the code: the file is created, and so emptied, before anything is checked (counterexample, and C54_overwritten: what is left never depends on the old content). Proved: other files are never touched, and nothing changes if the file cannot be created.

* `Verif.Save.C54_save_partial` (Save/Props.lean) [P]
* `Verif.Save.C54_overwritten` (Save/Props.lean) [P]
* `Verif.Save.C54_counterexample` (Save/Props.lean) [P]

### C55 A successful save has stored every byte — partial

Buffered writer with a refusing sink; positive for ODS, counterexample for FODS.
Proved for package files, for every schedule of short writes, interruptions and failures. False for flat files, which are never flushed (counterexample); proved for them if the flush made on drop succeeds.

* `Verif.Save.C55_ods` (Save/Props.lean) [P, C, Q]
* `Verif.Save.C55_ods_willing` (Save/Props.lean) [P, C, Q]
* `Verif.Save.C55_fods_partial` (Save/Props.lean) [P, C, Q]
* `Verif.Save.C55_fods_willing` (Save/Props.lean) [P, C, Q]
* `Verif.Save.C55_fods_counterexample` (Save/Props.lean) [P]

### C56 The returned buffer is exactly the document — partial

Cursor semantics; counterexample; partial for empty buffers.
What is in the buffer or stream afterwards is characterised exactly; an empty buffer receives exactly the document, a longer one keeps its tail (counterexample).

* `Verif.Save.C56_ods_exact` (Save/Props.lean) [P, Q]
* `Verif.Save.C56_ods_partial` (Save/Props.lean) [P, Q]
* `Verif.Save.C56_ods_counterexample` (Save/Props.lean) [P, Q]
* `Verif.Save.C56_fods_exact` (Save/Props.lean) [P]
* `Verif.Save.C56_fods_partial` (Save/Props.lean) [P, Q]

### C57 Column widths and row heights survive write and read — partial

Style store + widths + heights: the steps before writing move the sizes to the styles, the steps after reading take them back; counterexamples; partial.
Through the styles, the two files and the tables: the widths of all covered columns and the heights of all rows come back if the columns and rows that share a style share the width and the styles can carry it; C57_exact says which width all columns of a style get in every case; false of the code for shared styles with different widths, for every row that gets first its style and then its height, styles that say that the width is computed, missing styles.

* `Verif.Width.C57_sizes_partial` (Width/RowProps.lean) [P, C, Q]
* `Verif.Width.C57_flat_partial` (Width/RowProps.lean) [P, C, Q]
* `Verif.Width.C57_sizes_meets` (Width/RowExamples.lean) [P, C, Q]
* `Verif.Width.C57_heights_counterexample` (Width/RowExamples.lean) [P, C, Q]
* `Verif.Width.C57_style_then_height_counterexample` (Width/RowExamples.lean) [P, C, Q]
* `Verif.Width.C57_widths_partial` (Width/Props.lean) [P, C, Q]
* `Verif.Width.C57_exact` (Width/Examples.lean) [P, C, Q]
* `Verif.Width.C57_shared_counterexample` (Width/Examples.lean) [P, C, Q]
* `Verif.Width.C57_default_counterexample` (Width/Examples.lean) [P, C, Q]
* `Verif.Width.C57_optimal_counterexample` (Width/Examples.lean) [P, C, Q]
* `Verif.Width.C57_missing_counterexample` (Width/Examples.lean) [P, C, Q]
* `Verif.Width.C57_widths_meets` (Width/Examples.lean) [P, C, Q]

### C58 Preparing for write is idempotent — partial

Dedup and split idempotence.
Idempotence proved for every non-overlapping header map; getters unchanged only without gaps (C17).

* `Verif.C58_prepare_partial` (Header/Props.lean) [P, C, Q]

### C59 The package contains every listed file — proved

List of zip entries; partial.
For every history of calls on the manifest. C59_written: exactly the names mimetype, META-INF/ and META-INF/manifest.xml make it impossible to save (the counterexample is such a name).

* `Verif.Package.C59_package` (Package/Props.lean) [P, C, Q]
* `Verif.Package.C59_written` (Package/Props.lean) [P, C, Q]
* `Verif.Package.C59_bytes` (Package/Props.lean) [P, C, Q]
* `Verif.Package.C59_read_back` (Package/Props.lean) [P, C, Q]
* `Verif.Package.C59_counterexample` (Package/Props.lean) [P, C, Q]

### C60 Containment and pruning of ranges — proved

Arithmetic.
out_looped for ranges with from <= to.

* `Verif.C60_contains` (Hidden/Props.lean) [P]
* `Verif.C60_contains_cols` (Hidden/Props.lean) [P]
* `Verif.C60_contains_rows` (Hidden/Props.lean) [P]
* `Verif.C60_out_looped` (Hidden/Props.lean) [P, C, Q]
* `Verif.C60_origin_span` (Hidden/Props.lean) [P, C, Q]

### C61 Lengths survive write and read — partial

Suffix parsing over an abstract number codec.
Every length but the default is parsed to the same length; the default is written as an empty text, which is refused. The printing and parsing of f64 is a parameter; the hypothesis is that the number at hand is read as it was written.

* `Verif.Width.C61_length_partial` (Width/Props.lean) [P, C, Q]
* `Verif.Width.C61_injective` (Width/Props.lean) [P, C, Q]
* `Verif.Width.C61_default_counterexample` (Width/Props.lean) [P, C, Q]

### C62 Dates and integers survive write and read — partial

Digit lists.
Integers and switches completely; date-times exactly up to the year 9999 (C62_datetime_iff). Later years cannot be read back, and dates that do not exist are accepted (counterexamples).

* `Verif.Codec.C62_u32` (Codec/TimeProps.lean) [P, Q]
* `Verif.Codec.C62_int` (Codec/TimeProps.lean) [P, Q]
* `Verif.Codec.C62_u32_range` (Codec/TimeProps.lean) [P, Q]
* `Verif.Codec.C62_int_range` (Codec/TimeProps.lean) [P, C, Q]
* `Verif.Codec.C62_bool` (Codec/TimeProps.lean) [P, C, Q]
* `Verif.Codec.C62_datetime_partial` (Codec/TimeProps.lean) [P, Q]
* `Verif.Codec.C62_datetime_iff` (Codec/IsoTime.lean) [P, C, Q]
* `Verif.Codec.C62_year_counterexample` (Codec/TimeProps.lean) [P, C, Q]
* `Verif.Codec.C62_default_counterexample` (Codec/TimeProps.lean) [P, C, Q]
* `Verif.Codec.C62_cut_counterexample` (Codec/TimeProps.lean) [P, C, Q]

### C63 Document metadata survives write and read — partial

Writer to elements, reader as a state machine over events; exact result, partial, counterexamples. Meta/Written.lean: the attributes of the elements that the library writes and does not read.
C63_exact says what is read of all metadata that can be read; the fields survive without markup characters in user strings and with durations of C28; template, reload, hyperlink behaviour and statistics are never read back (counterexample).

* `Verif.Meta.C63_exact` (Meta/Props.lean) [P, C, Q]
* `Verif.Meta.C63_metadata_partial` (Meta/Props.lean) [P, C, Q]
* `Verif.Meta.C63_string_iff` (Meta/Props.lean) [P, Q]
* `Verif.Meta.C63_lost_counterexample` (Meta/Props.lean) [P, C, Q]
* `Verif.Meta.C63_string_counterexample` (Meta/Props.lean) [P, C, Q]
* `Verif.Meta.C63_short_counterexample` (Meta/Props.lean) [P]
* `Verif.Meta.C63_year_counterexample` (Meta/Props.lean) [P, C, Q]
* `Verif.Meta.C63_name_counterexample` (Meta/Props.lean) [P, C, Q]
* `Verif.Meta.C63_template_read` (Meta/Props.lean) [P, C, Q]
* `Verif.Meta.C63_meets` (Meta/Props.lean) [P, C, Q]
* `Verif.Meta.C63_template_written` (Meta/Written.lean) [P, C, Q]
* `Verif.Meta.C63_reload_written` (Meta/Written.lean) [P, C, Q]
* `Verif.Meta.C63_hyperlink_written` (Meta/Written.lean) [P, C, Q]
* `Verif.Meta.C63_written_meets` (Meta/Written.lean) [P, C, Q]

### C64 A sheet survives its text — partial

Text of a table through the writer, tokeniser and reader; reduced to the abstract grid reader in both directions; partial.
From the sheet to the characters of the file and back, with escaping, tokeniser and attribute parsing. C64_exact reduces the text to the grid rules in both directions; C64_sheet_partial composes it with C12, C15, C16, C19, C24, C25 and C26 under their conditions.

* `Verif.TableXml.C64_exact` (TableXml/Props.lean) [P, C, Q]
* `Verif.TableXml.C64_sheet_partial` (TableXml/Props.lean) [P, C, Q]
* `Verif.TableXml.C64_meets` (TableXml/Props.lean) [P, C, Q]
* `Verif.TableXml.C64_endless_counterexample` (TableXml/Props.lean) [P, C, Q]
* `Verif.TableXml.C64_column_counterexample` (TableXml/Props.lean) [P, C, Q]
* `Verif.TableXml.C64_no_ranges_counterexample` (TableXml/Props.lean) [P, C, Q]

### C65 All sheets of a workbook survive in order — partial

Reader loop of the body over the composed texts; partial, counterexample.
All sheets in their order, each as in C64; named expressions and conditional formats of a sheet are found among those of the workbook (counterexample).

* `Verif.TableXml.C65_sheets_partial` (TableXml/BodyProps.lean) [P, C, Q]
* `Verif.TableXml.C65_names` (TableXml/BodyProps.lean) [P, C, Q]
* `Verif.TableXml.C65_extra_perm` (TableXml/BodyProps.lean) [P, C, Q]
* `Verif.TableXml.C65_meets` (TableXml/BodyProps.lean) [P, C, Q]
* `Verif.TableXml.C65_moved_counterexample` (TableXml/BodyProps.lean) [P, C, Q]

### C66 Annotations of cells survive write and read — partial

Writer and reader of annotations inside the cell, as loops over events with skipped elements; partial, counterexamples.
In package files, for texts of paragraphs and lists that are not nested and dates up to the year 9999; counterexamples for the others.

* `Verif.Codec.C66_annotation_partial` (Codec/NoteProps.lean) [P, C, Q]
* `Verif.Codec.C66_notes_partial` (Codec/NoteProps.lean) [P, C, Q]
* `Verif.Codec.C66_same` (Codec/NoteProps.lean) [P, Q]
* `Verif.Codec.C66_heading_counterexample` (Codec/NoteProps.lean) [P, C, Q]
* `Verif.Codec.C66_list_counterexample` (Codec/NoteProps.lean) [P, C, Q]
* `Verif.Codec.C66_flat_counterexample` (Codec/NoteProps.lean) [P, C, Q]
* `Verif.Codec.C66_year_counterexample` (Codec/NoteProps.lean) [P, C, Q]

### C67 Frames and images of cells survive write and read — partial

The same for frames and images; partial, counterexample.
In package files, as for C66; binary data with markup characters set by set_binary_base64 makes the file unreadable (counterexample).

* `Verif.Codec.C67_frames_partial` (Codec/NoteProps.lean) [P, C, Q]
* `Verif.Codec.C66_notes_partial` (Codec/NoteProps.lean) [P, C, Q]
* `Verif.Codec.C67_binary_counterexample` (Codec/NoteProps.lean) [P, C, Q]

### C68 Image bytes survive their encoding — proved

The base64 encoding and decoding as recursive functions, inverse to each other; composed with C67.
For all bytes, and in a file. C68_accepts: exactly the unpadded canonical texts are accepted; the padded text of other programs is refused (counterexample to what a user may expect of their files).

* `Verif.Codec.C68_binary` (Codec/NoteProps.lean) [P, C, Q]
* `Verif.Codec.C68_file` (Codec/NoteProps.lean) [P, C, Q]
* `Verif.Codec.C68_accepts` (Codec/NoteProps.lean) [P, C, Q]
* `Verif.Codec.C68_padding_counterexample` (Codec/NoteProps.lean) [P, C, Q]

### C69 Integers put into a cell are got from it — proved

Rust's `as` between integers and doubles on the bits of a double; round trip, nearest, order and saturation by arithmetic; composed with C26.
Rust's `as` between integers and doubles is modelled on the bits. C69_long: exactly the integers of 53 significant bits, and the greatest of the type, come back as they were; C69_nearest for the others. Through a file under FloatOk (the double's text is parsed to the double).

* `Verif.Conv.C69_int` (Conv/Props.lean) [P, C, Q]
* `Verif.Conv.C69_long` (Conv/Props.lean) [P, C, Q]
* `Verif.Conv.C69_nearest` (Conv/Props.lean) [P, C, Q]
* `Verif.Conv.C69_order` (Conv/Props.lean) [P, Q]
* `Verif.Conv.C69_other_type` (Conv/Props.lean) [P, C, Q]
* `Verif.Conv.C69_kinds` (Conv/Props.lean) [P]
* `Verif.Conv.C69_file` (Conv/Props.lean) [P, C, Q]
* `Verif.Conv.C69_double` (Conv/Props.lean) [P, C, Q]
* `Verif.Conv.C69_bounds` (Conv/Props.lean) [P]
* `Verif.Conv.C69_long_counterexample` (Conv/Props.lean) [P]

### C70 The text shown for a cell survives write and read — partial

`as_cow_str_or` and `extract_text` as recursive functions; what is shown is followed through writer, tokeniser and cell reader; partial, counterexamples.
Exact for texts: the lines that are not blank are shown; the same text exactly if it has no blank line. Exact for paragraphs with any markup in package files. Blank lines are lost and as_str_opt gives nothing for several lines (counterexamples).

* `Verif.Conv.C70_text_partial` (Conv/Props.lean) [P, C, Q]
* `Verif.Conv.C70_text` (Conv/Props.lean) [P, C, Q]
* `Verif.Conv.C70_markup_partial` (Conv/Props.lean) [P, C, Q]
* `Verif.Conv.C70_markup` (Conv/Props.lean) [P, C, Q]
* `Verif.Conv.C70_str_counterexample` (Conv/Props.lean) [P, C, Q]
* `Verif.Conv.C70_blank_counterexample` (Conv/Props.lean) [P, C, Q]

### C71 Each type is got as it was put in — proved

The conversions and getters of `Value`; composed with C26.
In memory for all values; through a file for doubles under FloatOk, currency codes without markup characters, texts of one line, dates up to the year 9999 and durations of whole seconds. Decimal and f32 are not modelled.

* `Verif.Conv.C71_same` (Conv/Props.lean) [P]
* `Verif.Conv.C71_only` (Conv/Props.lean) [P, C, Q]
* `Verif.Conv.C71_file` (Conv/Props.lean) [P, C, Q]

### C72 Master pages survive write and read — partial

Writer and reader of master pages, headers and footers on the element-loop layer (`Steps`); the round trip on characters via the tokeniser; a small specification of what a paragraph of plain text becomes. Counterexamples by evaluation.
C72_exact says for every list of master pages what comes back, on the characters of office:master-styles. Headings of plain text become paragraphs, plain paragraphs lose their attributes, and an empty header loses its display flag (counterexamples). Regions hold elements, the free content paragraphs and headings.

* `Verif.Master.C72_exact` (Master/Props.lean) [P, C, Q]
* `Verif.Master.C72_same_partial` (Master/Props.lean) [P, C, Q]
* `Verif.Master.C72_heading_counterexample` (Master/Props.lean) [P, C, Q]
* `Verif.Master.C72_style_counterexample` (Master/Props.lean) [P, C, Q]
* `Verif.Master.C72_empty_counterexample` (Master/Props.lean) [P, C, Q]
* `Verif.Master.C72_region_text` (Master/Props.lean) [P, Q]

### C73 What is put into a header is shown — partial

`MasterPage::new`, `HeaderFooter::new` and changes in place as functions; composed with C72. The counterexample is universal.
False for every content changed in place in a new master page (C73_hidden_counterexample quantifies over all contents, names and places); true for a header made with HeaderFooter::new and set as a whole.

* `Verif.Master.C73_hidden_counterexample` (Master/Props.lean) [P, C, Q]
* `Verif.Master.C73_shown_partial` (Master/Props.lean) [P, C, Q]

### C74 Scripts and event listeners survive write and read — partial

Writer and readers of `office:scripts` on the element-loop layer; `read_xml` behind an empty tag separately (`readXmlLoose`). Universal counterexamples for what the crate writes; the round trip for the section as the standard has it.
False of every workbook with a script: what is written cannot be read (C74_scripts_counterexample, for all scripts and listeners), and every listener is written with a value its reader refuses. C74_foreign_partial: the section as other programs write it is read completely. Scripts within scripts are excluded; with line breaks (flat files) only texts as content.

* `Verif.Script.C74_scripts_counterexample` (Script/Props.lean) [P, C, Q]
* `Verif.Script.C74_listener_counterexample` (Script/Props.lean) [P, C, Q]
* `Verif.Script.C74_empty_counterexample` (Script/Props.lean) [P, C, Q]
* `Verif.Script.C74_foreign_partial` (Script/Props.lean) [P, C, Q]

### C75 Namespaces declared in a file are declared again — partial

`NamespaceMap` with the `Cow` flag of its keys (it decides about escaping), the root elements of five files, and their reader. Histories are lists of operations; an invariant says that all maps can be written; the theorems are about the root element found by the tokeniser in the text.
Over all histories of reading and writing root elements, on the characters of the files. Foreign prefixes of the files of a package are kept; those of flat files never (universal counterexample), nor the default namespace; a prefix of the crate is always bound to the crate's namespace.

* `Verif.Ns.C75_own` (Ns/Props.lean) [P, C, Q]
* `Verif.Ns.C75_foreign_partial` (Ns/Props.lean) [P, C, Q]
* `Verif.Ns.C75_flat_counterexample` (Ns/Props.lean) [P, C, Q]
* `Verif.Ns.C75_default_counterexample` (Ns/Props.lean) [P, C, Q]

### C76 The format version is kept — proved

The same histories as C75.
Over all histories of reading and writing root elements, on the characters of the files.

* `Verif.Ns.C76_written` (Ns/Props.lean) [P, C, Q]
* `Verif.Ns.C76_version` (Ns/Props.lean) [P, C, Q]
* `Verif.Ns.C76_mimetype` (Ns/Props.lean) [P, C, Q]

### C77 Every prefix used is declared — partial

The names in the tokens of a written document are those of its `Doc` (`docNames_items`); a prefix is declared if it is in the table of the file or was read before (C75).
settings.xml: proved for all configurations the format allows. meta.xml: C77_meta_iff says exactly when it holds; it does not for a new workbook with a title, because dc is not declared. The other files are not covered: styles and cells can have attributes with any prefix.

* `Verif.Ns.C77_settings` (Ns/Prefix.lean) [P, C, Q]
* `Verif.Ns.C77_meta_iff` (Ns/Prefix.lean) [P, C, Q]
* `Verif.Ns.C77_meta_counterexample` (Ns/Prefix.lean) [P, C, Q]

### C78 A whole package survives write and read — partial

One loop per file (`Whole/Model.lean`) hands each section to the reader of that section. `Covers` says that the calls of a section are read from one workbook to the next, and composes by append; each section is one `Covers` lemma, the root element another (`root_reads`). The names inside of the sections of styles are none of those the file loop looks for (`StyleTags.lean`). The conclusion is the conjunction of the theorems about the parts.
All files and all sections at once, for every workbook that meets the conditions of the theorems about its parts (C46, C51, C63, C65, C72, C75). Missing: those limits, scripts (C74 alone), and calc_config/calc_derived, which C47 and C60 cover on their own.

* `Verif.Whole.C78_package_partial` (Whole/Props.lean) [P, C, Q]
* `Verif.Whole.C78_no_sheets` (Whole/Props.lean) [P, C, Q]
* `Verif.Whole.C78_listeners_counterexample` (Whole/Props.lean) [P, C, Q]
* `Verif.Whole.C78_meets` (Whole/Props.lean) [P, C, Q]

### C79 A whole flat file survives write and read — partial

As C78 with one file, line breaks, and the styles after `convert`.
All sections of one flat file at once. Missing: the limits of the parts; foreign elements and validations in flat files; scripts.

* `Verif.Whole.C79_flat_partial` (Whole/Props.lean) [P, C, Q]
* `Verif.Whole.C78_no_sheets` (Whole/Props.lean) [P, C, Q]
* `Verif.Whole.C79_meets` (Whole/Props.lean) [P, C, Q]

### C80 References in formulas mean what was asked for — partial

`Formula/Model.lean` has each function and macro arm. `Means` says that the text within the brackets is parsed to the reference, by the parser of C35-C38, so the theorems are corollaries of the round trips there, for the reference that the request stands for (`Spec.Fix`). Injectivity from injectivity of the printing.
All functions and macros, all cells but those of the last row and column, names of sheets as in C35. cell!(table => ..) gives absolute references whatever the markers (C80_macro_there_counterexample, for all arguments).

* `Verif.Formula.C80_cells_partial` (Formula/Props.lean) [P, C, Q]
* `Verif.Formula.C80_ranges_partial` (Formula/Props.lean) [P, C, Q]
* `Verif.Formula.C80_ranges_panic` (Formula/Props.lean) [P, Q]
* `Verif.Formula.C80_cols_rows` (Formula/Props.lean) [P, C, Q]
* `Verif.Formula.C80_cols_rows_panic` (Formula/Props.lean) [P]
* `Verif.Formula.C80_macro_here` (Formula/Props.lean) [P, C, Q]
* `Verif.Formula.C80_macro_ranges_partial` (Formula/Props.lean) [P, C, Q]
* `Verif.Formula.C80_macro_there_counterexample` (Formula/Props.lean) [P, C, Q]
* `Verif.Formula.C80_injective` (Formula/Props.lean) [P, C, Q]
* `Verif.Formula.C80_meets` (Formula/Props.lean) [P, C, Q]

### C81 A range made of a corner and a size covers exactly that block — partial

`originSpan` over `Refs.Ints`, with and without overflow checks; membership is `contains`.
Holds while corner + size fits into u32. With overflow checks it panics in all other cases, also for a block that ends in the last row; without, a block past the last row gives an empty range.

* `Verif.Formula.C81_covers_partial` (Formula/Props.lean) [P, C, Q]
* `Verif.Formula.C81_checked` (Formula/Props.lean) [P, C, Q]
* `Verif.Formula.C81_release_counterexample` (Formula/Props.lean) [P, Q]
* `Verif.Formula.C81_last_counterexample` (Formula/Props.lean) [P]
* `Verif.Formula.C81_meets` (Formula/Props.lean) [P]

### C82 The locale of a format is kept — partial

Attributes are association lists; which texts are subtags, and their canonical form, is the parameter `Subtags`, with `Spec.icu` as the case of the library in use. Look-up after setting.
The locale itself: for all locales of language, script and region; variants and extensions are always lost. The transliteration: what is set is never read (for all locales). The parser of subtags is a parameter.

* `Verif.Fmt.C82_roundtrip_partial` (Fmt/Props.lean) [P, C, Q]
* `Verif.Fmt.C82_unknown` (Fmt/Props.lean) [P, C, Q]
* `Verif.Fmt.C82_frame` (Fmt/Props.lean) [P, C, Q]
* `Verif.Fmt.C82_rest_counterexample` (Fmt/Props.lean) [P, C, Q]
* `Verif.Fmt.C82_transliteration_counterexample` (Fmt/Props.lean) [P, C, Q]
* `Verif.Fmt.C82_meets` (Fmt/Props.lean) [P, C, Q]

### C83 Builders of format parts do what they are told — partial

One step lemma per builder against `Spec.says`, the attribute that a method announces; induction over the chain of calls. The counterexample is an invariant over all chains.
All builders and all chains of calls, except min_integer_digits of a fraction, which sets the digits of the numerator: no fraction ever gets its integer digits.

* `Verif.Fmt.C83_builders_partial` (Fmt/Props.lean) [P, C, Q]
* `Verif.Fmt.C83_fraction_counterexample` (Fmt/Props.lean) [P, C, Q]
* `Verif.Fmt.C83_meets` (Fmt/Props.lean) [P, C, Q]

### C84 Ready-made formats show what they are named after — partial

`Spec.shows` is what an application shows for the parts of a format, with an arbitrary function for amounts. Each ready-made format is computed for an arbitrary value. `C84_kept` combines with C53.
All 23 functions, for every value. Two do not: the currency format with the symbol in front for a locale shows the amount twice, and date and time for a locale are in another order than documented.

* `Verif.Fmt.C84_dates` (Fmt/Ready.lean) [P, C, Q]
* `Verif.Fmt.C84_loc_dates_partial` (Fmt/Ready.lean) [P, C, Q]
* `Verif.Fmt.C84_loc_datetime_counterexample` (Fmt/Ready.lean) [P, C, Q]
* `Verif.Fmt.C84_overflow` (Fmt/Ready.lean) [P, C, Q]
* `Verif.Fmt.C84_numbers` (Fmt/Ready.lean) [P, C, Q]
* `Verif.Fmt.C84_currency_partial` (Fmt/Ready.lean) [P, C, Q]
* `Verif.Fmt.C84_currency_prefix_counterexample` (Fmt/Ready.lean) [P, C, Q]
* `Verif.Fmt.C84_locale` (Fmt/Ready.lean) [P, C, Q]
* `Verif.Fmt.C84_kept` (Fmt/Ready.lean) [P, C, Q]
* `Verif.Fmt.C84_meets` (Fmt/Ready.lean) [P, C, Q]

### C85 The default styles of a workbook lead to formats of its locale — partial

`localeSettings` as an explicit update of the stores of styles and formats; look-up after the updates. `Spec.Resolves` follows the style to its format, `Spec.shows` says what it shows.
All workbooks, locales and features. For en, cs-CZ and de-AT the default style of intervals names a format that does not exist, and date and time show the time only; for en-US and with create_default_styles all of them are there.

* `Verif.Fmt.C85_supported_partial` (Fmt/Defaults.lean) [P, C, Q]
* `Verif.Fmt.C85_us` (Fmt/Defaults.lean) [P, C, Q]
* `Verif.Fmt.C85_interval_counterexample` (Fmt/Defaults.lean) [P, C, Q]
* `Verif.Fmt.C85_defs` (Fmt/Defaults.lean) [P, C, Q]
* `Verif.Fmt.C85_frame` (Fmt/Defaults.lean) [P, C, Q]
* `Verif.Fmt.C85_create` (Fmt/Defaults.lean) [P, C, Q]
* `Verif.Fmt.C85_meets` (Fmt/Defaults.lean) [P, C, Q]

### C86 Saved statistics count sheets and cells — proved

The writer of the whole package is run on the model; the element with the counts is found among the tokens of meta.xml, with the number of sheets and the sum of the numbers of cells.
Packages, for counts the code can hold (below 2^32). That the counts are read again does not hold, see C63.

* `Verif.Whole.C86_statistics` (Whole/Stats.lean) [P, C, Q]
* `Verif.Whole.C86_meets` (Whole/Stats.lean) [P, C, Q]

### C87 A style remembers what was last asked for — partial

Every setter is a constructor with its arguments, giving a list of attribute changes or a panic; a separate table says what each asks for, which are about the same property and which are refused. By induction over the chain; that setters of other properties do not interfere is checked over the table of all attributes.
All chains of the 217 modelled setters on the 15 kinds of styles and drawings. False of the code for set_font_attr: without its flags bold and italic text stay bold and italic.

* `Verif.Attr.C87_last_partial` (Attr/Props.lean) [P, C, Q]
* `Verif.Attr.C87_frame` (Attr/Props.lean) [P, C, Q]
* `Verif.Attr.C87_refused` (Attr/Props.lean) [P, C, Q]
* `Verif.Attr.C87_font_attr_counterexample` (Attr/Props.lean) [P, C, Q]
* `Verif.Attr.C87_meets` (Attr/Props.lean) [P, C, Q]

### C88 Styles have the attributes that ODF has — partial

The attributes of each element are listed from the standard in a separate file. By induction over the chain of calls with the table of C87; names of setters are compared with names of attributes letter by letter.
All chains of setters on all kinds. The lists of attributes are written down from the standard. Ten pairs of kind and attribute are false of the code: fo:font-size-rel, style:rotation-angle on text, style:dynamic-spacing on pages, draw:corner-radius on frames, xml_id.

* `Verif.Attr.C88_attributes_partial` (Attr/OdfProps.lean) [P, C, Q]
* `Verif.Attr.C88_misplaced_counterexample` (Attr/OdfProps.lean) [P, C, Q]
* `Verif.Attr.C88_named` (Attr/OdfProps.lean) [P, C, Q]
* `Verif.Attr.C88_meets` (Attr/OdfProps.lean) [P, C, Q]

### C89 Values have the form that ODF gives them — partial

The forms of values are listed from the standard in a separate file, with a small grammar. Each kind of argument gets a lemma, each setter a line; by induction over the chain of calls. Arguments that can be passed but have no form get counterexamples.
All chains of setters on all kinds with regular arguments, for every printer of numbers that prints digits, a point and a minus as Rust does. Missing: the arguments for which the code writes something else, each with a counterexample. Names, zero and the limits of percentages are not looked at.

* `Verif.Attr.C89_values_partial` (Attr/FormsProps.lean) [P, C, Q]
* `Verif.Attr.C89_no_limit_counterexample` (Attr/FormsProps.lean) [P, C, Q]
* `Verif.Attr.C89_text_align_counterexample` (Attr/FormsProps.lean) [P, C, Q]
* `Verif.Attr.C89_dash_counterexample` (Attr/FormsProps.lean) [P, C, Q]
* `Verif.Attr.C89_font_size_rel_counterexample` (Attr/FormsProps.lean) [P, C, Q]
* `Verif.Attr.C89_em_counterexample` (Attr/FormsProps.lean) [P, C, Q]
* `Verif.Attr.C89_default_counterexample` (Attr/FormsProps.lean) [P, C, Q]
* `Verif.Attr.C89_negative_counterexample` (Attr/FormsProps.lean) [P, C, Q]
* `Verif.Attr.C89_radius_counterexample` (Attr/FormsProps.lean) [P, C, Q]
* `Verif.Attr.C89_relative_counterexample` (Attr/FormsProps.lean) [P, C, Q]
* `Verif.Attr.C89_glyph_counterexample` (Attr/FormsProps.lean) [P, C, Q]
* `Verif.Attr.C89_link_counterexample` (Attr/FormsProps.lean) [P, C, Q]
* `Verif.Attr.C89_rel_width_counterexample` (Attr/FormsProps.lean) [P, C, Q]
* `Verif.Attr.C89_meets` (Attr/FormsProps.lean) [P, C, Q]

### C90 Metadata elements of other programs are read — partial

Files with one element of each of the four kinds, written with a start and an end tag and the attributes of the standard, are read through the characters, tokens and events of the reader model of C63. Each attribute reader is folded over the optional attributes.
All values of the four elements, one element in a file. Missing: the target frame of hyperlinks, which is read under a name that is not in the standard, and delays with fractions that C28 loses. What the library itself writes for an automatic reload and for xlink:actuate has names that neither the standard nor its reader knows.

* `Verif.Meta.C90_statistics` (Meta/Other.lean) [P, C, Q]
* `Verif.Meta.C90_template` (Meta/Other.lean) [P, C, Q]
* `Verif.Meta.C90_reload` (Meta/Other.lean) [P, C, Q]
* `Verif.Meta.C90_hyperlink_partial` (Meta/Other.lean) [P, C, Q]
* `Verif.Meta.C90_target_counterexample` (Meta/Other.lean) [P, C, Q]
* `Verif.Meta.C90_reload_name_counterexample` (Meta/Other.lean) [P, C, Q]
* `Verif.Meta.C90_actuate_counterexample` (Meta/Other.lean) [P, C, Q]
* `Verif.Meta.C90_meets` (Meta/Other.lean) [P, C, Q]

### C91 Texts and trees are what was built — partial

Text/Model.lean has the structs of src/text.rs with their methods, the methods of XmlTag and Display. Induction over chains of calls gives name, content and attributes; the names and meanings of the attributes are written down from the standard. Display is taken through the tokeniser of C30 to C32.
All chains of calls. Missing because the code is otherwise: outline levels and conditional styles are set under names that are not in the standard, slices of attributes can bring an attribute twice, and printing does not escape.

* `Verif.Text.C91_tree_partial` (Text/Props.lean) [P, C, Q]
* `Verif.Text.C91_slice_counterexample` (Text/Props.lean) [P, C, Q]
* `Verif.Text.C91_text_partial` (Text/Props.lean) [P, C, Q]
* `Verif.Text.C91_allowed_partial` (Text/Props.lean) [P, C, Q]
* `Verif.Text.C91_missing_counterexample` (Text/Props.lean) [P, C, Q]
* `Verif.Text.C91_misnamed_counterexample` (Text/Props.lean) [P, C, Q]
* `Verif.Text.C91_vec` (Text/Props.lean) [P, C, Q]
* `Verif.Text.C91_names` (Text/Props.lean) [P, C, Q]
* `Verif.Text.C91_display_partial` (Text/Props.lean) [P, C, Q]
* `Verif.Text.C91_display_counterexample` (Text/Props.lean) [P, C, Q]
* `Verif.Text.C91_meets` (Text/Props.lean) [P, C, Q]

### C92 A sheet is what it was asked to be — partial

Sheet/Model.lean puts the models of cells, columns, rows, groups and view together as one state with all setters of Sheet. Induction over histories splits a history into the calls about each part; these are then specified by the specifications of C02, C08 and C09. The panics are an equivalence.
All histories over 22 kinds of calls. Missing because the code is otherwise: rows that are named a second time after the row below (C09), and the view settings of the copy without data, which are reset.

* `Verif.Sheets.C92_settings` (Sheet/Props.lean) [P, C, Q]
* `Verif.Sheets.C92_cells` (Sheet/Props.lean) [P, C, Q]
* `Verif.Sheets.C92_columns` (Sheet/Props.lean) [P, C, Q]
* `Verif.Sheets.C92_rows_partial` (Sheet/Props.lean) [P, C, Q]
* `Verif.Sheets.C92_groups` (Sheet/Props.lean) [P, C, Q]
* `Verif.Sheets.C92_view` (Sheet/Props.lean) [P, C, Q]
* `Verif.Sheets.C92_panics` (Sheet/Props.lean) [P, C, Q]
* `Verif.Sheets.C92_copy_partial` (Sheet/Props.lean) [P]
* `Verif.Sheets.C92_copy_counterexample` (Sheet/Props.lean) [P, C, Q]
* `Verif.Sheets.C92_meets` (Sheet/Props.lean) [P, C, Q]

### C93 What was asked of the sheets is what a reader of the file sees — partial

Whole/History.lean: a history of calls that is saveable, stated in terms of the calls alone, makes a sheet that meets the hypotheses of C78 and C79; what comes back is translated back to the specification of the calls of C92.
All histories of calls that a file can hold (Saveable: the limits of C12, C15, C16, C19, C24, C25 and C26 in terms of the calls; each limit has its counterexample there). C92 composed with C78 and C79. Missing: the view, the limits, and the row limits of C09.

* `Verif.Whole.C93_package_partial` (Whole/History.lean) [P, C, Q]
* `Verif.Whole.C93_flat_partial` (Whole/History.lean) [P, C, Q]
* `Verif.Whole.C93_meets` (Whole/History.lean) [P, C, Q]

### C94 A workbook that is saved and loaded has the sizes and the view that were asked for — partial

Whole/Cycle.lean models `calculations` and `calc_derived` on the whole workbook; Whole/CycleProps.lean composes C93 with the styles that widths and heights get, and the configuration written for the view; Header/RowStates.lean says what the headers of the rows hold in terms of the calls, also for the row that `set_row_*` splits off.
All histories of calls that a file can hold (Saveable as in C93) and whose sizes can be kept (SizesFit: the limits of C60 and C62 in terms of the calls; each has its counterexample there). Composes C93 with the calculations before writing and after reading (C47, C60, C62). Missing: those limits, the zoom of the page view, which is not read (C47), and rows without content.

* `Verif.Whole.C94_package_partial` (Whole/CycleProps.lean) [P, C, Q]
* `Verif.Whole.C94_flat_partial` (Whole/CycleProps.lean) [P, C, Q]
* `Verif.Whole.C94_saves` (Whole/CycleProps.lean) [P, C, Q]
* `Verif.Whole.C94_meets` (Whole/CycleExample.lean) [P, C, Q]

### C95 A workbook can be saved and loaded any number of times — partial

Whole/Again.lean: the relation `Cycles` saves and loads n times, with the maps in any order in between; the conditions are closed under one time (Style/Closed.lean, Master/Again.lean, TableXml/Steady.lean, Grid/Settle.lean) and what is still the same composes (TableXml/Still.lean).
Induction over the number of times: what was loaded meets the conditions again (Lasting), and being still the same is transitive. Lasting = the limits of C78/C79 and: no validations (each time there is one more, proved for all workbooks), no empty paragraph in a header or footer (gone after the second time), no two groups that begin at the same place (their flags are swapped the second time), no repeated rows (C21), content in the last row of each row group and in the header rows. Missing: those cases.

* `Verif.Whole.C95_package_partial` (Whole/Again.lean) [P, C, Q]
* `Verif.Whole.C95_flat_partial` (Whole/Again.lean) [P, C, Q]
* `Verif.Whole.C95_meets` (Whole/AgainExample.lean) [P, C, Q]
* `Verif.Whole.C95_rules_counterexample` (Whole/AgainExample.lean) [P, C, Q]
* `Verif.Whole.C95_groups_counterexample` (Whole/AgainExample.lean) [P, C, Q]
* `Verif.Whole.C95_paragraph_counterexample` (Whole/AgainExample.lean) [P, C, Q]
* `Verif.C21_shift_counterexample` (Grid/TableProps.lean) [P, C, Q]

### C96 Working with a workbook across saving and loading — partial

Whole/Edit.lean: the relation `Works` mixes calls for cells with saving and loading; the conditions of C95 are closed under a call (TableXml/Edit.lean), what is to be seen of a cell follows `Obs.after` of the specification of C01. Grid/Ready.lean: which rows of a loaded sheet can be filled.
Induction over the history (Works), with the refinement of C01 for each call and C95 for each time the workbook is saved and loaded. Sound = the arguments fit into a file, no repeat is set, no cell is emptied in a header row or in the last row of a group, and the row is Ready. C96_ready_partial says which rows of a loaded sheet are Ready; C96_unready proves for all sheets that below a row with content and attributes an empty row is not, and C96_shift_counterexample shows what happens then: all rows below move down by one. Missing: the limits of C95, those rows, and calls that set repeats.

* `Verif.Whole.C96_package_partial` (Whole/Edit.lean) [P, C, Q]
* `Verif.Whole.C96_flat_partial` (Whole/Edit.lean) [P, C, Q]
* `Verif.Whole.C96_loaded_partial` (Whole/Edit.lean) [P, C, Q]
* `Verif.Whole.C96_next_package_partial` (Whole/Edit.lean) [P, C, Q]
* `Verif.Whole.C96_next_flat_partial` (Whole/Edit.lean) [P, C, Q]
* `Verif.C96_ready_partial` (Grid/Ready.lean) [P, C, Q]
* `Verif.C96_unready` (Grid/Ready.lean) [P, C, Q]
* `Verif.Whole.C96_meets` (Whole/EditExample.lean) [P, C, Q]
* `Verif.Whole.C96_shift_counterexample` (Whole/EditExample.lean) [P, C, Q]
* `Verif.Whole.C96_unready_meets` (Whole/EditExample.lean) [P, C, Q]

### C97 Reading only the content gives the same sheets — partial

Whole/Content.lean: the readers of packages with missing files and the two readers for the content only; a simulation between two runs of the same reader, one of which starts with fewer styles and master pages: Style/Form.lean proves that no step looks at the styles that are there and Book/Less.lean that what can be added to a store can be added to one that has seen less. Flat files: the loop passes over all sections that were written before the body.
For packages the full property, for all texts: a simulation of the two readers, in which one has seen fewer styles (Book/Less.lean, Style/Form.lean). For flat files: those that were written from a workbook within the limits of C79. C97_flat_counterexample: in a file from elsewhere an element office:body within a script is no sheet for one reader and one for the other. Missing: flat files from elsewhere.

* `Verif.Whole.C97_package` (Whole/Content.lean) [P, C, Q]
* `Verif.Whole.C97_left` (Whole/Content.lean) [P, C, Q]
* `Verif.Whole.C97_other_files` (Whole/Content.lean) [P, C, Q]
* `Verif.Whole.C97_flat_partial` (Whole/Content.lean) [P, C, Q]
* `Verif.Whole.C97_meets` (Whole/Content.lean) [P, C, Q]
* `Verif.Whole.C97_flat_meets` (Whole/Content.lean) [P, C, Q]
* `Verif.Whole.C97_flat_counterexample` (Whole/Content.lean) [P, C, Q]

### C98 An archive keeps the workbook and its additional files, any number of times — partial

Package/Xml.lean: the text of META-INF/manifest.xml and its reader, and the text of manifest.rdf. Archive/Model.lean: the archive as names and bytes, UTF-8 from the standard library of Lean, the four files of Whole, the additional files of Package. Round trip by composing C78, C59 and the text of the manifest; induction over the number of times; the reader on any archive.
C98_archive_partial composes C78, C59 and the text of the manifest (Package.manifest_text: all paths, versions and types) at the level of bytes (UTF-8). C98_bytes, C98_often (induction over the number of times) and C98_settled hold for every workbook that can be written and read. C98_listed, C98_missing, C98_unlisted, C98_no_manifest and C98_content hold for all archives. Missing: the limits of C78, and the format of zip files, which is not part of the repository (an archive is a list of names and bytes).

* `Verif.Archive.C98_archive_partial` (Archive/Props.lean) [P, C, Q]
* `Verif.Archive.C98_bytes` (Archive/Props.lean) [P, C, Q]
* `Verif.Archive.C98_histories` (Archive/Props.lean) [P, C, Q]
* `Verif.Archive.C98_often` (Archive/Props.lean) [P, C, Q]
* `Verif.Archive.C98_settled` (Archive/Props.lean) [P, C, Q]
* `Verif.Archive.C98_listed` (Archive/Props.lean) [P, C, Q]
* `Verif.Archive.C98_missing` (Archive/Props.lean) [P, C, Q]
* `Verif.Archive.C98_unlisted` (Archive/Props.lean) [P, C, Q]
* `Verif.Archive.C98_no_manifest` (Archive/Props.lean) [P, C, Q]
* `Verif.Archive.C98_content` (Archive/Props.lean) [P, C, Q]
* `Verif.Archive.C98_meets` (Archive/Props.lean) [P, C, Q]
* `Verif.Package.manifest_text` (Package/Xml.lean) [P, C, Q]

### C99 A cell that is built on its own is what was asked for — partial

Model: `CellContent::new` with the derived default, the setters as operations with the panic as `none`, `cell_content_ref` and `to_owned` (Store/Content.lean). Specification: for each getter the last call that concerns it. Proof: induction over the chain. Failure: the writer cuts a cell with a repeat count of 0 into no pieces; relation between sheets that are the same except for such cells, preserved by the loop of `write_sheet` (Whole/Lost.lean).
The getters for all chains of calls in which set_repeat occurs. In all others the repeat count is 0 (C99_repeat), and for all workbooks, sheets and positions the file does not depend on what was put into the cell (C99_lost_counterexample), or cannot be written if the cell has a span, validation, annotation or drawing (C99_panic_counterexample). That a cell with a repeat count of 1 is in the file is C93 and C96 (add_cell is one of their calls).

* `Verif.C99_built_partial` (Store/Content.lean) [P, C, Q]
* `Verif.C99_panics` (Store/Content.lean) [P, C, Q]
* `Verif.C99_repeat` (Store/Content.lean) [P, C, Q]
* `Verif.C99_meets` (Store/Content.lean) [P]
* `Verif.Whole.C99_lost_counterexample` (Whole/Lost.lean) [P, C, Q]
* `Verif.Whole.C99_panic_counterexample` (Whole/Lost.lean) [P, C, Q]
* `Verif.Whole.C99_lost_meets` (Whole/Lost.lean) [P, Q]

### C100 A workbook made by a program can be saved, and comes back — partial

Model: `default_settings` and `WorkBook::new` (Config/Default.lean, Whole/New.lean), and the calls of a workbook as steps on all its parts, with a panic as `none`. Proof: an invariant (each store is made by a bounded number of calls, its entries are good and stored under their names; the settings are the default ones, in which the view can be stored) is kept by each call; it gives the hypotheses of C94. The histories of the sheets are computed from the calls by a fold, which is the specification.
Invariant over all calls (BookInv), from WorkBook::new with any locale, then C94. C100_settings: each default setting comes back, but for the empty ones (name and setup of the printer), which are lost. Missing: the limits of the sheets as in C94 (SheetsOk, SizesFit), validations in flat files (C65), scripts and additional files (C74, C98), detached sheets (C42), set_version.

* `Verif.Whole.C100_calls` (Whole/NewProps.lean) [P, C, Q]
* `Verif.Whole.C100_package_partial` (Whole/NewProps.lean) [P, C, Q]
* `Verif.Whole.C100_flat_partial` (Whole/NewProps.lean) [P, C, Q]
* `Verif.Whole.C100_settings` (Whole/NewProps.lean) [P, C, Q]
* `Verif.Whole.C100_new_settings` (Whole/NewMore.lean) [P, C, Q]
* `Verif.Whole.C100_default_styles` (Whole/NewMore.lean) [P, C, Q]
* `Verif.Whole.C100_meets` (Whole/NewExample.lean) [P, C, Q]
* `Verif.Whole.C100_default_meets` (Whole/NewMore.lean) [P, C, Q]
* `Verif.Config.new_config` (Config/Default.lean) [P, C, Q]

### C101 Dates and durations of other programs mean what the standard says — partial

Model: the parsers of `Codec/Time.lean`. Specification: `DurText` and `DateText` are the parts of a text of the standard's form, with `text` and the meaning defined without the parsers (decimal value, fraction as truncated nanoseconds). Proof: the parsers are run on the parts, and each successful run is inverted into parts (Codec/IsoTime.lean).
For all texts, both directions. The property is false where the standard allows more: negative durations, years and weeks are refused, months are refused, offsets are refused (east) or ignored (west), and a date that does not exist is read as 1970-01-01 (counterexamples).

* `Verif.Codec.C101_duration` (Codec/IsoTime.lean) [P, C, Q]
* `Verif.Codec.C101_duration_refused_counterexample` (Codec/IsoTime.lean) [P, C, Q]
* `Verif.Codec.C101_months_counterexample` (Codec/IsoTime.lean) [P]
* `Verif.Codec.C101_date_accepts` (Codec/IsoTime.lean) [P, Q]
* `Verif.Codec.C101_date` (Codec/IsoTime.lean) [P, Q]
* `Verif.Codec.C101_no_date_counterexample` (Codec/IsoTime.lean) [P, Q]
* `Verif.Codec.C101_date_refused_counterexample` (Codec/IsoTime.lean) [P, Q]
* `Verif.Codec.C101_west_counterexample` (Codec/IsoTime.lean) [P, Q]

### C102 Cells of other programs are read as their attributes say — partial

Model: `cellAttr`, `setValue`, `finishCell`, `readTableCell` of `Codec/Cell.lean`. Specification: `meaning` and `CellFacts` look attributes up by name. Proof: an invariant over the list of attributes (each field of the state depends only on the attribute with its name), and the loop over the content does not touch these fields (Codec/OtherCells.lean).
C102_cell for all attributes (no name twice, as in well-formed XML) and any content. Acceptance for cells without content, and for paragraphs of plain text (C102_text). The property fails for the value type void, which makes the file unreadable, and the text of a cell without value type is lost. Missing: which other contents are accepted.

* `Verif.Codec.C102_cell` (Codec/OtherCells.lean) [P, C, Q]
* `Verif.Codec.C102_accepts` (Codec/OtherCells.lean) [P, C, Q]
* `Verif.Codec.C102_text` (Codec/OtherCells.lean) [P, C, Q]
* `Verif.Codec.C102_void_counterexample` (Codec/OtherCells.lean) [P, C, Q]
* `Verif.Codec.C102_untyped_counterexample` (Codec/OtherCells.lean) [P, C, Q]

### C103 Tables of other programs: each cell is where the file has it — partial

Grid/Other.lean: positions of elements that stand for several (`starts`, `coverOf`), the reader over any list of rows (`rows_get`, by induction with an invariant over row headers and cells), the column headers (`cols_get`, `cols_style`), then the copies (`rowClones_get?`, `cellClones_get?`).
For all tables (FileTable.OK: counts of at least one) and the default options. The first half (C103_only) without further limits. For the other half rows may be repeated at most 1000 times: of a row near the end of the table that is repeated more often only the first keeps its cells (C103_thousand_counterexample). Missing: empty cells that are repeated, the options that keep repeat counts (C33), and that a table can be read at all.

* `Verif.C103_only` (Grid/Other.lean) [P, C, Q]
* `Verif.C103_cells_partial` (Grid/Other.lean) [P, C, Q]
* `Verif.C103_styled_partial` (Grid/Other.lean) [P, C, Q]
* `Verif.C103_thousand_counterexample` (Grid/Other.lean) [P, C, Q]

### C104 The content of cells of other programs is read as it is — partial

Codec/Element.lean: trees of elements (`El`), their events, what the readers of trees do with them, and a lemma about the loop that all these readers share (`Passes`). Codec/OtherNotes.lean: annotations, images, frames as folds over their parts. Codec/OtherContent.lean: paragraphs and the whole cell, with the attributes from C102.
For all trees in which a paragraph or list has no element of its own name inside (C32_nested_counterexample), and in which elements of other kinds have none of the known ones inside. The property is false for embedded objects (lost), groups of drawings (their frames become frames of the cell) and lines without text that have an end tag (lost, although the empty tag is kept): counterexamples. Missing: comments and CDATA sections, which the model of the parser does not have.

* `Verif.Codec.C104_cell` (Codec/OtherContent.lean) [P, C, Q]
* `Verif.Codec.C104_annotation` (Codec/OtherProps.lean) [P, C, Q]
* `Verif.Codec.C104_frame` (Codec/OtherProps.lean) [P, C, Q]
* `Verif.Codec.C104_object_counterexample` (Codec/OtherProps.lean) [P, C, Q]
* `Verif.Codec.C104_group_counterexample` (Codec/OtherProps.lean) [P, C, Q]
* `Verif.Codec.C104_line_counterexample` (Codec/OtherProps.lean) [P, C, Q]

### C105 A table of another program is read as a whole — partial

TableXml/OtherAttrs.lean: what the attributes of a table, row, column, group and cell say, and that the readers' loops over attributes find that. TableXml/OtherTable.lean: the tags of rows and columns in a tree of elements (`tagsIn`), the kept elements (`keptIn`), and by induction over the tree that the reader of events does what the abstract reader of Grid does for these tags (`Follows`). Grid/Accept.lean: the abstract reader accepts every table of the shape of C103. TableXml/OtherProps.lean: both together with C103.
For all trees without a table inside the table, with the conditions of C103 and C104 on counts and contents. C105_table is exact: the table is read if and only if its row and column tags are accepted, and then with this result. The property is false for columns that are written with an end tag (lost) and for tables that begin with a header or a group without rows (not readable): counterexamples. Missing: rows repeated more than 1000 times (C103_thousand_counterexample), CDATA sections (C108_cdata_counterexample).

* `Verif.TableXml.C105_cell` (TableXml/OtherAttrs.lean) [P, C, Q]
* `Verif.TableXml.C105_cell_void` (TableXml/OtherAttrs.lean) [P, C, Q]
* `Verif.TableXml.C105_table` (TableXml/OtherTable.lean) [P, C, Q]
* `Verif.C105_accepts` (Grid/Accept.lean) [P, C, Q]
* `Verif.TableXml.C105_cells_partial` (TableXml/OtherProps.lean) [P, C, Q]
* `Verif.TableXml.C105_spelling` (TableXml/OtherProps.lean) [P, C, Q]
* `Verif.TableXml.C105_column_counterexample` (TableXml/OtherProps.lean) [P, C, Q]
* `Verif.TableXml.C105_empty_counterexample` (TableXml/OtherProps.lean) [P, C, Q]

### C106 Validations of other programs are found with their rules — partial

Valid/Other.lean: the attributes of a validation by a fold, messages as texts, the loop over a tree (`Loops`: which validations are stored, in which order), then the map of names from C41.
For all lists in which names are different and not empty, conditions have the prefix of: and messages have paragraphs or nothing. The property is false for validations that are empty tags, which is how validations without messages are usually written: they are lost, whatever is around them (counterexample, for all lists). Messages are stored under another name (C49_messages_counterexample).

* `Verif.Valid.C106_rules_partial` (Valid/Other.lean) [P, C, Q]
* `Verif.Valid.C106_empty_counterexample` (Valid/Other.lean) [P, C, Q]

### C107 The body of a document of another program is read as a whole — partial

TableXml/OtherBody.lean: the tables, lists of validations and kept elements of a tree, and by induction over the tree what the loop of the body does (`BGood`), with C105 for each table and C106 for the validations.
For all bodies whose tables meet the conditions of C105 and whose validations those of C106. Missing: what is missing there (rows repeated more than 1000 times, columns with end tags, empty validation tags, CDATA sections).

* `Verif.TableXml.C107_body` (TableXml/OtherBody.lean) [P, C, Q]
* `Verif.TableXml.C107_cells_partial` (TableXml/OtherBody.lean) [P, C, Q]

### C108 References stand for their characters, in values and in texts — partial

Xml/CharRef.lean: the references of XML as relations (`Numeral`, `RefIs`, `Denotes`), that the parser of numbers and names decides them; Xml/RefProps.lean: values by induction over the text, texts as spellings of contents, a cell by C104, and CDATA sections.
C108_value and C108_error are exact for values. For texts: a text without tags is a content that says what it stands for, and a cell with such a paragraph has this text. The property is false for CDATA sections: their text is lost, everywhere (counterexample, for all texts). An unknown name in a text stays as it is in the file, it is not refused.

* `Verif.Codec.C108_value` (Xml/RefProps.lean) [P, C, Q]
* `Verif.Codec.C108_error` (Xml/RefProps.lean) [P, C, Q]
* `Verif.Codec.C108_one` (Xml/RefProps.lean) [P, C, Q]
* `Verif.Codec.C108_text` (Xml/RefProps.lean) [P, C, Q]
* `Verif.Codec.C108_cell` (Xml/RefProps.lean) [P, C, Q]
* `Verif.Codec.C108_cdata_counterexample` (Xml/RefProps.lean) [P, C, Q]

### C109 How a file is written down does not matter — proved

Xml/Spelling.lean: which texts are texts of a tree (`Spells`), and by induction that the tokeniser reports the events of the tree for each of them; Whole/OtherFile.lean: so the readers get the same.
For all texts that are spellings of trees of elements: white space in tags, quotes, comments between tags and texts, an optional declaration. Processing instructions and document type declarations are not in the model.

* `Verif.Whole.C109_same` (Whole/OtherFile.lean) [P, C, Q]
* `Verif.Whole.C109_flat` (Whole/OtherFile.lean) [P, C, Q]
* `Verif.Whole.C109_package` (Whole/OtherFile.lean) [P, C, Q]

### C110 The content of a flat file of another program is read as a whole — partial

Whole/OtherFile.lean: the loop passes over everything but the start of the body (`bgoes_skip`), the body is C107, the text C109.
For all files with one body, whose tables and validations meet the conditions of C105 and C106. Missing: what is missing in C107.

* `Verif.Whole.C110_body` (Whole/OtherFile.lean) [P, C, Q]
* `Verif.Whole.C110_cells_partial` (Whole/OtherFile.lean) [P, C, Q]
* `Verif.Whole.C110_meets` (Whole/OtherFile.lean) [P, C, Q]

### C111 Styles, formats, page layouts and fonts of other programs are found as the file defines them — partial

Style/Other*.lean, Whole/OtherStyles.lean: `stylesSaidIn` says what a tree of elements defines, as a list of definitions; the loop over its events adds exactly these (`file_elIn`), and a store after a list of additions has the last one of each name (`Found`); the text by C109.
For all files whose style sections meet StylesFine: no name or attribute twice, counts and names readable, no empty tags as style of a header or footer, no formats that are empty tags. For those two the property is false (counterexamples): an empty style of a header is never left, so the properties of the footer also become its own, and an empty format swallows the styles behind it. Master pages are not part of it.

* `Verif.Style.C111_file` (Whole/OtherStyles.lean) [P, C, Q]
* `Verif.Style.C111_package` (Whole/OtherStyles.lean) [P, C, Q]
* `Verif.Style.C111_flat` (Whole/OtherStyles.lean) [P, C, Q]
* `Verif.Style.C111_meets` (Whole/OtherStyles.lean) [P, C, Q]
* `Verif.Style.C111_header_counterexample` (Whole/OtherStyles.lean) [P, C, Q]
* `Verif.Style.C111_empty_counterexample` (Whole/OtherStyles.lean) [P, C, Q]

### C112 Master pages of other programs are found as the file defines them — partial

Master/Other.lean: `mastersSaid` says what a tree of elements means, without the reader; Codec/Reach.lean shows once for all readers of this kind that they see exactly the elements that are reached from outside without passing one they know.
For all sections that meet MastersFine: no attribute twice, no nested header with the same name, regions whose content can be read. The property is false for master pages that are empty tags, which is how master pages without header and footer are written: the page swallows everything behind it, to the end of the file (counterexample, for all that follows).

* `Verif.Master.C112_masters_partial` (Master/Other.lean) [P, C, Q]
* `Verif.Master.C112_meets` (Master/Other.lean) [P, C, Q]
* `Verif.Master.C112_empty_counterexample` (Master/Other.lean) [P, C, Q]

### C113 Scripts and event listeners of other programs are read — partial

Script/Other.lean: `scriptsSaid` and `listenersSaid` from the tree, over the elements reached (Codec/Reach.lean); the reader adds exactly these, in order.
For all sections that meet ScriptsFine: no attribute twice, link attributes readable, scripts with start tag and end tag, listeners as empty tags. Missing: scripts that are empty tags (C74_empty_counterexample) and listeners with an end tag, which the model passes over (DESIGN.md).

* `Verif.Script.C113_scripts_partial` (Script/Other.lean) [P, C, Q]
* `Verif.Script.C113_meets` (Script/Other.lean) [P, C, Q]

### C114 Settings of other programs are found as the file has them — partial

Config/Other.lean: `configSaid` from the tree, with the members of each level in a small table; the reader gives exactly this, for each tree, by induction over it. Looking up: the last item of a name, the i-th of a list.
C114_settings is exact for all files with one settings section that meets ItemsFine: items have names and types, values have the form of their types, no element is in one of its own kind as text. The property is false for values that are empty tags, which is how empty texts are often written: they are lost (counterexample).

* `Verif.Config.C114_settings` (Config/Other.lean) [P, C, Q]
* `Verif.Config.C114_found` (Config/Other.lean) [P, C, Q]
* `Verif.Config.C114_named` (Config/Other.lean) [P, Q]
* `Verif.Config.C114_indexed` (Config/Other.lean) [P, Q]
* `Verif.Config.C114_meets` (Config/Other.lean) [P, C, Q]
* `Verif.Config.C114_empty_counterexample` (Config/Other.lean) [P, C, Q]

### C115 Metadata of other programs are read as the file has them — partial

Meta/OtherTree.lean: `metaSaid` from the tree: the last element of each kind, all values with names; the reader gives exactly this, by induction over the tree, with an invariant that describes the metadata after each element.
C115_meta is exact for all files with one metadata section that meets MetaFine: dates, numbers and attributes have their forms, a value with a name has one text. The property is false for elements that are empty tags, which are lost with all their attributes, and for values with names whose text has a reference, of which only the last piece is kept (counterexamples, for all attributes and all texts).

* `Verif.Meta.C115_meta` (Meta/OtherTree.lean) [P, C, Q]
* `Verif.Meta.C115_meets` (Meta/OtherTree.lean) [P, C, Q]
* `Verif.Meta.C115_empty_counterexample` (Meta/OtherTree.lean) [P, C, Q]
* `Verif.Meta.C115_reference_counterexample` (Meta/OtherTree.lean) [P, C, Q]

### C116 Whole files of other programs are read, section by section, as they are written — partial

Whole/OtherAll.lean, Whole/OtherWhole.lean: `WorkbookSaid` from the sections of the tree, with the meanings of C107 and C111-C115; each section is a number of steps of the loop of the file that changes only its part of the workbook (`Goes`), by induction over the elements of the root; a package chains the four files.
C116_flat and C116_package are for all files whose sections meet the conditions of C107 and C111-C115, no section twice, sections as elements of the root element. The property is false for a flat file with a master page that is an empty tag: no sheet is read, whatever the body is (counterexample for all bodies). The exceptions of C107 and C111-C115 hold here too.

* `Verif.Whole.C116_flat` (Whole/OtherWhole.lean) [P, C, Q]
* `Verif.Whole.C116_package` (Whole/OtherWhole.lean) [P, C, Q]
* `Verif.Whole.C116_cells_partial` (Whole/OtherWhole.lean) [P, C, Q]
* `Verif.Whole.C116_meets` (Whole/OtherWhole.lean) [P, C, Q]
* `Verif.Whole.C116_package_meets` (Whole/OtherWhole.lean) [P, C, Q]
* `Verif.Whole.C116_empty_counterexample` (Whole/OtherWhole.lean) [P, C, Q]
* `Verif.Whole.C116_empty_meets` (Whole/OtherWhole.lean) [P, C, Q]

### C117 Reading anything comes to an end, with a workbook or an error — partial

Whole/Calm.lean and CalmTable.lean to CalmFile.lean: `Calm` (neither panic nor endless) for each reader, with the events that are left as a suffix of those given (`Ends`, `After`), by induction over the fuel, which is more than the number of events; `Smooth` is inherited by suffixes; tables need `excess`, stores need room for names (`Made`). Whole/CalmProps.lean: the theorems, and files for each of the traps. Whole/CalmTree.lean: the conditions for trees of complete elements, by structural induction, with `Smooth` as a consequence.
The two theorems are for all texts, also those that are not well-formed or end too early, without the traps that Smooth names: for these the property is false, and for each kind there is a file that makes the reader panic or wait (counterexamples). C117_complete_partial says the same about files of complete elements, with the traps as seen in the tree. Also left out: builds with overflow checks, files with 2^32 events, and the counters of rows and columns, which are unbounded in the model.

* `Verif.Whole.C117_flat_partial` (Whole/CalmProps.lean) [P, C, Q]
* `Verif.Whole.C117_package_partial` (Whole/CalmProps.lean) [P, C, Q]
* `Verif.Whole.C117_complete_partial` (Whole/CalmTree.lean) [P, C, Q]
* `Verif.Whole.C117_complete_meets` (Whole/CalmTree.lean) [P, C, Q]
* `Verif.Whole.C117_meets` (Whole/CalmProps.lean) [P, C, Q]
* `Verif.Whole.C117_broken_meets` (Whole/CalmProps.lean) [P, C, Q]
* `Verif.Whole.C117_truncated_counterexample` (Whole/CalmProps.lean) [P, C, Q]
* `Verif.Whole.C117_header_counterexample` (Whole/CalmProps.lean) [P, C, Q]
* `Verif.Whole.C117_repeat_counterexample` (Whole/CalmProps.lean) [P, C, Q]
* `Verif.Whole.C117_condition_counterexample` (Whole/CalmProps.lean) [P, C, Q]
* `Verif.Whole.C117_duration_counterexample` (Whole/CalmProps.lean) [P, C, Q]
* `Verif.Whole.C117_script_counterexample` (Whole/CalmProps.lean) [P, C, Q]

### C118 The older functions for format parts add exactly the part that they name — partial

Fmt/Push.lean: `push` has each function as the chain of builder calls of C83; the specification `wish` lists element, attributes and text for each call; from C83_builders_partial for one call, then by induction over the calls.
All functions, all arguments, all sequences. The attribute number:min-integer-digits of push_fraction is left out, because it is lost for all arguments (counterexample). Which functions a type of format offers is decided by the compiler and is not modelled.

* `Verif.Fmt.C118_push_partial` (Fmt/Push.lean) [P, C, Q]
* `Verif.Fmt.C118_push_whole` (Fmt/Push.lean) [P, C, Q]
* `Verif.Fmt.C118_fraction_counterexample` (Fmt/Push.lean) [P, C, Q]
* `Verif.Fmt.C118_meets` (Fmt/Push.lean) [P, C, Q]

### C119 Validations are what their setters were last told, in memory and after a file — partial

Valid/Setters.lean: `VOp.step` for the setters, `made` for a sequence of calls; the specification has the last value told for each getter; by induction from the end of the sequence; the file from C49_rules_partial.
In memory for all sequences of calls. The file is the one of a package. Missing after a file: the messages and lists that are not shown, for which the property is false (C49 counterexamples), and base cells whose reference cannot be read (C35). Conditions are texts; the functions that make them are C48.

* `Verif.Valid.C119_setters` (Valid/Setters.lean) [P, Q]
* `Verif.Valid.C119_saved_partial` (Valid/Setters.lean) [P, C, Q]
* `Verif.Valid.C119_meets` (Valid/Setters.lean) [P, C, Q]
