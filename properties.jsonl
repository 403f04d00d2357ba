{"id": "C01", "title": "Cell store behaves as a map over any history", "statement": "After any sequence of cell operations on a Sheet (set_value, set_styled_value, set_formula, set_cellstyle, set_validation, set_cell_repeat, the span setters, the clear_* operations, add_cell, remove_cell), every getter at (row,col) returns what the last operation on that same cell and same field left there, and the default when there was none; no operation on one cell changes what any getter returns at another cell.", "quantifier": "every finite history of cell operations, every pair of cell positions", "why_tests_cant": "unbounded histories and all pairs of positions; tests sample a few sets and gets", "anchors": ["src/sheet_.rs:Sheet::set_value", "src/sheet_.rs:Sheet::add_cell", "src/sheet_.rs:Sheet::remove_cell", "src/sheet_.rs:Sheet::value", "src/sheet_.rs:Sheet::set_cellstyle", "src/cell_.rs:CellData"]}
{"id": "C02", "title": "Cell copy round trip", "statement": "cell(r,c) followed by add_cell at any position reproduces every getter of the source cell there; remove_cell returns the same content and leaves the position empty.", "quantifier": "every sheet reachable through the API and every pair of positions", "why_tests_cant": "all sheets and positions, including cells with spans, validations and repeats", "anchors": ["src/sheet_.rs:Sheet::cell", "src/sheet_.rs:Sheet::add_cell", "src/sheet_.rs:Sheet::remove_cell", "src/cell_.rs:CellContent::into_celldata"]}
{"id": "C03", "title": "Full iteration is complete, ordered and duplicate free", "statement": "Iterating a sheet yields each stored cell exactly once, in row-major order, together with its position; peek_cell reports the position the following call to next will yield.", "quantifier": "every sheet content", "why_tests_cant": "depends on arbitrary content, the iterator carries a one-element lookahead", "anchors": ["src/sheet_.rs:CellIter", "src/sheet_.rs:CellDataIter", "src/sheet_.rs:Sheet::iter"]}
{"id": "C04", "title": "iter_rows visits exactly the rectangle row by row", "statement": "iter_rows(start..end) yields exactly the stored cells inside the rectangle given by the two corners, each once, in row-major order.", "quantifier": "every sheet and every range, including inclusive, exclusive and open bounds", "why_tests_cant": "all sheets and all bound kinds; the repository tests one literal range", "anchors": ["src/sheet_.rs:IterRows", "src/sheet_.rs:Sheet::iter_rows"]}
{"id": "C05", "title": "iter_cols visits exactly the rectangle column by column", "statement": "iter_cols(start..end) terminates and yields exactly the stored cells inside the rectangle, each once, in column-major order.", "quantifier": "every sheet and every range", "why_tests_cant": "termination and completeness over all contents; the failing contents are not in the tests", "anchors": ["src/sheet_.rs:IterCols", "src/sheet_.rs:Sheet::iter_cols"]}
{"id": "C06", "title": "size_hint of the sheet iterators is valid", "statement": "At any point of an iteration the number of remaining items lies within the bounds reported by size_hint.", "quantifier": "every sheet, every range, every number of steps already taken", "why_tests_cant": "requires all prefixes of all iterations", "anchors": ["src/sheet_.rs:CellIter::size_hint", "src/sheet_.rs:IterRows::size_hint", "src/sheet_.rs:CellDataIter::size_hint"]}
{"id": "C07", "title": "used_grid_size is the tight bound of the used area", "statement": "used_grid_size returns the least (rows, cols) pair such that every stored cell lies strictly inside, and (1,1) for a sheet with no cells.", "quantifier": "every sheet content", "why_tests_cant": "universal over contents", "anchors": ["src/sheet_.rs:Sheet::used_grid_size"]}
{"id": "C08", "title": "Column attributes are independent per column", "statement": "Setting or clearing style, default cell style, visibility or width of one column never changes what the getters return for any other column, and the getter for that column returns the value set.", "quantifier": "every history of column attribute calls, also on sheets read from a file whose columns are stored with a repeat count", "why_tests_cant": "needs every history and every layout of repeated columns", "anchors": ["src/sheet_.rs:Sheet::create_split_col_header", "src/sheet_.rs:Sheet::valid_col_header", "src/sheet_.rs:Sheet::set_colstyle", "src/sheet_.rs:Sheet::set_col_width"]}
{"id": "C09", "title": "Row attributes are independent per row", "statement": "Setting or clearing style, default cell style, visibility, repeat or height of one row never changes what the getters return for any other row, and the getter for that row returns the value set.", "quantifier": "every history of row attribute calls, also on sheets read from a file", "why_tests_cant": "needs every history and every layout of spanned row headers", "anchors": ["src/sheet_.rs:Sheet::create_split_row_header", "src/sheet_.rs:Sheet::valid_row_header", "src/sheet_.rs:Sheet::set_rowstyle", "src/sheet_.rs:Sheet::set_row_height"]}
{"id": "C10", "title": "Groups never cross", "statement": "After any history of successful add/remove group calls two groups on the same axis are either disjoint or one contains the other; an add that would make two groups cross (or with from > to) panics and changes nothing; removing a group removes one group with exactly these bounds and no other.", "quantifier": "every history of add_row_group/remove_row_group/add_col_group/remove_col_group", "why_tests_cant": "invariant over all histories", "anchors": ["src/sheet_.rs:Sheet::add_col_group", "src/sheet_.rs:Sheet::remove_col_group", "src/sheet_.rs:Grouped::contains", "src/sheet_.rs:Grouped::disjunct"]}
{"id": "C11", "title": "Hiding a group hides exactly its members", "statement": "set_col_group_displayed / set_row_group_displayed on an existing group set its display flag, make exactly the columns/rows from..=to visible or collapsed, and change no other group.", "quantifier": "every sheet, group and flag", "why_tests_cant": "all sheets; the visible effect goes through the header splitting", "anchors": ["src/sheet_.rs:Sheet::set_col_group_displayed", "src/sheet_.rs:Sheet::set_row_group_displayed"]}
{"id": "C12", "title": "Grid round trip", "statement": "For any sheet, if write_ods succeeds, reading the file back gives a sheet with exactly the same cell contents at the same positions (a cell or row carrying a repeat count standing for that many copies; content-free unstyled cells aside).", "quantifier": "every set of cells, every placement, every gap between them, every repeat count", "why_tests_cant": "the writer compresses gaps with state carried across cells; only induction over the cell list covers all placements", "anchors": ["src/io/write.rs:write_sheet", "src/io/write.rs:write_empty_rows_before", "src/io/write.rs:write_start_current_row", "src/io/read.rs:read_table", "src/io/read.rs:calc_cloned_sheet"]}
{"id": "C13", "title": "Overlapping repeats are rejected, others are accepted", "statement": "write_sheet fails exactly when a repeated cell runs into the next stored cell of its row or a repeated data row runs into the next data row; otherwise it succeeds.", "quantifier": "every set of cells and repeat counts", "why_tests_cant": "all placements of repeats", "anchors": ["src/io/write.rs:write_sheet"]}
{"id": "C14", "title": "Every written row has the same width and the rows add up", "statement": "In the written table, the repeat counts of the cells of each row add up to the used column count (or further only by the last cell's own repeat), and the repeat counts of the rows add up to the row just after the last data row, counting its repeat.", "quantifier": "every sheet that is written successfully", "why_tests_cant": "arithmetic over unbounded cell lists", "anchors": ["src/io/write.rs:write_sheet", "src/io/write.rs:write_empty_row", "src/io/write.rs:write_empty_cells"]}
{"id": "C15", "title": "The table body is well-formed XML", "statement": "The sequence of tags written for a sheet is balanced: every start tag is closed by the matching end tag in LIFO order, whatever combination of gaps, header rows, row groups and row repeats the sheet has.", "quantifier": "every sheet reachable through the API", "why_tests_cant": "combination of four independent features at every relative position", "anchors": ["src/io/write.rs:write_sheet", "src/io/write.rs:write_empty_rows_before", "src/io/write.rs:write_start_current_row", "src/io/write.rs:write_end_prev_row", "src/io/write.rs:write_end_last_row"]}
{"id": "C16", "title": "The column section is well-formed XML and covers the columns", "statement": "The tags written for the columns of a sheet are balanced and the column elements cover the columns from 0 without gap or overlap.", "quantifier": "every column header map, every set of groups and header columns", "why_tests_cant": "all layouts of spans against groups", "anchors": ["src/io/write.rs:write_table_columns", "src/io/write.rs:calc_col_headers"]}
{"id": "C17", "title": "Merging equal columns preserves every column's attributes", "statement": "The step that merges neighbouring equal column headers before writing and after reading does not change what any column getter returns.", "quantifier": "every column header map", "why_tests_cant": "all maps, including gaps", "anchors": ["src/sheet_.rs:dedup_colheader", "src/io/write.rs:calc_col_headers", "src/io/read.rs:calculations"]}
{"id": "C18", "title": "Splitting columns at group borders preserves every column's attributes", "statement": "The step that splits column headers at group and header-column borders does not change what any column getter returns, and afterwards no stored span crosses a border.", "quantifier": "every column header map and set of borders", "why_tests_cant": "all maps and borders", "anchors": ["src/io/write.rs:calc_col_headers"]}
{"id": "C19", "title": "Column attributes survive write and read", "statement": "Style, default cell style and visibility of every column inside the used area are the same after write and read.", "quantifier": "every sheet", "why_tests_cant": "composition of merge, split, write, read over all layouts", "anchors": ["src/io/write.rs:write_table_columns", "src/io/read.rs:read_table_col_attr", "src/io/read.rs:read_table"]}
{"id": "C20", "title": "Row attributes survive write and read", "statement": "Style, default cell style and visibility of every row up to the last data row are the same after write and read, and rows without attributes get none.", "quantifier": "every sheet", "why_tests_cant": "all placements of attributes relative to data rows", "anchors": ["src/io/write.rs:write_empty_rows_before", "src/io/write.rs:write_empty_row", "src/io/read.rs:read_table_row_attr", "src/io/read.rs:read_table", "src/io/read.rs:calc_cloned_sheet"]}
{"id": "C21", "title": "Read-write-read is stable", "statement": "Writing a workbook that was read from a file and reading it again gives the same cells at the same positions.", "quantifier": "every file content", "why_tests_cant": "fixpoint property over all files", "anchors": ["src/io/read.rs:calc_cloned_sheet", "src/io/read.rs:read_table", "src/io/write.rs:write_sheet"]}
{"id": "C22", "title": "Splitting of repeated cells at covered areas is an exact partition", "statement": "A repeated cell is written as consecutive pieces that together cover exactly its columns, each piece entirely covered or entirely not covered, covered exactly when some earlier span contains it.", "quantifier": "every list of span ranges, every position and repeat", "why_tests_cant": "all geometries", "anchors": ["src/io/write.rs:split_hidden", "src/io/write.rs:remove_outlived"]}
{"id": "C23", "title": "Covered cells are exactly those under an earlier span", "statement": "A stored cell is written as covered cell exactly when it lies in the span area of an earlier (row-major) cell that is itself not covered.", "quantifier": "every set of cells and spans", "why_tests_cant": "requires the pruning of the span list to be exact over all later cells", "anchors": ["src/io/write.rs:write_sheet", "src/io/write.rs:remove_outlived", "src/refs.rs:CellRange::out_looped", "src/refs.rs:CellRange::contains"]}
{"id": "C24", "title": "Header rows and header columns survive write and read", "statement": "header_rows and header_cols are the same after write and read when they lie within the used area.", "quantifier": "every sheet and header range", "why_tests_cant": "all relative positions to data and gaps", "anchors": ["src/io/write.rs:write_start_current_row", "src/io/write.rs:write_end_prev_row", "src/io/write.rs:write_empty_rows_before", "src/io/read.rs:read_table"]}
{"id": "C25", "title": "Groups survive write and read", "statement": "The set of row and column groups with their display flag is the same after write and read.", "quantifier": "every laminar set of groups", "why_tests_cant": "all nestings and positions relative to data", "anchors": ["src/io/write.rs:write_table_columns", "src/io/write.rs:write_start_current_row", "src/io/read.rs:read_table"]}
{"id": "C26", "title": "Cell values survive write and read", "statement": "A cell's value, formula, style, validation, repeat and spans are the same after write and read for every value type.", "quantifier": "every value of every type", "why_tests_cant": "all strings and numbers", "anchors": ["src/io/write.rs:write_cell", "src/io/read.rs:read_table_cell", "src/io/read.rs:set_value"]}
{"id": "C27", "title": "Multi-line text survives write and read", "statement": "A text value is returned unchanged, including its line breaks and blank lines.", "quantifier": "every string", "why_tests_cant": "all strings", "anchors": ["src/io/write.rs:write_cell", "src/io/read.rs:append_text", "src/io/read.rs:set_value"]}
{"id": "C28", "title": "Durations survive write and read", "statement": "A TimeDuration value is the same after write and read (to the stated millisecond precision).", "quantifier": "every non-negative duration", "why_tests_cant": "all durations; the failing ones have fewer than 100 ms in the fraction", "anchors": ["src/io/format.rs:format_duration2", "src/io/parse.rs:parse_duration"]}
{"id": "C29", "title": "Currency codes survive write and read", "statement": "The currency symbol of a Currency value is the same after write and read.", "quantifier": "every string used as currency", "why_tests_cant": "all strings", "anchors": ["src/io/write.rs:write_cell", "src/io/read.rs:read_table_cell", "src/io/parse.rs:parse_currency"]}
{"id": "C30", "title": "XML escaping is lossless", "statement": "Unescaping an escaped string gives the string back, the escaped text contains no markup character, and different strings have different escapes.", "quantifier": "every string", "why_tests_cant": "all strings", "anchors": ["src/io/xmlwriter.rs:escape", "src/io/xmlwriter.rs:attr_esc", "src/io/xmlwriter.rs:text_esc"]}
{"id": "C31", "title": "The XML writer's output tokenises back to what was written", "statement": "For any sequence of writer calls, tokenising the produced characters gives exactly the written elements, attributes and texts in order.", "quantifier": "every sequence of writer calls with valid names", "why_tests_cant": "all call sequences", "anchors": ["src/io/xmlwriter.rs:XmlWriter"]}
{"id": "C32", "title": "Foreign XML is carried through unchanged", "statement": "An XML subtree the library does not interpret is the same after write and read, for every nesting of elements, attributes and text.", "quantifier": "every XML tree", "why_tests_cant": "all trees; the failing ones nest an element in itself", "anchors": ["src/io/write.rs:write_xmltag", "src/io/read.rs:read_xml", "src/xmltree.rs:XmlTag"]}
{"id": "C33", "title": "Column names are a bijection", "statement": "Formatting a column index as letters and parsing it gives the index back; distinct columns get distinct names; the names contain only A-Z and are ordered by length then alphabet as the columns are.", "quantifier": "every column index", "why_tests_cant": "all of u32 (and beyond)", "anchors": ["src/refs/format.rs:fmt_col_name", "src/refs/parser.rs:colname"]}
{"id": "C34", "title": "Row names are a bijection", "statement": "Formatting a row index and parsing it gives the index back for every row the parser accepts; zero and overflow are rejected.", "quantifier": "every row index", "why_tests_cant": "all of u32", "anchors": ["src/refs/format.rs:fmt_row_name", "src/refs/parser.rs:rowname"]}
{"id": "C35", "title": "Cell references round trip", "statement": "Formatting a CellRef and parsing the string gives the same reference, for every sheet name, IRI and every combination of absolute markers.", "quantifier": "every CellRef", "why_tests_cant": "all sheet names and IRIs, including quotes, dots and punctuation", "anchors": ["src/refs.rs:CellRef", "src/refs/format.rs:fmt_col_name", "src/refs/parser.rs:parse_cell_ref"]}
{"id": "C36", "title": "Cell ranges, column ranges and row ranges round trip", "statement": "Formatting a CellRange, ColRange or RowRange and parsing the string gives the same range.", "quantifier": "every range", "why_tests_cant": "all sheet names and marker combinations", "anchors": ["src/refs.rs:CellRange", "src/refs.rs:ColRange", "src/refs.rs:RowRange", "src/refs/format.rs", "src/refs/parser.rs"]}
{"id": "C37", "title": "Lists of cell ranges round trip", "statement": "format_cellranges followed by parse_cellranges gives the same list.", "quantifier": "every list of ranges", "why_tests_cant": "all lists, including sheet names containing blanks", "anchors": ["src/refs.rs:parse_cellranges", "src/refs.rs:format_cellranges"]}
{"id": "C38", "title": "Reference formatting is injective", "statement": "Two different references (same kind, names accepted by the parser) are never formatted to the same string.", "quantifier": "every pair of references", "why_tests_cant": "all pairs", "anchors": ["src/refs/format.rs"]}
{"id": "C39", "title": "Parsing a reference never fails otherwise than with an error", "statement": "For every input string the reference parsers return a value or an error; they do not panic.", "quantifier": "every string", "why_tests_cant": "all strings, overflow needs eight or more letters", "anchors": ["src/refs/parser.rs:colname", "src/refs/parser.rs:rowname"]}
{"id": "C40", "title": "Generated style names are fresh", "statement": "Adding a style (or format, page style, master page, validation) without a name gives it a name no stored one has, so no existing entry is lost, for any interleaving with explicitly named ones.", "quantifier": "every history of additions", "why_tests_cant": "all histories", "anchors": ["src/workbook_.rs:auto_style_name2", "src/workbook_.rs:auto_style_name", "src/workbook_.rs:WorkBook::add_cellstyle"]}
{"id": "C41", "title": "Style stores are maps", "statement": "After any history of add/remove, looking a style up by the reference returned from add yields the style last added under that name, and others are untouched.", "quantifier": "every history", "why_tests_cant": "all histories", "anchors": ["src/workbook_.rs:WorkBook::add_cellstyle", "src/workbook_.rs:WorkBook::cellstyle", "src/workbook_.rs:WorkBook::remove_cellstyle"]}
{"id": "C42", "title": "Detach and attach give the sheet back", "statement": "attach_sheet after detach_sheet restores the workbook, with the modified sheet in the slot it came from and no other sheet changed, whatever happens to other sheets in between.", "quantifier": "every history of detach, attach, insert, push and remove", "why_tests_cant": "all interleavings", "anchors": ["src/ds/detach.rs:Detach", "src/workbook_.rs:WorkBook::detach_sheet", "src/workbook_.rs:WorkBook::attach_sheet"]}
{"id": "C43", "title": "The sheet list behaves as a list", "statement": "push_sheet, insert_sheet, remove_sheet, sheet and num_sheets behave as on a plain list; sheet_idx returns the first index with that name.", "quantifier": "every history", "why_tests_cant": "all histories", "anchors": ["src/workbook_.rs:WorkBook::push_sheet", "src/workbook_.rs:WorkBook::insert_sheet", "src/workbook_.rs:WorkBook::remove_sheet", "src/workbook_.rs:WorkBook::sheet_idx"]}
{"id": "C44", "title": "Attribute maps are maps", "statement": "After any history of set_attr and clear_attr, attr returns the last value set, keys are never duplicated, and the order of first insertion is kept.", "quantifier": "every history", "why_tests_cant": "all histories; two parallel vectors must stay in step", "anchors": ["src/attrmap2.rs:AttrMap2"]}
{"id": "C45", "title": "Configuration trees are maps", "statement": "Inserting a configuration value at a path and getting it back returns it, and does not change the value at any other path.", "quantifier": "every tree and pair of paths", "why_tests_cant": "all trees and paths", "anchors": ["src/config.rs:Config", "src/config.rs:ConfigMap"]}
{"id": "C46", "title": "Configuration survives write and read", "statement": "The configuration tree is the same after write and read.", "quantifier": "every configuration tree", "why_tests_cant": "all trees; entries without content behave differently", "anchors": ["src/io/write.rs:write_office_settings", "src/io/write.rs:write_config_item", "src/io/read.rs:read_office_settings", "src/io/read.rs:read_config_item"]}
{"id": "C47", "title": "Sheet view settings survive write and read", "statement": "All public SheetConfig fields are the same after write and read.", "quantifier": "every field value", "why_tests_cant": "all values of all fields", "anchors": ["src/io/write.rs:calc_config", "src/io/read.rs:calc_derived", "src/sheet_.rs:SheetConfig"]}
{"id": "C48", "title": "Condition strings are faithful", "statement": "The string operand of a validation or style condition can be recovered from the condition text; different operands give different conditions.", "quantifier": "every operand string", "why_tests_cant": "all strings, including quotes", "anchors": ["src/condition.rs:quote", "src/condition.rs:Condition"]}
{"id": "C49", "title": "Validations survive write and read", "statement": "The workbook has the same validations with the same rules and messages after write and read.", "quantifier": "every validation", "why_tests_cant": "all validations, repeated cycles", "anchors": ["src/io/write.rs:write_content_validations", "src/io/read.rs:read_validations", "src/validation.rs"]}
{"id": "C50", "title": "Enumerated attributes survive write and read", "statement": "Each enumerated attribute value written is one the reader maps to the same value.", "quantifier": "every value of every enumerated attribute type", "why_tests_cant": "finite tables, but no test covers each value in both directions", "anchors": ["src/sheet_.rs:Visibility", "src/validation.rs:ValidationDisplay", "src/validation.rs:MessageType", "src/style/units.rs"]}
{"id": "C51", "title": "Every style is written exactly once and comes back with its origin", "statement": "Each stored style appears exactly once in the written package, in the section given by its use, and is read back with the same name, origin and use.", "quantifier": "every style store and every origin/use combination", "why_tests_cant": "all combinations in all stores", "anchors": ["src/io/write.rs:write_office_styles", "src/io/write.rs:write_office_automatic_styles", "src/io/write.rs:write_styles", "src/io/read.rs:read_office_styles", "src/io/read.rs:read_office_automatic_styles"]}
{"id": "C52", "title": "Reading default styles never displaces another style", "statement": "Styles without a name in the file do not replace, and are not replaced by, a named style.", "quantifier": "every file", "why_tests_cant": "depends on names generated while reading and names read later", "anchors": ["src/io/read.rs:read_cellstyle", "src/workbook_.rs:auto_style_name2"]}
{"id": "C53", "title": "Value formats survive write and read", "statement": "A value format has the same parts in the same order with the same texts after write and read.", "quantifier": "every sequence of format parts", "why_tests_cant": "all part sequences and texts", "anchors": ["src/io/write.rs:write_valuestyle", "src/io/read.rs:read_value_format_parts", "src/io/read.rs:read_part_number"]}
{"id": "C54", "title": "A failed save leaves the previous file intact", "statement": "If write_ods or write_fods to a path returns an error, the file that was there before is unchanged.", "quantifier": "every workbook and every failure", "why_tests_cant": "failure points are not exercised", "anchors": ["src/io/write.rs:write_ods", "src/io/write.rs:write_fods", "src/io/write.rs:sanity_checks"]}
{"id": "C55", "title": "A successful save has stored every byte", "statement": "If writing returns Ok, all bytes of the document have reached the file, for every point at which the file system refuses to accept more data.", "quantifier": "every document and every refusal point", "why_tests_cant": "failure injection at every byte", "anchors": ["src/io/write.rs:write_ods", "src/io/write.rs:write_fods"]}
{"id": "C56", "title": "The returned buffer is exactly the document", "statement": "The buffer returned by write_ods_buf and write_fods_buf contains the document and nothing else, whatever buffer was passed in.", "quantifier": "every initial buffer and document", "why_tests_cant": "all initial contents", "anchors": ["src/io/write.rs:write_ods_buf", "src/io/write.rs:write_fods_buf"]}
{"id": "C57", "title": "Column widths and row heights survive write and read", "statement": "The width of each column and the height of each row is the same after write and read, also when columns or rows share a style.", "quantifier": "every assignment of styles and widths", "why_tests_cant": "all sharing patterns, repeated cycles", "anchors": ["src/io/write.rs:calc_col_header_styles", "src/io/write.rs:calc_row_header_styles", "src/io/read.rs:calc_derived"]}
{"id": "C58", "title": "Preparing for write is idempotent", "statement": "Writing a workbook twice writes the same column headers the second time; the preparation does not change what getters return.", "quantifier": "every sheet", "why_tests_cant": "all column header maps", "anchors": ["src/io/write.rs:calc_col_headers", "src/sheet_.rs:dedup_colheader"]}
{"id": "C59", "title": "The package contains every listed file", "statement": "Whenever a package is written, every entry listed in its manifest (other than the root \"/\") is in the package exactly once and vice versa (mimetype, META-INF/ and META-INF/manifest.xml are in the package without being listed), mimetype is the first and uncompressed, and the entries of the user have their bytes. A package cannot be written exactly if the user has added an entry with one of these three names.", "quantifier": "every manifest content", "why_tests_cant": "all manifests, including names that collide with the standard files", "anchors": ["src/io/write.rs:write_ods_impl", "src/io/write.rs:create_manifest", "src/io/write.rs:write_ods_extra", "src/io/read.rs:read_ods_manifest", "src/io/read.rs:read_ods_extras"]}
{"id": "C60", "title": "Containment and pruning of ranges", "statement": "CellRange::contains holds exactly for positions inside the rectangle; out_looped holds exactly when no position from the given one on (row-major) can be inside.", "quantifier": "every range and position", "why_tests_cant": "all positions", "anchors": ["src/refs.rs:CellRange::contains", "src/refs.rs:CellRange::out_looped"]}
{"id": "C61", "title": "Lengths survive write and read", "statement": "A length attribute written is parsed to the same length with the same unit.", "quantifier": "every length and unit", "why_tests_cant": "all values", "anchors": ["src/style/units.rs:Length"]}
{"id": "C62", "title": "Dates and integers survive write and read", "statement": "Integers of every width and date-times in the written format are parsed back to the same value.", "quantifier": "every integer, every valid date-time", "why_tests_cant": "all values", "anchors": ["src/io/parse.rs", "src/io/format.rs"]}
{"id": "C63", "title": "Document metadata survives write and read", "statement": "After saving a workbook and reading the file, the metadata (title, description, subject, keyword, creators, dates, language, editing cycles and duration, template, automatic reload, hyperlink behaviour, user-defined values) is that of the workbook; the generator is the library.", "quantifier": "every metadata record", "why_tests_cant": "all strings, dates, durations and user-defined values, including those with markup characters", "anchors": ["src/io/write.rs:write_office_meta", "src/io/write.rs:calc_metadata", "src/io/read.rs:read_office_meta", "src/metadata.rs"]}
{"id": "C64", "title": "A sheet survives its text", "statement": "Writing a sheet as text and reading the text gives the sheet's name, style, print ranges, print and display flags and foreign elements, its groups and header ranges, the attributes of its columns and of the rows with content, and every cell with its value, formula, style, validation, annotation, frames and spans.", "quantifier": "every sheet, every value, every repeat, group and header range", "why_tests_cant": "the composition of writer, escaping, tokeniser, attribute parsing and grid logic over all sheets", "anchors": ["src/io/write.rs:write_sheet", "src/io/read.rs:read_table", "src/io/read.rs:read_table_cell"]}
{"id": "C65", "title": "All sheets of a workbook survive in order", "statement": "Writing the body of a workbook and reading the text gives all its sheets in their order, its validations, and its foreign elements.", "quantifier": "every list of sheets, validations and foreign elements", "why_tests_cant": "all numbers of sheets and all their contents", "anchors": ["src/io/write.rs:write_office_body", "src/io/read.rs:read_office_body"]}
{"id": "C66", "title": "Annotations of cells survive write and read", "statement": "An annotation set on a cell has, after write and read, the same name, display flag, creator, date and attributes, and a text with the same tags, attributes and characters in the same order.", "quantifier": "every annotation, every value of the cell", "why_tests_cant": "all texts, markup characters in every field, all dates", "anchors": ["src/io/write.rs:write_annotation", "src/io/read.rs:read_annotation", "src/draw.rs:Annotation"]}
{"id": "C67", "title": "Frames and images of cells survive write and read", "statement": "The draw frames of a cell come back in their order, each with its attributes, title and description, and its images in their order, each with its attributes, binary data and text.", "quantifier": "every list of frames and images", "why_tests_cant": "all numbers of frames and images and all their contents", "anchors": ["src/io/write.rs:write_draw_frame", "src/io/write.rs:write_draw_image", "src/io/read.rs:read_draw_frame", "src/io/read.rs:read_image", "src/draw.rs:DrawFrame"]}
{"id": "C68", "title": "Image bytes survive their encoding", "statement": "The bytes given to DrawImage::set_binary are returned by get_binary, in memory and after write and read; get_binary accepts no other text than the one set_binary makes.", "quantifier": "every sequence of bytes, every text", "why_tests_cant": "all byte sequences of all lengths", "anchors": ["src/draw.rs:DrawImage::set_binary", "src/draw.rs:DrawImage::get_binary"]}
{"id": "C69", "title": "Integers put into a cell are got from it", "statement": "An integer of any width put into a cell and got with the same type, in memory or after write and read, is the same if a double can hold it, which is so for all types of at most 32 bits; otherwise it is the nearest integer a double can hold. Getting it with another type cuts it to the range of that type, without wrapping. The order of integers is never turned around.", "quantifier": "every integer of every width, every pair of types", "why_tests_cant": "2^64 numbers and rounding at every power of two", "anchors": ["src/value_.rs:from_number", "src/value_.rs:as_i64_opt", "src/value_.rs:as_u8_opt"]}
{"id": "C70", "title": "The text shown for a cell survives write and read", "statement": "The text Value::as_cow_str_or gives for a cell with text or with marked-up text is the same after write and read.", "quantifier": "every text and every list of paragraphs with markup", "why_tests_cant": "all texts, all trees of tags, markup characters everywhere", "anchors": ["src/value_.rs:as_cow_str_or", "src/xmltree.rs:extract_text", "src/io/write.rs:write_cell", "src/io/read.rs:append_text"]}
{"id": "C71", "title": "Each type is got as it was put in", "statement": "A double, percentage, currency, switch, text, date-time, date, or duration made into a value is returned by the getter of that type, in memory and, within the limits of the format, after write and read; a getter gives something only for values of its type.", "quantifier": "every value of every type", "why_tests_cant": "all values of all types against all getters", "anchors": ["src/value_.rs:Value"]}
{"id": "C72", "title": "Master pages survive write and read", "statement": "Master pages come back under their names with display name, page layout and next style; each of the six headers and footers comes back with its left, center and right region, its paragraphs with their markup, and whether it is shown. No other master pages appear.", "quantifier": "every list of master pages, every content of regions and paragraphs", "why_tests_cant": "all trees of markup in all six places, all combinations of empty and filled regions", "anchors": ["src/io/write.rs:write_masterpage", "src/io/write.rs:write_regions", "src/io/read.rs:read_master_page", "src/io/read.rs:read_headerfooter", "src/style/masterpage.rs:MasterPage"]}
{"id": "C73", "title": "What is put into a header is shown", "statement": "Content put into a header or footer of a master page, without turning its display off, is written as shown and read as shown.", "quantifier": "every content, every one of the six headers and footers, both ways of putting it in", "why_tests_cant": "all contents and all places", "anchors": ["src/style/masterpage.rs:MasterPage::header_mut", "src/style/masterpage.rs:HeaderFooter::new", "src/io/write.rs:write_masterpage"]}
{"id": "C74", "title": "Scripts and event listeners survive write and read", "statement": "The scripts of a workbook come back in their order with language and content, and each event listener comes back under its event name with all its attributes.", "quantifier": "every list of scripts with any content, every set of listeners", "why_tests_cant": "all trees of markup and all texts in scripts, all combinations of listeners", "anchors": ["src/io/write.rs:write_scripts", "src/io/write.rs:write_event_listeners", "src/io/read.rs:read_scripts", "src/io/read.rs:read_event_listener", "src/workbook_.rs:Script", "src/workbook_.rs:EventListener", "src/xlink.rs:XLinkActuate"]}
{"id": "C75", "title": "Namespaces declared in a file are declared again", "statement": "If a file is read and written again, however often and with whatever in between, each prefix its root element declared is declared again for the same namespace, each prefix the library uses itself is declared for its own namespace, and nothing is declared twice.", "quantifier": "every set of declarations, every sequence of reads and writes, every file of a package and the flat file", "why_tests_cant": "all histories of reading and writing, all prefixes and URIs", "anchors": ["src/io/mod.rs:NamespaceMap", "src/io/write.rs:write_xmlns", "src/io/read.rs:read_namespaces_and_version"]}
{"id": "C76", "title": "The format version is kept", "statement": "All files written carry the version of the workbook, which is the version read from content.xml or from the flat file; a file of another media type is refused.", "quantifier": "every version text, every sequence of reads and writes", "why_tests_cant": "all histories, all version texts in all files", "anchors": ["src/workbook_.rs:WorkBook::version", "src/workbook_.rs:WorkBook::set_version", "src/io/read.rs:read_namespaces_and_version", "src/io/write.rs:write_ods_content"]}
{"id": "C77", "title": "Every prefix used is declared", "statement": "In meta.xml and settings.xml as written, the prefix of each element and attribute name is declared at the root element.", "quantifier": "every metadata, every configuration, every history of the workbook", "why_tests_cant": "all combinations of optional elements and attributes, all histories of declarations", "anchors": ["src/io/write.rs:write_ods_metadata", "src/io/write.rs:write_ods_settings", "src/io/write.rs:write_office_meta", "src/io/write.rs:write_xmlns"]}
{"id": "C78", "title": "A whole package survives write and read", "statement": "A workbook with metadata, configuration, styles, formats, page layouts, fonts, master pages, sheets, validations and foreign elements is written to a package, and reading the package gives all of them back together: nothing in one section changes how another is read. The version and the foreign prefixes of each file are kept. A workbook without sheets is refused.", "quantifier": "every workbook whose parts are each within the limits of the property about that part", "why_tests_cant": "all combinations of the contents of all sections of all files", "anchors": ["src/io/write.rs:write_ods_impl", "src/io/write.rs:write_ods_styles", "src/io/write.rs:write_ods_content", "src/io/write.rs:sanity_checks", "src/io/read.rs:read_ods_impl", "src/io/read.rs:read_ods_content", "src/io/read.rs:read_ods_styles"]}
{"id": "C79", "title": "A whole flat file survives write and read", "statement": "A workbook with metadata, configuration, styles, formats, page layouts, fonts, master pages and sheets is written to one flat file, and reading the file gives all of them back together, in spite of the line breaks between the elements: nothing in one section changes how another is read.", "quantifier": "every workbook whose parts are each within the limits of the property about that part", "why_tests_cant": "all combinations of the contents of all sections of a file", "anchors": ["src/io/write.rs:write_fods_impl", "src/io/write.rs:write_fods_content", "src/io/write.rs:convert", "src/io/read.rs:read_fods_impl"]}
{"id": "C80", "title": "References in formulas mean what was asked for", "statement": "Each function and macro that makes a reference for a formula gives a text in brackets that, read again, means exactly the sheet, the cell, range, columns or rows and the absolute markers that were asked for. Two different requests never give the same text. A range that is upside down is refused.", "quantifier": "every sheet name, every row and column, every combination of markers", "why_tests_cant": "all positions and all names of sheets with their quoting", "anchors": ["src/formula.rs:fcellref", "src/formula.rs:frangeref", "src/refs.rs:CellRef", "src/refs.rs:CellRange", "src/refs.rs:ColRange", "src/refs.rs:RowRange", "src/formula.rs:cell"]}
{"id": "C81", "title": "A range made of a corner and a size covers exactly that block", "statement": "CellRange::origin_span(row, col, (height, width)) gives a range that contains exactly the cells of the block, or panics if there is no such block.", "quantifier": "every corner and every size, with and without overflow checks", "why_tests_cant": "all corners and sizes up to the limits of the integers", "anchors": ["src/refs.rs:CellRange::origin_span", "src/refs.rs:CellRange::contains"]}
{"id": "C82", "title": "The locale of a format is kept", "statement": "After a locale was set for a format, or for its transliteration, the same locale is read from it, whatever was set before; the unknown locale removes it; nothing else of the format changes.", "quantifier": "every locale, every format", "why_tests_cant": "all combinations of subtags, all formats", "anchors": ["src/macro_attr_number.rs:locale", "src/macro_attr_number.rs:transliteration"]}
{"id": "C83", "title": "Builders of format parts do what they are told", "statement": "A part that was made with a builder comes last in the format, the other parts stay, and each attribute, the text and the position of the part have the value last asked for, or are absent.", "quantifier": "every format, every kind of part, every chain of calls", "why_tests_cant": "all chains of calls of any length with all arguments", "anchors": ["src/format/builder.rs:PartNumberBuilder", "src/format/builder.rs:PartFractionBuilder", "src/format/builder.rs:PartCurrencySymbolBuilder"]}
{"id": "C84", "title": "Ready-made formats show what they are named after", "statement": "For every value, a date format shows the fields in the order and with the separators its documentation says, a number format one amount with the decimals and the grouping asked for, a currency format the symbol and one amount; those for a locale carry the locale; all their parts survive writing and reading.", "quantifier": "every value to be shown, every locale, every symbol, number of decimals", "why_tests_cant": "all values, locales, symbols", "anchors": ["src/format/create.rs:create_loc_currency_prefix", "src/format/create.rs:create_loc_datetime_format", "src/format/create.rs:create_number_format_fixed", "src/format/create.rs:create_date_iso_format"]}
{"id": "C85", "title": "The default styles of a workbook lead to formats of its locale", "statement": "After the locale of a workbook was set, each type of value has a default style, the style names a format that exists in the workbook, and the format shows the value the way of this locale. Other styles and formats stay.", "quantifier": "every workbook, every locale, every set of features", "why_tests_cant": "all workbooks with all names of styles and formats, all locales", "anchors": ["src/workbook_.rs:WorkBook::locale_settings", "src/locale/mod.rs:localized_format", "src/defaultstyles.rs:create_default_styles", "src/locale/de_at.rs:LOCALE_DE_AT"]}
{"id": "C86", "title": "Saved statistics count sheets and cells", "statement": "The metadata of a saved package says how many sheets it has and how many cells there are in all sheets.", "quantifier": "every workbook, with any sheets and cells", "why_tests_cant": "all numbers of sheets and cells", "anchors": ["src/io/write.rs:calc_metadata", "src/io/write.rs:write_office_meta", "src/metadata.rs:DocumentStatistics"]}
{"id": "C87", "title": "A style remembers what was last asked for", "statement": "After any chain of setter calls on a style, page layout, font, tab stop, annotation, frame or image, each attribute a call is about has the value that call asked for, unless a later call is about the same property; all other attributes keep their values. A call with a size, margin or padding below zero is refused, and no other.", "quantifier": "every chain of calls of any length of the 217 setters, every argument, every style before", "why_tests_cant": "all chains of calls with all arguments, and which setters interfere with which", "anchors": ["src/macro_attr_fo.rs", "src/macro_attr_style.rs", "src/macro_attr_table.rs", "src/macro_attr_text.rs", "src/macro_attr_draw.rs", "src/macro_attr_svg.rs", "src/macro_attr_xlink.rs", "src/style/cellstyle.rs:CellStyle", "src/draw.rs:Annotation"]}
{"id": "C88", "title": "Styles have the attributes that ODF has", "statement": "After any chain of setter calls, every attribute of a style, page layout, font, tab stop, annotation, frame or image is one that OpenDocument allows on the element it is written to. A setter sets the attribute it is named after.", "quantifier": "every chain of calls of any length, every argument, every kind of style", "why_tests_cant": "all chains of calls on all kinds, against the whole list of attributes", "anchors": ["src/macro_attr_fo.rs", "src/macro_attr_style.rs", "src/macro_attr_table.rs", "src/macro_attr_text.rs", "src/macro_attr_draw.rs", "src/macro_attr_svg.rs", "src/macro_attr_xlink.rs", "src/style/pagestyle.rs:PageStyle", "src/draw.rs:DrawFrame"]}
{"id": "C89", "title": "Values have the form that ODF gives them", "statement": "After any chain of setter calls, every value of an attribute of a style, page layout, font, tab stop, annotation, frame or image has the form that OpenDocument gives to this attribute: a length with a unit, a colour, one of the words of a list, and so on.", "quantifier": "every chain of calls of any length, every argument, every kind of style", "why_tests_cant": "all arguments of all setters: all numbers, colours, words and combinations", "anchors": ["src/style/units.rs", "src/macro_attr_fo.rs", "src/macro_attr_style.rs", "src/macro_attr_table.rs", "src/macro_attr_text.rs", "src/macro_attr_draw.rs", "src/macro_attr_svg.rs", "src/macro_attr_xlink.rs", "src/style/mod.rs:border_string", "src/style/mod.rs:shadow_string", "src/xlink.rs"]}
{"id": "C90", "title": "Metadata elements of other programs are read", "statement": "A file of another program that has a template, an automatic reload, a hyperlink behaviour or document statistics as an element with a start and an end tag gives exactly these metadata when it is read.", "quantifier": "all values of the four elements, all namespaces declared on the root, files with and without line breaks", "why_tests_cant": "all texts, dates, durations and counts, in any combination of present and absent attributes", "anchors": ["src/io/read.rs:read_office_meta", "src/io/read.rs:read_metadata_template", "src/io/read.rs:read_metadata_auto_reload", "src/io/read.rs:read_metadata_hyperlink_behaviour", "src/io/read.rs:read_metadata_document_statistics", "src/io/write.rs:write_office_meta"]}
{"id": "C91", "title": "Texts and trees are what was built", "statement": "After any chain of calls on a text (heading, paragraph, span, link, space, tab, field) or an XML element, the element has its name, the texts and elements that were added in this order, no attribute twice, and each attribute says what the last call about it asked for and is one that OpenDocument has for the element. Its plain text is the texts joined. Printing it gives XML for it.", "quantifier": "all chains of calls of any length, all texts, names, values and trees of any depth", "why_tests_cant": "all chains of calls and all trees", "anchors": ["src/text.rs", "src/macro_text.rs", "src/xmltree.rs:XmlTag", "src/attrmap2.rs:AttrMap2"]}
{"id": "C92", "title": "A sheet is what it was asked to be", "statement": "After any history of calls on a new sheet, of any kinds in any order, each cell, column, row, group, header range, print range, flag, name, style and setting of the view is what the calls about it say and does not depend on the other calls. A history panics exactly if one of its calls is refused. The copy without data is the same sheet without its cells.", "quantifier": "all histories of any length over all calls that change a sheet, all arguments", "why_tests_cant": "all histories: whether two calls of different kinds interfere depends on the state that the earlier ones left", "anchors": ["src/sheet_.rs:Sheet", "src/sheet_.rs:Sheet::clone_no_data", "src/sheet_.rs:Sheet::set_col_group_displayed", "src/sheet_.rs:Sheet::split_col_header"]}
{"id": "C93", "title": "What was asked of the sheets is what a reader of the file sees", "statement": "The sheets of a workbook are made by histories of calls. After the workbook was written to a file and the file was read, there are as many sheets in the same order, and every cell, column, row with content, group, header range, print range, flag, name and style is what the calls of its history asked for; there is no cell nobody asked for.", "quantifier": "all histories of calls of any length for any number of sheets, all other parts of the workbook, packages and flat files", "why_tests_cant": "all histories and all workbooks around them: setters, writer, file and reader are one chain", "anchors": ["src/sheet_.rs:Sheet", "src/io/write.rs:write_ods_impl", "src/io/write.rs:write_fods_impl", "src/io/read.rs:read_ods_impl", "src/io/read.rs:read_fods_impl"]}
{"id": "C94", "title": "A workbook that is saved and loaded has the sizes and the view that were asked for", "statement": "The sheets of a workbook are made by histories of calls. After saving (which works out the styles for widths and heights and the settings of the view) and loading (which works out the widths, heights and view again), every sheet is there in the same order with every cell, column, row, width of a column, height of a row, split and other setting of its view as the calls asked; the active sheet is the one that was chosen; the remaining parts of the workbook are as before. Saving succeeds.", "quantifier": "all histories of calls of any length for any number of sheets, all stored styles, all other parts of the workbook, packages and flat files", "why_tests_cant": "all histories: styles made for one sheet are shared with the others, and the derived settings go through three representations", "anchors": ["src/io/write.rs:calculations", "src/io/write.rs:calc_row_header_styles", "src/io/write.rs:calc_col_header_styles", "src/io/write.rs:calc_config", "src/io/read.rs:calc_derived", "src/sheet_.rs:Sheet", "src/config.rs:Config"]}
{"id": "C95", "title": "A workbook can be saved and loaded any number of times", "statement": "A workbook that was loaded is saved and loaded again, any number of times. Each time this is possible, and after any number of times the workbook has the same cells, column and row attributes, groups, header ranges, styles, formats, page layouts, fonts, master pages, configuration, metadata, foreign elements, version and namespaces as in the beginning: nothing wears off and nothing piles up.", "quantifier": "all workbooks, any number of times, all orders in which the hash maps of a loaded workbook are gone through, packages and flat files", "why_tests_cant": "any number of times: what one time keeps can be lost the next time, because a loaded workbook is not built as a new one is", "anchors": ["src/io/write.rs:write_ods_impl", "src/io/write.rs:write_fods_impl", "src/io/read.rs:read_ods_impl", "src/io/read.rs:read_fods_impl"]}
{"id": "C96", "title": "Working with a workbook across saving and loading", "statement": "Cells of a workbook are changed, it is saved and loaded, cells are changed again, and so on, in any order and any number of times. In the end each cell shows what the calls for it made of what was there at the beginning, at the place where they put it, as if the workbook had never been saved; a call for one cell changes no other; sheets, groups and header ranges stay; and the workbook can be saved and loaded once more.", "quantifier": "all workbooks, all histories of any length of changes to cells and of saving and loading, packages and flat files", "why_tests_cant": "all histories: a workbook that was loaded stores more than was asked for, and a later change can depend on it", "anchors": ["src/sheet_.rs:Sheet", "src/cell_.rs:CellContent", "src/io/write.rs:write_sheet", "src/io/write.rs:write_ods_impl", "src/io/write.rs:write_fods_impl", "src/io/read.rs:read_table", "src/io/read.rs:read_ods_impl", "src/io/read.rs:read_fods_impl"]}
{"id": "C97", "title": "Reading only the content gives the same sheets", "statement": "Whenever a package can be read, it can also be read with the option for the content only, and both give the same sheets with the same cells, the same validations, foreign elements and scripts. The same holds when the metadata, the settings or the styles are missing from the package. What the other files say does not matter for the sheets. A flat file the library wrote has the same sheets when only its content is read.", "quantifier": "all packages, whatever their files contain; all flat files written by the library", "why_tests_cant": "all texts: generated names of styles depend on what was read before, and whether a style can be added decides whether the file is refused", "anchors": ["src/io/read.rs:read_ods_impl", "src/io/read.rs:read_ods_impl_content_only", "src/io/read.rs:read_fods_impl", "src/io/read.rs:read_fods_impl_content_only", "src/io/read.rs:OdsOptions"]}
{"id": "C98", "title": "An archive keeps the workbook and its additional files, any number of times", "statement": "A workbook with additional files (pictures, folders, anything a user adds to the manifest) is written to an archive. The archive can be read, and both the workbook and each additional file come back: the path, the version, the type and the bytes, and no other entries but those each archive has. However often the workbook is saved and loaded, and whatever is done to its sheets meanwhile, an additional file stays the same, and after the first time the manifest does not change any more. For any archive: a file that is listed and missing is an error, a file that is not listed is not read (and so is lost when the workbook is saved), and reading only the content gives the same sheets.", "quantifier": "all workbooks within the limits of C78, all manifests, all orders of the map, any number of times; all archives for the reader", "why_tests_cant": "all paths and bytes, including names with characters of XML and outside ASCII, all orders of a hash map, and histories of any length", "anchors": ["src/io/write.rs:write_ods_impl", "src/io/write.rs:write_ods_manifest", "src/io/write.rs:create_manifest", "src/io/write.rs:write_ods_extra", "src/io/read.rs:read_ods_impl", "src/io/read.rs:read_ods_manifest", "src/io/read.rs:read_ods_extras", "src/io/read.rs:read_ods_impl_content_only", "src/manifest.rs:Manifest"]}
{"id": "C99", "title": "A cell that is built on its own is what was asked for", "statement": "A cell is built from CellContent::new by any chain of calls of its setters and put into a sheet with add_cell. The sheet then reports for this position what the last call for each property said, and for the others what a cell has for which nothing was said (it is there once, no style, no formula, spans of one); no other position changes; cell and cell_ref give the same cell again. A chain of calls panics only for a count of zero. When the workbook is saved, the cell is in the file.", "quantifier": "all chains of calls of any length, all sheets and positions, all workbooks around them, packages and flat files", "why_tests_cant": "all chains and all sheets: the defaults of a cell that is built on its own come from a derived Default and are not those of a cell of a sheet", "anchors": ["src/cell_.rs:CellContent", "src/cell_.rs:CellContentRef", "src/cell_.rs:CellContent::into_celldata", "src/sheet_.rs:Sheet::add_cell", "src/sheet_.rs:Sheet::cell", "src/sheet_.rs:Sheet::cell_ref", "src/io/write.rs:write_sheet", "src/io/write.rs:split_hidden"]}
{"id": "C100", "title": "A workbook made by a program can be saved, and comes back", "statement": "A workbook is made with new and changed by any sequence of calls: styles, formats, page styles, fonts, master pages, validations, default styles, locale settings, metadata, the view, sheets that are added, inserted, removed and filled. As long as what the calls store can be written at all, none of the calls about the workbook fails, the workbook can be saved, the file can be loaded, and then everything is as the program left it: the view, the sheets in their order with what their calls asked for, the metadata, page styles, master pages, validations, styles, formats, fonts, and the settings that a new workbook has.", "quantifier": "all locales, all histories of calls of any length up to the numbers of names there are, packages and flat files", "why_tests_cant": "all histories: each call must leave a workbook that can be written, and the parts of a new workbook (default settings, styles of the locale) are part of every file", "anchors": ["src/workbook_.rs:WorkBook::new", "src/workbook_.rs:WorkBook::new_empty", "src/workbook_.rs:WorkBook::locale_settings", "src/workbook_.rs:WorkBook", "src/io/read.rs:default_settings", "src/io/write.rs:write_ods_impl", "src/io/write.rs:write_fods_impl", "src/io/read.rs:read_ods_impl", "src/io/read.rs:read_fods_impl"]}
{"id": "C101", "title": "Dates and durations of other programs mean what the standard says", "statement": "A duration in a file is a P, optional days, then optionally a T with hours, minutes and seconds, the seconds with any number of decimals. It is read as exactly that length of time, truncated to nanoseconds, no matter how many digits the numbers have. A date is a year, a month and a day, then optionally a T with a time and a Z. Exactly the texts of these forms are accepted, all others are errors, and an accepted text has exactly this meaning.", "quantifier": "all texts", "why_tests_cant": "all texts: a file can contain any text, and files of other programs have forms that this library never writes", "anchors": ["src/io/parse.rs:parse_duration", "src/io/parse.rs:parse_datetime", "src/io/parse.rs:token"]}
{"id": "C102", "title": "Cells of other programs are read as their attributes say", "statement": "Whatever the attributes of a cell are, in whatever order, with whatever others between them, and whatever is in the cell: if the cell is read then its value is what the value type and the attribute that belongs to this type say. The text in the cell matters only for texts without a string-value. The formula, style, validation, spans and the repeat count are those of the attributes. A cell is dropped only if it has no value and no formula. A cell without content is accepted exactly if each attribute is of its form and the one of its type is there.", "quantifier": "all lists of attributes, all contents, all options", "why_tests_cant": "all lists of attributes and all contents: other programs write attributes in any order and combination", "anchors": ["src/io/read.rs:read_table_cell", "src/io/read.rs:set_value", "src/io/read.rs:read_table_row_attr", "src/io/parse.rs:parse_u32"]}
{"id": "C103", "title": "Tables of other programs: each cell is where the file has it", "statement": "A table of a file consists of columns and rows, with groups and headers, and each row and each cell can stand for several. After such a table was read, each cell of the sheet is in the file: the row and the cell element that stand for its position have exactly this value, formula, style, span and so on. The other way round each cell of the file that has a value or a formula is in the sheet, at each position it stands for, and so is an empty cell that has another style than its column.", "quantifier": "all tables with any columns, groups, headers, rows, cells and counts, all positions", "why_tests_cant": "all tables: positions are sums of all counts before, and rows and cells that stand for several are copied after reading", "anchors": ["src/io/read.rs:read_table", "src/io/read.rs:read_table_row_attr", "src/io/read.rs:read_table_cell", "src/io/read.rs:read_table_col_attr", "src/io/read.rs:calc_cloned_sheet"]}
{"id": "C104", "title": "The content of cells of other programs is read as it is", "statement": "A cell of a file contains paragraphs, annotations and frames with pictures, in any order, with line breaks and elements of other kinds between them; each of these again has its parts in any order, as empty tags or with content. Such a cell is read if its attributes give a value for the text of the paragraphs. It then has this text, piece for piece, the last of the annotations with its creator, date, paragraphs and attributes, and all frames in their order with their pictures, titles and attributes. It is dropped only if it has no value, no formula, no annotation and no frame.", "quantifier": "all attributes and all trees of elements as content, all options", "why_tests_cant": "all trees: other programs nest and order elements in ways this library never writes", "anchors": ["src/io/read.rs:read_table_cell", "src/io/read.rs:append_text", "src/io/read.rs:read_text_or_tag", "src/io/read.rs:read_annotation", "src/io/read.rs:read_draw_frame", "src/io/read.rs:read_image", "src/io/read.rs:read_xml", "src/draw.rs:Annotation", "src/draw.rs:DrawFrame"]}
{"id": "C105", "title": "A table of another program is read as a whole", "statement": "A table of a file is an element with rows, cells, columns, groups and headers, in between line breaks, page breaks and elements of other kinds, before and after them titles, forms, named expressions and the like. If the attributes are of their forms, then the table is read: its name, style and print settings are those of its attributes, the titles, forms and named expressions are kept as they are, in their order, and each cell of the sheet is at the place, and has the value, formula, style, text, annotation and frames, that the file has; no cell with a value is missing. A cell without content can be written with or without an end tag.", "quantifier": "all trees of elements as content of a table, all attributes, counts and positions", "why_tests_cant": "all trees: other programs write the parts of a table in other orders, spellings and nestings than this library", "anchors": ["src/io/read.rs:read_table", "src/io/read.rs:read_table_attr", "src/io/read.rs:read_table_row_attr", "src/io/read.rs:read_table_col_attr", "src/io/read.rs:read_table_cell", "src/io/read.rs:read_table_column_group_attr", "src/io/read.rs:read_table_row_group_attr"]}
{"id": "C106", "title": "Validations of other programs are found with their rules", "statement": "A file of another program has a list of validations, each with attributes in any order, with messages with paragraphs, events and elements of other kinds inside. Such a list is read, and afterwards each validation is found under its name with the rule that the file has: the condition behind its prefix, the base cell, whether empty cells are allowed and how the list is shown.", "quantifier": "all lists of validations as trees of elements, all attributes of their forms", "why_tests_cant": "all trees: other programs write validations with and without messages, and attributes in any order", "anchors": ["src/io/read.rs:read_validations", "src/io/read.rs:read_validation", "src/io/read.rs:read_validation_error", "src/io/read.rs:read_validation_help"]}
{"id": "C107", "title": "The body of a document of another program is read as a whole", "statement": "The body of a document contains settings, validations, tables, and named, database and pivot ranges, in any order, with elements of other kinds between and around them. Such a body is read: there is one sheet for each table, in the order of the file, with the name and the settings of the table and with exactly its cells, the validations are found under their names, and all the ranges and settings are kept as they are.", "quantifier": "all trees of elements as bodies, all positions of all cells of all tables", "why_tests_cant": "all trees: the body of a file of another program has other elements in other orders than this library writes", "anchors": ["src/io/read.rs:read_office_body", "src/io/read.rs:read_table", "src/io/read.rs:read_validations", "src/io/read.rs:read_xml"]}
{"id": "C108", "title": "References stand for their characters, in values and in texts", "statement": "In a file any character can be written as a reference: the five names of XML, or the number of the character in the decimal or hexadecimal system, with upper or lower case digits and leading zeros. The values of attributes and the texts of cells are read as the text these references stand for. A value with a reference that stands for no character is refused.", "quantifier": "all values and texts with any number of references of any form, all characters", "why_tests_cant": "all texts: other programs write any character as a reference, and numbers have arbitrarily many digits", "anchors": ["src/io/read.rs:read_table_cell", "src/io/read.rs:read_text_or_tag", "src/io/read.rs:unused_event", "src/io/parse.rs:parse_string"]}
{"id": "C109", "title": "How a file is written down does not matter", "statement": "Two files with the same elements, attributes, texts and references are read into the same workbook, or are both refused with the same error: white space within tags, single or double quotes, comments and the declaration have no meaning. This holds for the files of a package and for flat files, with all options.", "quantifier": "all files as trees of elements with all their texts, all options", "why_tests_cant": "all texts of all files: each element can be written in infinitely many ways", "anchors": ["src/io/read.rs:read_ods_content", "src/io/read.rs:read_ods_styles", "src/io/read.rs:read_ods_metadata", "src/io/read.rs:read_ods_settings", "src/io/read.rs:read_fods_impl", "src/io/read.rs:read_fods_impl_content_only"]}
{"id": "C110", "title": "The content of a flat file of another program is read as a whole", "statement": "If a flat file of any program is read with content_only, then its metadata, settings, scripts, fonts, styles and whatever else is in front of its body or behind it play no role, not even if they are in forms this library does not know. There is one sheet for each table of the body, in the order of the file, with exactly its cells, the validations are found under their names, and settings and ranges are kept as they are.", "quantifier": "all texts of all files, as trees of elements with any sections around the body, all positions of all cells", "why_tests_cant": "all trees: files of other programs have sections, elements and orders that this library never writes", "anchors": ["src/io/read.rs:read_fods_impl_content_only", "src/io/read.rs:read_fods", "src/io/read.rs:read_office_body", "src/io/read.rs:read_table"]}
{"id": "C111", "title": "Styles, formats, page layouts and fonts of other programs are found as the file defines them", "statement": "A file of another program defines styles, formats, page layouts and fonts: with attributes in any order, with property elements in any order and several of a kind, with elements of other kinds between and around them. Such a file is read, and afterwards a style of a family is found under its name with the attributes, the properties of each kind, the conditions and the tab stops that the file gives it; a format with its parts, their texts and their embedded texts in order, and its conditions; a page layout with its own properties and those of its header and footer; a font with its attributes. Of several definitions with one name the last one is found, where content.xml comes after styles.xml. Nothing is found that the file does not define.", "quantifier": "all files as trees of elements, all their spellings, all names", "why_tests_cant": "all trees: other programs write style sections with other elements, orders and nestings than this library", "anchors": ["src/io/read.rs:read_office_styles", "src/io/read.rs:read_office_automatic_styles", "src/io/read.rs:read_style_style", "src/io/read.rs:read_page_style", "src/io/read.rs:read_value_format", "src/io/read.rs:read_office_font_face_decls", "src/io/read.rs:copy_style_attr"]}
{"id": "C112", "title": "Master pages of other programs are found as the file defines them", "statement": "A file of another program has master pages, with attributes in any order, with headers and footers for all pages, the first page and left pages, these with regions, paragraphs and elements of other kinds in any order, and with further elements between and around them. Such master pages are read, and each is found under its name with its display name, its page layout, its next page, and with the regions, paragraphs and visibility of each header and footer as the file has them. Of several with one name the last one is found, and nothing else is found.", "quantifier": "all trees of elements as section of master pages, all names", "why_tests_cant": "all trees: other programs write other elements, nestings and orders than this library", "anchors": ["src/io/read.rs:read_office_master_styles", "src/io/read.rs:read_master_page", "src/io/read.rs:read_headerfooter", "src/io/read.rs:read_xml"]}
{"id": "C113", "title": "Scripts and event listeners of other programs are read", "statement": "A file of another program has scripts, with whatever content, and event listeners with attributes in any order, in their own element or not. They are read: the scripts in the order of the file with their language and content, and for each event the last listener that the file has for it, with its language, macro and link. No other script or listener is there afterwards.", "quantifier": "all trees of elements as section of scripts, all names of events", "why_tests_cant": "all trees: the content of scripts is free, and other programs add elements", "anchors": ["src/io/read.rs:read_scripts", "src/io/read.rs:read_script", "src/io/read.rs:read_event_listener", "src/workbook_.rs:EventListener"]}
{"id": "C114", "title": "Settings of other programs are found as the file has them", "statement": "A settings file of another program has sets, lists, named and indexed entries and values of all types, nested in each other to any depth, with attributes in any order and with elements of other kinds between and around them. Such a file is read, and each value is found under the path of its names, with the type and the value the file gives it; the entries of lists are found under their numbers, in the order of the file. Of several items with one name in one place the last one is found, and nothing is found that the file does not have.", "quantifier": "all settings files as trees of elements, all their spellings, all paths of names", "why_tests_cant": "all trees: settings are free in names, depth and order, and each program has its own", "anchors": ["src/io/read.rs:read_ods_settings", "src/io/read.rs:read_office_settings", "src/io/read.rs:read_config_item_set", "src/io/read.rs:read_config_item_map_indexed", "src/io/read.rs:read_config_item_map_named", "src/io/read.rs:read_config_item_map_entry", "src/io/read.rs:read_config_item", "src/config.rs:Config"]}
{"id": "C115", "title": "Metadata of other programs are read as the file has them", "statement": "A metadata file of another program has texts, dates, counters, a template, a reload, a behaviour of hyperlinks, statistics and values with names, in any order, with attributes in any order, with elements of other kinds between and around them, and with texts that are made of several pieces. Such a file is read, and the metadata are those of the file: for each kind the last element counts, and of the values with names there are all, in the order of the file, with name, type and value. Nothing else is there.", "quantifier": "all metadata files as trees of elements, all their spellings", "why_tests_cant": "all trees: other programs write other elements, orders and nestings than this library", "anchors": ["src/io/read.rs:read_ods_metadata", "src/io/read.rs:read_office_meta", "src/io/read.rs:read_metadata_value", "src/io/read.rs:read_metadata_user_defined", "src/io/read.rs:read_metadata_template", "src/io/read.rs:read_metadata_auto_reload", "src/io/read.rs:read_metadata_hyperlink_behaviour", "src/io/read.rs:read_metadata_document_statistics", "src/metadata.rs:Metadata"]}
{"id": "C116", "title": "Whole files of other programs are read, section by section, as they are written", "statement": "A flat file of another program, or a package, has metadata, settings, scripts, fonts, styles, master pages and a body, in any order, some or all of them missing, with elements of other kinds between them and with any namespaces. Such a file is read, and afterwards the workbook has, at once, the metadata, settings, scripts and listeners, styles, formats, page layouts, fonts, master pages, sheets with their cells, validations, namespaces and version that the file says: no section disturbs another, and what the file does not have is as in a new workbook. In a package each part comes from its own file, and styles and master pages from both of theirs; meta.xml, settings.xml and styles.xml may be missing.", "quantifier": "all flat files and packages as trees of elements, all their spellings, all orders of sections, all missing sections and files", "why_tests_cant": "all trees and all orders: each program arranges its files in its own way, and a section that swallows the next one is only seen when they are read together", "anchors": ["src/io/read.rs:read_fods_impl", "src/io/read.rs:read_ods_impl", "src/io/read.rs:read_ods_content", "src/io/read.rs:read_ods_styles", "src/io/read.rs:read_namespaces_and_version"]}
{"id": "C117", "title": "Reading anything comes to an end, with a workbook or an error", "statement": "Whatever is in a file or in the files of a package, well-formed or not, complete or cut off, of this library, of another program or of an attacker: reading it returns, with a workbook or with an error. It does not panic, and does not wait forever for something that will not come. This is false of the code; it is true of all files that have none of these in them: a table that is not finished, an end of header rows or of a group without a row or column in front of it, a row or column that is repeated zero times, a condition of a validation that is too short to be split, a duration that is too long in sum, an empty tag of a script.", "quantifier": "all texts of flat files, all packages with any files missing, with and without content_only, all builds without overflow checks", "why_tests_cant": "all texts: the files that crash a reader are those nobody has thought of", "anchors": ["src/io/read.rs:read_fods_impl", "src/io/read.rs:read_fods_impl_content_only", "src/io/read.rs:read_ods_impl", "src/io/read.rs:read_ods_impl_content_only", "src/io/read.rs:read_table", "src/io/read.rs:read_validations", "src/io/read.rs:read_office_meta", "src/io/read.rs:read_office_settings", "src/io/read.rs:read_xml", "src/io/read.rs:read_text_or_tag"]}
{"id": "C118", "title": "The older functions for format parts add exactly the part that they name", "statement": "A caller makes a format with the older functions push_number, push_number_fix, push_fraction, push_scientific, push_currency_symbol, push_day and so on. Whatever they are called with and in whatever order, the format then has the parts that it had, followed by one part for each call, in the order of the calls; each has the element, the attributes and the text that the arguments ask for and no others, and nothing else of the format changes. This is false of push_fraction, which loses the least number of integer digits whatever it is.", "quantifier": "all sequences of calls, all arguments, all formats", "why_tests_cant": "all sequences and arguments: the functions are chains of builder calls where a later call may overwrite what an earlier one has set", "anchors": ["src/macro_format.rs:push_number", "src/macro_format.rs:push_number_fix", "src/macro_format.rs:push_fraction", "src/macro_format.rs:push_currency_symbol", "src/macro_format.rs:push_month", "src/macro_format.rs:push_era", "src/macro_format.rs:push_seconds", "src/format/mod.rs:FormatCalendarStyle", "src/format/builder.rs:PartFractionBuilder"]}
{"id": "C119", "title": "Validations are what their setters were last told, in memory and after a file", "statement": "A caller makes validations with Validation::new and any calls of their setters, also repeatedly, with messages that are made in the same way. Each getter then gives the value that was last set, or that of a new validation: an empty name and condition, the first cell, empty cells allowed, the list unsorted, an error message without texts and no help. After saving and loading, each validation is found under its last name with the condition, the base cell and the flags that were last set.", "quantifier": "all sequences of setter calls on validations and their messages, all lists of validations with different names", "why_tests_cant": "all sequences: a setter that changes a second field, or a default that overrides an earlier call, shows only in some orders", "anchors": ["src/validation.rs:Validation", "src/validation.rs:ValidationError", "src/validation.rs:ValidationHelp", "src/io/read.rs:read_validations", "src/io/write.rs:write_content_validations"]}
