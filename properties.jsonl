{"id": "C01", "title": "Date round trip", "statement": "Converting a calendar date to an Excel serial with xldate_from_date_tuple and back with xldate_as_tuple (same datemode) returns the same year, month and day with a zero time of day, whenever the first conversion succeeds.", "quantifier": "every year 1900..9999, month, day and both date modes accepted by xldate_from_date_tuple", "why_tests_cant": "There are about 5.9 million (date, mode) pairs and the century/leap rules only show up at scattered points; a sample cannot show that no date is off by one.", "anchors": ["xlrd/xldate.py: xldate_from_date_tuple", "xlrd/xldate.py: xldate_as_tuple", "xlrd/xldate.py: _leap"]}
{"id": "C02", "title": "Date-time round trip in floating point", "statement": "xldate_as_tuple(xldate_from_datetime_tuple(t, datemode), datemode) == t for every valid six-component date-time that the first call accepts, with all arithmetic done in IEEE binary64.", "quantifier": "every accepted date, every hour 0..23, minute 0..59, second 0..59, both date modes", "why_tests_cant": "About 5e11 inputs and the claim depends on accumulated rounding error of four floating point operations never crossing half a second.", "anchors": ["xlrd/xldate.py: xldate_from_datetime_tuple", "xlrd/xldate.py: xldate_from_time_tuple", "xlrd/xldate.py: xldate_as_tuple"]}
{"id": "C03", "title": "Decoded dates are real dates", "statement": "Whenever xldate_as_tuple returns, the result is either a pure time (0,0,0,h,m,s) or a date with year 1900..9999, month 1..12, a day that exists in that month of the Gregorian calendar, and in all cases 0<=h<=23, 0<=m<=59, 0<=s<=59.", "quantifier": "every finite serial number and every datemode", "why_tests_cant": "Every representable float is a possible input; carry at the end of a day happens only within half a second of midnight.", "anchors": ["xlrd/xldate.py: xldate_as_tuple"]}
{"id": "C04", "title": "Date decoding preserves order", "statement": "For serials x <= y in the same datemode for which xldate_as_tuple returns on both and both are dates, the tuple of x is lexicographically <= the tuple of y, and whole-day serials that differ give different tuples.", "quantifier": "every pair of finite serials accepted in the same datemode", "why_tests_cant": "Monotonicity is a statement about pairs of floats.", "anchors": ["xlrd/xldate.py: xldate_as_tuple"]}
{"id": "C05", "title": "xldate_as_tuple accepts and rejects exactly the documented serials", "statement": "xldate_as_tuple returns iff datemode is 0 or 1, the serial is >= 0, and the day number (after rounding the time of day to the second) is 0, or is at least 61 in mode 0 / at least 1 in mode 1, and is below the documented upper limit; otherwise it raises the documented error class (bad datemode, negative, ambiguous, too large).", "quantifier": "every serial and every integer datemode", "why_tests_cant": "An exact acceptance region over all floats cannot be covered by examples.", "anchors": ["xlrd/xldate.py: xldate_as_tuple"]}
{"id": "C06", "title": "The two date systems differ by 1462 days", "statement": "For every serial accepted in the 1900 system whose day number is greater than 1462, xldate_as_tuple(x, 0) names the same calendar date as xldate_as_tuple(x-1462, 1) for whole-day serials, and xldate_from_date_tuple(d,0) = xldate_from_date_tuple(d,1)+1462 whenever both are accepted.", "quantifier": "all whole-day serials, all dates accepted in both modes", "why_tests_cant": "Universal over the whole range of dates.", "anchors": ["xlrd/xldate.py: xldate_as_tuple", "xlrd/xldate.py: xldate_from_date_tuple"]}
{"id": "C07", "title": "xldate_as_datetime agrees with xldate_as_tuple", "statement": "For whole-day serials accepted by xldate_as_tuple as dates, xldate_as_datetime returns the same calendar date at midnight; and distinct serials never give the same datetime.", "quantifier": "all whole-day serials in both modes", "why_tests_cant": "Two independent implementations (Julian-day arithmetic and proleptic ordinal arithmetic) must agree on every day of 8100 years.", "anchors": ["xlrd/xldate.py: xldate_as_datetime", "xlrd/xldate.py: xldate_as_tuple"]}
{"id": "C08", "title": "Encoding dates and times rejects exactly the invalid ones", "statement": "xldate_from_date_tuple returns iff datemode is 0/1, (y,m,d) is (0,0,0) or a real Gregorian date with 1900<=y<=9999, and the date is not before day 61 (mode 0) or day 1 (mode 1); xldate_from_time_tuple returns iff 0<=h<24, 0<=m<60, 0<=s<60, and then the result lies in [0,1).", "quantifier": "every triple of integers and every datemode", "why_tests_cant": "Unbounded integer inputs.", "anchors": ["xlrd/xldate.py: xldate_from_date_tuple", "xlrd/xldate.py: xldate_from_time_tuple"]}
{"id": "C09", "title": "Column names are unique and readable back", "statement": "colname(c) is the spreadsheet (bijective base 26) name of column c: reading the letters back gives c, so different columns never share a name.", "quantifier": "every column index a worksheet can contain", "why_tests_cant": "Injectivity over all indices; the carry between letters happens at irregular points.", "anchors": ["xlrd/formula.py: colname", "xlrd/book.py: colname"]}
{"id": "C10", "title": "Cell names identify cells", "statement": "cellname(r,c) and cellnameabs(r,c) can be parsed back to exactly (r,c); so two different cells never have the same name.", "quantifier": "every row index >= 0 and every valid column index", "why_tests_cant": "Injectivity over an infinite set of pairs.", "anchors": ["xlrd/formula.py: cellname", "xlrd/formula.py: cellnameabs"]}
{"id": "C11", "title": "Range names identify ranges", "statement": "The text produced for a two-dimensional absolute range can be parsed back to exactly the range (with exclusive upper bounds), and single cells are written without a colon.", "quantifier": "every non-empty rectangle of rows and valid columns", "why_tests_cant": "Unbounded coordinates; off-by-one between inclusive text and exclusive bounds is only excluded by a proof.", "anchors": ["xlrd/formula.py: rangename2d", "xlrd/formula.py: cellnameabs"]}
{"id": "C12", "title": "Last written cell wins and untouched cells are empty", "statement": "After any sequence of cell writes, sheet.cell_type/cell_value at (r,c) report the last write at (r,c); positions inside the sheet that were never written are empty with value ''.", "quantifier": "every finite sequence of cell writes in any order, in both ragged and rectangular mode", "why_tests_cant": "The storage code keeps an optimisation variable (first full row) whose correctness depends on the whole history of writes.", "anchors": ["xlrd/sheet.py: Sheet.put_cell_unragged", "xlrd/sheet.py: Sheet.put_cell_ragged", "xlrd/sheet.py: Sheet.tidy_dimensions"]}
{"id": "C13", "title": "Rows are rectangular after loading", "statement": "With ragged_rows=False, after loading every row has exactly ncols cells and there are exactly nrows rows, and the type, value and (if kept) XF-index grids have the same shape.", "quantifier": "every finite sequence of cell writes and merged ranges", "why_tests_cant": "Depends on the history of writes through the first-full-row optimisation.", "anchors": ["xlrd/sheet.py: Sheet.put_cell_unragged", "xlrd/sheet.py: Sheet.tidy_dimensions"]}
{"id": "C14", "title": "Sheet dimensions are tight", "statement": "nrows (ncols) is the largest row (column) written, or covered by a merged range when formatting information is kept, plus one; 0 when there is none.", "quantifier": "every finite sequence of cell writes and merged ranges", "why_tests_cant": "A statement about the maximum over arbitrary histories.", "anchors": ["xlrd/sheet.py: Sheet.put_cell_unragged", "xlrd/sheet.py: Sheet.put_cell_ragged", "xlrd/sheet.py: Sheet.tidy_dimensions"]}
{"id": "C15", "title": "Ragged and rectangular loading agree", "statement": "Loading the same records with ragged_rows=True gives the same nrows and ncols, every ragged row is a prefix of the corresponding rectangular row, the missing tail is empty cells, and a ragged row ends at the last cell written in it.", "quantifier": "every finite sequence of cell writes", "why_tests_cant": "A relation between two implementations over all histories.", "anchors": ["xlrd/sheet.py: Sheet.put_cell_ragged", "xlrd/sheet.py: Sheet.put_cell_unragged", "xlrd/sheet.py: Sheet.row_len"]}
{"id": "C16", "title": "All cell accessors agree", "statement": "row_slice, row_values, row_types, col_slice, col_values, col_types, row, col, get_rows and cell report the same cells: each slice accessor is the Python slice [start:end] (with Python's treatment of negative and out-of-range bounds) of the row or column of cells given by cell(r,c).", "quantifier": "every sheet, row/column index and every pair of integer (or None) slice bounds", "why_tests_cant": "Slice bounds are arbitrary integers; the hand-written clipping must equal Python's slice semantics in every case.", "anchors": ["xlrd/sheet.py: Sheet.row_slice", "xlrd/sheet.py: Sheet.col_slice", "xlrd/sheet.py: Sheet.row_values", "xlrd/sheet.py: Sheet.col_values", "xlrd/sheet.py: Sheet.row_types", "xlrd/sheet.py: Sheet.col_types"]}
{"id": "C17", "title": "Negative indexes mean counting from the end", "statement": "cell(r-nrows, c) and cell(r, c-ncols) equal cell(r,c) for every cell, including the XF index.", "quantifier": "every sheet with rectangular rows and every in-range cell", "why_tests_cant": "Ranges over all sheets and all cells, including defaulted formatting.", "anchors": ["xlrd/sheet.py: Sheet.cell", "xlrd/sheet.py: Sheet.cell_xf_index"]}
{"id": "C18", "title": "XF index fallback precedence", "statement": "With formatting information, the XF index of a cell is the one in the cell record if there was one; else the row default when the row has one; else the column default when the column has one; else 15; and each statistics counter counts the case taken.", "quantifier": "every sheet state and every in-range cell", "why_tests_cant": "Decision over all combinations of row, column and cell state.", "anchors": ["xlrd/sheet.py: Sheet.cell_xf_index"]}
{"id": "C19", "title": "Computed column width precedence", "statement": "computed_column_width returns the width given by the first applicable source in the documented order for the file version (column record, GCW/default width, standard width, character width) and always returns an integer.", "quantifier": "every sheet state, column and BIFF version", "why_tests_cant": "Decision over all combinations of sources.", "anchors": ["xlrd/sheet.py: Sheet.computed_column_width"]}
{"id": "C20", "title": "A stream is the concatenation of its sectors", "statement": "For every compound document whose allocation table describes, for a stream, a finite chain of in-range sectors with enough sectors for its size, reading the stream yields the first `size` bytes of the sectors in chain order.", "quantifier": "every allocation table, chain, sector size and file content", "why_tests_cant": "Arbitrary chains (fragmented, backwards, interleaved).", "anchors": ["xlrd/compdoc.py: CompDoc._get_stream", "xlrd/compdoc.py: CompDoc.get_named_stream"]}
{"id": "C21", "title": "Both ways of fetching a stream give the same bytes", "statement": "locate_named_stream (which avoids copying when sectors are contiguous) and get_named_stream give the same byte content whenever both succeed.", "quantifier": "every compound document and stream chain", "why_tests_cant": "The contiguity detector merges runs of sectors; equality must hold for every chain shape.", "anchors": ["xlrd/compdoc.py: CompDoc.locate_named_stream", "xlrd/compdoc.py: CompDoc._locate_stream", "xlrd/compdoc.py: CompDoc._get_stream"]}
{"id": "C22", "title": "Reading a compound document always terminates", "statement": "Following a sector chain ends, with data or an error, for every allocation table, including cyclic ones, within a number of steps bounded by the table size.", "quantifier": "every allocation table (of any size, with any content), start sector and size", "why_tests_cant": "Cycles of any length and position must be excluded; a hanging test only shows one input.", "anchors": ["xlrd/compdoc.py: CompDoc._get_stream", "xlrd/compdoc.py: CompDoc._locate_stream"]}
{"id": "C23", "title": "No sector belongs to two streams", "statement": "When reading several streams through the main allocation table succeeds without the ignore-corruption option, the sets of sectors used by distinct reads are disjoint and no chain visits a sector twice.", "quantifier": "every allocation table and every sequence of stream reads", "why_tests_cant": "An invariant over arbitrary histories of reads sharing mutable marks.", "anchors": ["xlrd/compdoc.py: CompDoc._get_stream", "xlrd/compdoc.py: CompDoc._locate_stream", "xlrd/compdoc.py: CompDoc.__init__"]}
{"id": "C24", "title": "Directory lookup", "statement": "Looking up a storage path in the directory succeeds exactly when there is an entry reachable by the path components compared case-insensitively, and returns the first such entry in directory order; a missing entry gives None, a storage where a stream is needed gives the documented error.", "quantifier": "every directory tree and path", "why_tests_cant": "Arbitrary trees (any shape of sibling links).", "anchors": ["xlrd/compdoc.py: CompDoc._dir_search", "xlrd/compdoc.py: _build_family_tree"]}
{"id": "C25", "title": "Record framing", "statement": "Reading records from a stream made by concatenating (code, length, payload) records returns exactly those records, in order, with positions advancing past each one; every read advances by at least four bytes, so every reading loop terminates.", "quantifier": "every list of records with 16-bit codes and lengths, and every byte string for the progress claim", "why_tests_cant": "Arbitrary lists of records.", "anchors": ["xlrd/book.py: Book.get_record_parts", "xlrd/book.py: Book.get_record_parts_conditional"]}
{"id": "C26", "title": "Shared strings survive any CONTINUE splitting", "statement": "For every list of strings (compressed or uncompressed, with or without rich-text runs and phonetic data) laid out as an SST record and its CONTINUE records, split at any legal places, the decoded shared string table is the original list of strings, and the rich-text runs are recovered too.", "quantifier": "every list of strings and every legal splitting into records", "why_tests_cant": "The number of splittings is exponential; character width may change at each split.", "anchors": ["xlrd/book.py: unpack_SST_table", "xlrd/book.py: Book.handle_sst"]}
{"id": "C27", "title": "Unicode strings decode to what was encoded", "statement": "unpack_unicode and unpack_unicode_update_pos return the encoded text for every well-formed encoding (either width, with optional rich-text and phonetic parts), and the position after the string is exactly its end.", "quantifier": "every text, every surrounding bytes, every combination of option flags", "why_tests_cant": "Arbitrary lengths, contents and trailing data.", "anchors": ["xlrd/biffh.py: unpack_unicode", "xlrd/biffh.py: unpack_unicode_update_pos"]}
{"id": "C28", "title": "Byte strings decode to what was encoded", "statement": "unpack_string and unpack_string_update_pos return exactly the decoded bytes of the length-prefixed string and the position just after it, independent of what surrounds it.", "quantifier": "every byte content, length size and surrounding bytes", "why_tests_cant": "Arbitrary lengths and surroundings.", "anchors": ["xlrd/biffh.py: unpack_string", "xlrd/biffh.py: unpack_string_update_pos"]}
{"id": "C29", "title": "Formula string results survive CONTINUE splitting", "statement": "The string result of a formula is the text stored in the STRING record and its CONTINUE records, however it is split.", "quantifier": "every text and every splitting into records", "why_tests_cant": "Exponentially many splittings; character classes (outside the basic plane) matter.", "anchors": ["xlrd/sheet.py: Sheet.string_record_contents"]}
{"id": "C30", "title": "RK numbers decode exactly", "statement": "Every 4-byte RK value decodes to the number it denotes: a signed 30-bit integer or a truncated binary64, divided by 100 when the flag is set.", "quantifier": "all 2^32 RK values", "why_tests_cant": "The whole space of 32-bit patterns, four kinds of encoding.", "anchors": ["xlrd/sheet.py: unpack_RK"]}
{"id": "C31", "title": "Cell records store the cell they describe", "statement": "Each of the cell record kinds (NUMBER, RK, MULRK, LABELSST, LABEL, BOOLERR, FORMULA, BLANK, MULBLANK) stores, for every content, exactly the cells it describes (row, columns, type, value, XF index) and nothing else.", "quantifier": "every record content of the right layout", "why_tests_cant": "Arbitrary numbers of columns in MULRK/MULBLANK and all field values.", "anchors": ["xlrd/sheet.py: Sheet.read"]}
{"id": "C32", "title": "Cell range lists decode to half-open ranges", "statement": "A list of cell range addresses decodes to the same list of ranges with exclusive upper bounds, in order, and leaves the position at the end of the list.", "quantifier": "every list of ranges, either column width and any surrounding bytes", "why_tests_cant": "Arbitrary list lengths.", "anchors": ["xlrd/biffh.py: unpack_cell_range_address_list_update_pos"]}
{"id": "C33", "title": "Date-format classification ignores literal text", "statement": "Whether a number format is classified as a date format does not depend on quoted text, escaped characters, bracketed sections or the case of letters; a format whose remaining characters contain no date characters is never a date format.", "quantifier": "every format string and every inserted literal", "why_tests_cant": "Arbitrary strings.", "anchors": ["xlrd/formatting.py: is_date_format_string"]}
{"id": "C34", "title": "A numeric cell is a date exactly when its format is", "statement": "A numeric cell is reported as XL_CELL_DATE iff the number format its XF refers to is classified as a date format, otherwise as XL_CELL_NUMBER; this holds whether or not formatting information is kept.", "quantifier": "every sequence of FORMAT and XF records", "why_tests_cant": "Depends on the history of format and XF records.", "anchors": ["xlrd/formatting.py: handle_xf", "xlrd/formatting.py: handle_format", "xlrd/formatting.py: xf_epilogue"]}
{"id": "C35", "title": "XF attributes are decoded without loss or cross-talk", "statement": "Every XF attribute (font, format, protection, alignment, border and background fields) equals the field stored in the record; changing one field of the record changes only the corresponding attribute.", "quantifier": "every combination of field values, BIFF versions 3 to 8", "why_tests_cant": "The product of all field values is astronomically large.", "anchors": ["xlrd/formatting.py: handle_xf", "xlrd/biffh.py: upkbits"]}
{"id": "C36", "title": "Font and XF numbering", "statement": "After any sequence of FONT (and XF) records, font_list[i].font_index == i and xf_list[i].xf_index == i for every i, with the never-used font 4 present as a dummy, so the font a file refers to by index is the one stored by the corresponding record.", "quantifier": "every sequence of FONT and XF records", "why_tests_cant": "Arbitrary record counts.", "anchors": ["xlrd/formatting.py: handle_font", "xlrd/formatting.py: handle_xf"]}
{"id": "C37", "title": "Colour map", "statement": "For every PALETTE record the first eight colours are the fixed ones, colour i >= 8 given by the palette is the one reported, and the others keep their defaults; magic indexes report None.", "quantifier": "every BIFF version and every palette", "why_tests_cant": "Arbitrary palettes.", "anchors": ["xlrd/formatting.py: initialise_colour_map", "xlrd/formatting.py: handle_palette"]}
{"id": "C38", "title": "Nearest colour", "statement": "nearest_colour_index returns an index whose colour has minimal Euclidean distance to the requested one among the palette, lowest such index first.", "quantifier": "every colour map and every RGB triple", "why_tests_cant": "Universally quantified optimality.", "anchors": ["xlrd/formatting.py: nearest_colour_index"]}
{"id": "C39", "title": "Row and column formatting records", "statement": "ROW and COLINFO records are decoded without loss: each attribute of Rowinfo/Colinfo equals the stored field, and a COLINFO record applies to exactly the columns first..last (at most 256), later records overriding earlier ones.", "quantifier": "every record content, every sequence of COLINFO records", "why_tests_cant": "All bit patterns and histories.", "anchors": ["xlrd/sheet.py: Sheet.read"]}
{"id": "C40", "title": "Magnification stays in range", "statement": "The cooked normal-view and page-break-preview magnification factors are always between 10 and 400 per cent after loading, whatever the WINDOW2 and SCL records contain.", "quantifier": "every raw magnification value and record combination", "why_tests_cant": "All 16-bit values in combination.", "anchors": ["xlrd/sheet.py: Sheet.update_cooked_mag_factors", "xlrd/sheet.py: Sheet.read"]}
{"id": "C41", "title": "On-demand loading life cycle", "statement": "For every sequence of sheet_by_index, sheet_by_name, sheet_loaded, unload_sheet, release_resources and sheets calls: a loaded sheet is always the one the file describes for that index, sheet_loaded tells the truth, a sheet stays available until unloaded, and loading fails with XLRDError exactly when resources have been released.", "quantifier": "every sequence of calls", "why_tests_cant": "Arbitrary call histories.", "anchors": ["xlrd/book.py: Book.sheet_by_index", "xlrd/book.py: Book.unload_sheet", "xlrd/book.py: Book.release_resources", "xlrd/book.py: Book.get_sheet"]}
{"id": "C42", "title": "Sheet lookup by name", "statement": "sheet_by_name(n) returns the sheet at the first position of n in sheet_names() and raises XLRDError exactly when n does not occur there; indexing the book by number or name agrees with sheet_by_index/sheet_by_name.", "quantifier": "every list of sheet names and every name", "why_tests_cant": "Arbitrary names, duplicates included.", "anchors": ["xlrd/book.py: Book.sheet_by_name", "xlrd/book.py: Book.__getitem__"]}
{"id": "C43", "title": "Sheet numbering bookkeeping", "statement": "After any sequence of BOUNDSHEET records, only worksheets are numbered, in file order; sheet_names(), positions and visibilities are parallel lists of length nsheets; and the map from all-sheet numbers to worksheet numbers is the order-preserving numbering of worksheets, negative for other sheet types.", "quantifier": "every sequence of BOUNDSHEET records", "why_tests_cant": "Arbitrary interleavings of sheet kinds.", "anchors": ["xlrd/book.py: Book.handle_boundsheet"]}
{"id": "C44", "title": "Defined-name maps", "statement": "name_and_scope_map finds a name by (lower-cased name, scope), with the last record winning; name_map lists all names with the same lower-cased text, sorted by scope; every NAME record is in name_obj_list at its own index, and its scope is the worksheet that the record points to, or -1 for the workbook.", "quantifier": "every sequence of NAME, BOUNDSHEET and EXTERNSHEET records", "why_tests_cant": "Arbitrary sequences with duplicates.", "anchors": ["xlrd/book.py: Book.names_epilogue", "xlrd/book.py: Book.handle_name"]}
{"id": "C45", "title": "Name.area2d clips to the sheet", "statement": "With clipped=True, Name.area2d returns 0 <= rowxlo <= rowxhi <= sheet.nrows and 0 <= colxlo <= colxhi <= sheet.ncols, and the rectangle is exactly the part of the referenced area that lies in the sheet.", "quantifier": "every referenced area and every sheet size", "why_tests_cant": "Arbitrary rectangles and sizes.", "anchors": ["xlrd/book.py: Name.area2d"]}
{"id": "C46", "title": "External sheet references resolve soundly", "statement": "Resolving a 3-D reference yields either a range of existing worksheets (in order, end exclusive) or a negative code saying why not; a valid reference to this workbook's sheets resolves to exactly the sheets in between.", "quantifier": "every externsheet table, supbook table and reference index", "why_tests_cant": "Arbitrary tables.", "anchors": ["xlrd/formula.py: get_externsheet_local_range", "xlrd/formula.py: get_externsheet_local_range_b57"]}
{"id": "C47", "title": "Cell addresses in formulas", "statement": "The row, column and relative flags packed into formula cell addresses decode to the original values for both file generations; relative offsets are sign-extended; resolving against a base cell wraps as documented.", "quantifier": "every row, column, flag combination and base cell", "why_tests_cant": "All address values.", "anchors": ["xlrd/formula.py: adjust_cell_addr_biff8", "xlrd/formula.py: adjust_cell_addr_biff_le7", "xlrd/book.py: expand_cell_address"]}
{"id": "C48", "title": "Range and intersection operators", "statement": "The range operator on 3-D references yields the smallest box containing both operands; the intersection operator yields exactly the common cells, and is reported as empty when there are none.", "quantifier": "every pair of boxes", "why_tests_cant": "Arbitrary coordinates.", "anchors": ["xlrd/formula.py: do_box_funcs", "xlrd/formula.py: tRangeFuncs", "xlrd/formula.py: tIsectFuncs"]}
{"id": "C49", "title": "Formula evaluation terminates and respects the stack discipline", "statement": "Evaluating or decompiling any token string ends with a result or an error in at most as many steps as there are bytes, never reads operands that are not on the stack, and nested names recurse to a bounded depth.", "quantifier": "every byte string and every name table", "why_tests_cant": "Arbitrary token strings, including malformed and mutually recursive names.", "anchors": ["xlrd/formula.py: evaluate_name_formula", "xlrd/formula.py: decompile_formula"]}
{"id": "C50", "title": "Formula text keeps the structure of the formula", "statement": "The text produced for a formula, read with Excel's operator precedence and left associativity, denotes the same expression tree as the token string.", "quantifier": "every expression tree over the unary and binary operators", "why_tests_cant": "Arbitrarily deep trees.", "anchors": ["xlrd/formula.py: decompile_formula", "xlrd/formula.py: binop_rules", "xlrd/formula.py: unop_rules"]}
{"id": "C51", "title": "Only supported formats are parsed", "statement": "open_workbook never tries to parse a file recognised as xlsx, xlsb, ods or an unknown zip file: it raises XLRDError naming the format; files recognised as xls are parsed.", "quantifier": "every file content", "why_tests_cant": "Arbitrary contents.", "anchors": ["xlrd/__init__.py: inspect_format", "xlrd/__init__.py: open_workbook"]}
{"id": "C52", "title": "BOF version detection", "statement": "For every byte string, looking for the first BOF either returns a supported BIFF version or raises XLRDError (never another error), and for well-formed BOF records of each version and stream type it returns that version.", "quantifier": "every byte string", "why_tests_cant": "Arbitrary contents, truncated at any place.", "anchors": ["xlrd/book.py: Book.getbof"]}
{"id": "C53", "title": "Encoding derivation", "statement": "The text encoding is the override if given; otherwise UTF-16LE for 97-and-later files with codepage 1200, the encoding implied by the codepage record, or the documented default; deriving twice gives the same result.", "quantifier": "every codepage, version and override", "why_tests_cant": "All combinations.", "anchors": ["xlrd/book.py: Book.derive_encoding"]}
{"id": "C54", "title": "Encrypted workbooks are refused", "statement": "A workbook whose globals contain a FILEPASS record is never opened: an exception is raised whatever the rest of the file contains.", "quantifier": "every sequence of records containing FILEPASS before the end of the globals", "why_tests_cant": "Arbitrary surroundings.", "anchors": ["xlrd/book.py: Book.handle_filepass", "xlrd/book.py: Book.parse_globals"]}
{"id": "C55", "title": "Formatting information does not change cell contents", "statement": "Loading the same sheet with and without formatting_info gives the same value at every cell, and the same type except that BLANK cells (formatted, without value) appear only with formatting information.", "quantifier": "every sequence of cell records", "why_tests_cant": "A relation between two runs over all histories.", "anchors": ["xlrd/sheet.py: Sheet.read", "xlrd/sheet.py: Sheet.put_cell_unragged"]}
{"id": "C56", "title": "Relative cell names", "statement": "cellnamerel describes a relative reference faithfully: in R1C1 notation the row/column offsets and absolute numbers read back; in A1 notation (base cell given) the text names the cell reached from the base cell and marks exactly the absolute coordinates with $.", "quantifier": "every row, column, flag combination and base cell", "why_tests_cant": "Arbitrary offsets and bases.", "anchors": ["xlrd/formula.py: cellnamerel", "xlrd/formula.py: rownamerel", "xlrd/formula.py: colnamerel"]}
{"id": "C57", "title": "Sheet names in references", "statement": "The text used for a sheet in a 3-D reference can be read back to exactly that sheet's name (quotes doubled, spaces quoted), so different sheets are never confused.", "quantifier": "every sheet name", "why_tests_cant": "Arbitrary strings.", "anchors": ["xlrd/formula.py: quotedsheetname"]}
{"id": "C58", "title": "Window and pane settings", "statement": "The view options (show formulas, gridlines, frozen panes, ...), first visible row and column, gridline colour, and the split and pane settings of a sheet are exactly those of the last WINDOW2 and PANE records, or the documented defaults without one.", "quantifier": "every worksheet stream (BIFF3 to BIFF8) of well-formed records, in any order and number", "why_tests_cant": "The records can stand anywhere among arbitrarily many others.", "anchors": ["xlrd/sheet.py: Sheet.read", "xlrd/sheet.py: _WINDOW2_options"]}
{"id": "C59", "title": "Page breaks", "statement": "With formatting information the manual horizontal and vertical page breaks of a sheet are all those recorded, in order, with their extent; without formatting information there are none.", "quantifier": "every worksheet stream (BIFF3 to BIFF8) of well-formed records", "why_tests_cant": "Any number of breaks in any number of records.", "anchors": ["xlrd/sheet.py: Sheet.read"]}
{"id": "C60", "title": "Default column widths and row heights", "statement": "defcolwidth, standardwidth, gcw and the default row height with its flags are those of the last record of each kind in the sheet, or the documented defaults.", "quantifier": "every worksheet stream (BIFF3 to BIFF8) of well-formed records", "why_tests_cant": "All 2^256 patterns of column flags, arbitrary record order.", "anchors": ["xlrd/sheet.py: Sheet.read"]}
{"id": "C61", "title": "Merged ranges and label ranges", "statement": "merged_cells (with formatting information), row_label_ranges and col_label_ranges list exactly the recorded ranges in order, with exclusive upper bounds.", "quantifier": "every worksheet stream (BIFF3 to BIFF8) of well-formed records", "why_tests_cant": "Any number of ranges in any number of records.", "anchors": ["xlrd/sheet.py: Sheet.read", "xlrd/biffh.py: unpack_cell_range_address_list_update_pos"]}
{"id": "C62", "title": "Rich text runs of a cell", "statement": "rich_text_runlist_map gives for each cell the runs of the last text record there that has runs, in BIFF8 through the shared string table.", "quantifier": "every worksheet stream (BIFF3 to BIFF8) of well-formed records, every shared string table", "why_tests_cant": "Arbitrary histories of records about the same cell.", "anchors": ["xlrd/sheet.py: Sheet.read"]}
{"id": "C63", "title": "Unknown records and embedded charts are ignored", "statement": "Two worksheet streams that differ only in records unknown to the library and in embedded substreams, wherever they stand and whatever they contain, give the same sheet in every attribute.", "quantifier": "every worksheet stream (BIFF3 to BIFF8), every placement and content of foreign records", "why_tests_cant": "A relation between two runs over arbitrary insertions.", "anchors": ["xlrd/sheet.py: Sheet.read"]}
{"id": "C64", "title": "Workbook settings", "statement": "After loading, datemode is that of the last DATEMODE record (0 without one), countries that of the last COUNTRY record ((0, 0) without one), and for BIFF8 files user_name the text of the last WRITEACCESS record without trailing white space (empty without one), whatever other records stand around them.", "quantifier": "every globals substream of well-formed records, any number and order", "why_tests_cant": "Arbitrary interleavings with any other records.", "anchors": ["xlrd/book.py: Book.handle_datemode, Book.handle_country, Book.handle_writeaccess, Book.parse_globals"]}
{"id": "C65", "title": "Styles", "statement": "With formatting_info, style_name_map holds exactly the styles of the STYLE records: for each name whether it is built in and its XF index, the last record for a name winning; built-in names are those of the fixed list with the level appended for row and column levels.", "quantifier": "every globals substream of well-formed records, every BIFF version from 5", "why_tests_cant": "Any number of styles, any names, any order.", "anchors": ["xlrd/formatting.py: handle_style", "xlrd/book.py: Book.style_name_map"]}
{"id": "C66", "title": "Colour indexes in use", "statement": "After any successful load colour_indexes_used holds exactly the keys of colour_map that are a border or background colour of some XF or the colour of some font (leaving out the dummy font 4 and the system text colour 0x7FFF).", "quantifier": "every byte string that loads", "why_tests_cant": "Ranges over arbitrary bytes.", "anchors": ["xlrd/formatting.py: handle_palette, palette_epilogue, check_colour_indexes_in_obj", "xlrd/book.py: Book.colour_indexes_used"]}
{"id": "C67", "title": "What a workbook stream contains is what the API shows", "statement": "Whatever sequence of calls has been made on an opened book (on demand or not), a sheet returned for index k has the name and visibility of the k-th worksheet BOUNDSHEET record, nrows and ncols are just large enough for the cells and merged ranges of the substream that record points to, cell_type and cell_value at (r, c) are those of the last cell record for that position, a number being reported as a date exactly if the format of its XF is a date format, and cell_xf_index is that of the last cell record, else the default of the row, else that of the column, else 15; with ragged_rows each row reaches to the last cell written in it.", "quantifier": "every BIFF5 to BIFF8 workbook stream of well-formed records, every position of the stream in the file, every call history, every cell", "why_tests_cant": "Ranges over whole files, call histories and cells at once.", "anchors": ["xlrd/book.py: open_workbook_xls, Book.getbof, Book.parse_globals, Book.get_sheet, Book.sheet_by_index", "xlrd/sheet.py: Sheet.read, Sheet.cell_type, Sheet.cell_value"]}
{"id": "C68", "title": "Well-formed compound documents", "statement": "A well-formed compound document file (sector tables, directory tree and streams laid out as the format demands, streams not sharing sectors) opens without error, and every stream fetched by its path, in any order and by either method (get_named_stream or locate_named_stream), gives exactly the stored bytes; a path that is not in the directory gives None.", "quantifier": "every well-formed compound document of any size and sector size, every order of fetching", "why_tests_cant": "Ranges over all file layouts and directory trees.", "anchors": ["xlrd/compdoc.py: CompDoc.__init__, CompDoc.get_named_stream, CompDoc.locate_named_stream"]}
{"id": "C69", "title": "References with sheet names", "statement": "The text given by rangename3d and rangename3drel for a rectangle on one or several sheets reads back, by the reading rules of spreadsheet formulas (quoted sheet names, first:last!, $ for absolute parts or R1C1), as exactly the first and last sheet, the two corner cells and which of their parts are absolute.", "quantifier": "every list of sheet names, every sheet range, every rectangle, every base cell, both notations", "why_tests_cant": "Arbitrary sheet names (quotes, blanks) and arbitrary positions.", "anchors": ["xlrd/formula.py: rangename3d, rangename3drel, sheetrange, sheetrangerel, quotedsheetname, rangename2d, rangename2drel"]}
{"id": "C70", "title": "What names refer to", "statement": "In a BIFF5, BIFF7 or BIFF8 workbook, when the formula of an ordinary defined name is built from absolute references to cells and areas on worksheets of this workbook, other such names, parentheses, memory tokens and the range, intersection and union operators, Name.result holds exactly the areas that the formula means, with sheet numbers that count worksheets; Name.cell gives the cell and Name.area2d the area if there is only one.", "quantifier": "every well-formed BIFF5-8 globals substream, every such expression of any size, names nested to any depth that loads", "why_tests_cant": "Unbounded expressions, names that use names in any order, any sheets and EXTERNSHEET table.", "anchors": ["xlrd/formula.py: evaluate_name_formula, get_externsheet_local_range, do_box_funcs", "xlrd/book.py: Book.names_epilogue, Name.cell, Name.area2d"]}
{"id": "C71", "title": "Hyperlinks", "statement": "Sheet.hyperlink_list holds exactly the hyperlinks of the sheet's HLINK records in order, each with its range, kind (URL, local file, UNC path, place in the workbook), URL or path, description, target frame, text mark and screen tip, and Sheet.hyperlink_map gives for every cell the last hyperlink whose range contains it and nothing for all other cells, whatever other records stand around them.", "quantifier": "every BIFF5 to BIFF8 worksheet of well-formed records, every cell", "why_tests_cant": "Arbitrary overlapping ranges, arbitrary texts and combinations of optional parts, arbitrary interleavings with other records.", "anchors": ["xlrd/sheet.py: Sheet.handle_hlink, Sheet.handle_quicktip, Sheet.hyperlink_list, Sheet.hyperlink_map"]}
{"id": "C72", "title": "Cell notes", "statement": "Sheet.cell_note_map gives for every cell the last note on it, with its text put together from all pieces in which the file stores it, the formatting runs that do not start at the end of the text, the author and the visibility flags; in BIFF8 a NOTE record is joined with the last text box of its object number before it.", "quantifier": "every BIFF5 to BIFF8 worksheet of well-formed records, every cell, every splitting of the text and runs into records", "why_tests_cant": "Arbitrary splittings over records, arbitrary interleavings of drawing objects, text boxes and notes.", "anchors": ["xlrd/sheet.py: Sheet.handle_obj, Sheet.handle_txo, Sheet.handle_note, Sheet.cell_note_map"]}
{"id": "C73", "title": "Files of BIFF3 and BIFF4", "statement": "A file of BIFF3 or BIFF4 opens as a book with the single visible sheet 'Sheet 1', which stays available whatever is called unless unloaded; its cells, dimensions and attributes are what its worksheet records say, with the records about fonts, formats, XFs, colours, styles, date system, code page and country that stand among them taken out, and those give the formats, XFs, fonts, colour map, style names, date mode and countries of the book; a number is a date exactly if the format of its XF is a date format.", "quantifier": "every well-formed BIFF3 or BIFF4 file, every sequence of calls, every cell", "why_tests_cant": "Arbitrary interleavings of book and sheet records, arbitrary cells and formats, arbitrary histories of calls.", "anchors": ["xlrd/sheet.py: Sheet.read", "xlrd/book.py: Book.fake_globals_get_sheet, Book.handle_writeaccess, open_workbook_xls", "xlrd/formatting.py: handle_format, handle_xf, handle_font, xf_epilogue"]}
{"id": "C74", "title": "Files of Excel 2.1 (BIFF2 with XF records)", "statement": "A BIFF2 file opens as a book with the single visible sheet 'Sheet 1'. If it has XF records, every cell is what the last record for its position says, with the XF that the record names (or the last IXFE record before it, if it names 63), and is a date exactly if the format of its XF is a date format; nrows and ncols are just large enough; rows, columns, page breaks, panes, default sizes, magnification, window, fonts, formats, XFs, colours, date system and countries are those of their records.", "quantifier": "every well-formed BIFF2 file with XF records, every sequence of calls, every cell, row and column", "why_tests_cant": "Arbitrary interleavings of book and sheet records and IXFE records, arbitrary cells and attributes, arbitrary histories of calls.", "anchors": ["xlrd/sheet.py: Sheet.read, Sheet.fixed_BIFF2_xfindex, Sheet.insert_new_BIFF20_xf", "xlrd/book.py: Book.fake_globals_get_sheet", "xlrd/formatting.py: handle_format, handle_xf, handle_font, xf_epilogue"]}
{"id": "C75", "title": "Files of Excel 2.0 (BIFF2 without XF records)", "statement": "In a BIFF2 file without XF records, the XF that cell_xf_index, the default of a row or the default of a column gives for three bytes of attributes has exactly the number format, font, protection, alignment, borders and background that the bytes say; different attributes get different XFs, all after the first fifteen; a number is a date exactly if the format that its attributes name is a date format ('General' if there is no such FORMAT record); cells, rows and columns are otherwise as in a file with XF records.", "quantifier": "every well-formed BIFF2 file without XF records, every sequence of calls, every cell, row and column", "why_tests_cant": "Arbitrary attributes in arbitrary order; the XFs are made while reading and shared through a cache.", "anchors": ["xlrd/sheet.py: Sheet.fixed_BIFF2_xfindex, Sheet.insert_new_BIFF20_xf, Sheet.fake_XF_from_BIFF20_cell_attr", "xlrd/formatting.py: handle_format"]}
{"id": "C76", "title": "BIFF4 workbooks", "statement": "A BIFF4 workbook (several worksheets, each embedded whole after a header with its length and name) opens as a book with these worksheets in order, under the names of the BOUNDSHEET records, all visible and loaded, and stays so whatever is called unless unloaded; each sheet is what its own records say, independent of the other sheets: every cell is what the last record for its position says, a number being a date exactly if the format that the sheet's own XF and FORMAT records give it is a date format; date mode and countries are those of the last record in the file.", "quantifier": "every well-formed BIFF4 workbook with any number of sheets, every sequence of calls, every cell", "why_tests_cant": "Arbitrary numbers of sheets whose format and XF tables replace each other while the file is read.", "anchors": ["xlrd/book.py: Book.handle_sheethdr, Book.handle_sheetsoffset, Book.handle_boundsheet, Book.parse_globals, open_workbook_xls", "xlrd/formatting.py: initialise_book, handle_format, handle_xf", "xlrd/sheet.py: Sheet.read"]}
{"id": "C77", "title": "Opening and loading come to an end", "statement": "Opening a file and loading its sheets reads the records in a finite number of steps, with a result or an exception, whatever the bytes are: each loop over records passes at most once for each byte.", "quantifier": "every byte string, every position to start from, every state of the book and of the sheet", "why_tests_cant": "No finite set of files shows that no file makes the reader hang.", "anchors": ["xlrd/book.py: Book.parse_globals, Book.handle_sst, Book.handle_externsheet, Book.handle_sheethdr", "xlrd/sheet.py: Sheet.read, Sheet.string_record_contents, Sheet.handle_txo, Sheet.handle_note, Sheet.handle_obj"]}
{"id": "C78", "title": "Values of defined names", "statement": "If a workbook opens, the result of every ordinary defined name whose formula is built from constants, absolute references to cells of the workbook, other names, the operators and calls of functions is the value of the formula where that is determined: numbers, texts, truth values, error values or areas, with IF and CHOOSE giving the chosen argument (0 if it is left out); where the value depends on other functions or on cells, the value is None.", "quantifier": "every BIFF5, BIFF7 or BIFF8 workbook, every defined name, formulas of any size and depth with names that refer to names", "why_tests_cant": "The formulas are arbitrarily large expressions, the names are evaluated recursively in whatever order they refer to each other.", "anchors": ["xlrd/formula.py: evaluate_name_formula, do_binop, do_unaryop, num2strg", "xlrd/book.py: Book.names_epilogue, Name.result"]}
{"id": "C79", "title": "Dumps and counts of records", "statement": "dump writes a text from which the workbook stream of a file can be read back exactly: each line shows bytes or the code, name and length of a record, or stands for a number of zeros, after the position of its first byte. count_records writes each name of a record that occurs in the stream once, in alphabetical order, with the number of its records; zeros that fill the stream up to its end are not counted.", "quantifier": "every file from which a workbook stream can be got, every byte string as a stream, with and without positions", "why_tests_cant": "Arbitrary bytes, records of arbitrary length, cut-off last records, zeros anywhere.", "anchors": ["xlrd/__init__.py: dump, count_records", "xlrd/biffh.py: biff_dump, hex_char_dump, biff_count_records, biff_rec_name_dict"]}
{"id": "C80", "title": "Well-formed workbooks open", "statement": "A file of BIFF5 to BIFF8 whose records are all well formed opens without an exception; with on_demand=False it opens if, and only if, it opens with on_demand=True and every sheet can then be got.", "quantifier": "every plain or compound file with a workbook stream of BIFF5, BIFF7 or BIFF8, records of all kinds in any number and order, every setting of the options", "why_tests_cant": "The handlers of some twenty kinds of records can raise exceptions; all of them must succeed for arbitrary contents and in arbitrary combinations.", "anchors": ["xlrd/__init__.py: open_workbook", "xlrd/book.py: open_workbook_xls, Book.parse_globals, Book.names_epilogue, Book.get_sheets, Book.get_sheet", "xlrd/formatting.py: handle_font, handle_format, handle_xf, handle_style, handle_palette, xf_epilogue", "xlrd/formula.py: evaluate_name_formula"]}
{"id": "C81", "title": "Well-formed files of BIFF3 and BIFF4 open", "statement": "A file of BIFF3 or BIFF4 whose records are all well formed opens without an exception if, and only if, its cells are within 16384 rows and 256 columns, every number has an XF that is in the file (or XF 0), merged ranges end within these rows and, with formatting_info, indexes of XFs are below 32768.", "quantifier": "every file of BIFF3 or BIFF4 with records of all kinds in any number and order, except that FORMAT and XF records come before STYLE records; every setting of the options", "why_tests_cant": "The handlers of all kinds of records can raise exceptions, and whether they do depends on the records before.", "anchors": ["xlrd/__init__.py: open_workbook", "xlrd/book.py: open_workbook_xls, Book.fake_globals_get_sheet, Book.get_sheet", "xlrd/sheet.py: Sheet.read, Sheet.put_cell_unragged, Sheet.put_cell_ragged, Sheet.tidy_dimensions", "xlrd/formatting.py: handle_font, handle_format, handle_xf, handle_style, handle_palette, xf_epilogue"]}
{"id": "C82", "title": "Iterating over books and sheets", "statement": "Every iterator over a book gives the sheets of the file one after the other and then ends, whatever calls and other iterators are used in between, as long as the sheets stay within reach: for a book with all its sheets, as long as none is unloaded; for a book opened on demand, as long as its resources are not released. If a sheet cannot be read the iterator raises that exception in its place and is then at its end. sheet[r] is the row, sheet[r, c] the cell of the row, and iterating over a sheet gives its rows.", "quantifier": "every file, every sequence of requests to any number of iterators mixed with the calls of C41, every row and column", "why_tests_cant": "Iterators and calls can be mixed in unboundedly many ways.", "anchors": ["xlrd/book.py: Book.__iter__, Book.sheet_by_index, Book.sheets, Book.unload_sheet, Book.release_resources", "xlrd/sheet.py: Sheet.__getitem__, Sheet.get_rows, Sheet.row, Sheet.cell"]}
{"id": "C83", "title": "Well-formed files of BIFF2 open", "statement": "A file of BIFF2 whose records are all well formed opens without an exception if, and only if, its cells are within 16384 rows and 256 columns, with formatting_info indexes of XFs are below 32768, and: if it has XF records, every number has an XF that is in the file (or XF 0), and an IXFE record comes before every record in use that names the XF 63; if it has none, no record in use names an XF by number.", "quantifier": "every file of BIFF2 with records of all kinds in any number, those about the whole file in any order before the DIMENSIONS record, rows and cells in any order after it; every setting of the options", "why_tests_cant": "Whether the XF of a cell can be found depends on the records before and on the XFs made up while reading.", "anchors": ["xlrd/__init__.py: open_workbook", "xlrd/book.py: open_workbook_xls, Book.fake_globals_get_sheet, Book.get_sheet", "xlrd/sheet.py: Sheet.read, Sheet.fixed_BIFF2_xfindex, Sheet.insert_new_BIFF20_xf, Sheet.put_cell_unragged, Sheet.put_cell_ragged", "xlrd/formatting.py: handle_font, handle_format, handle_xf, xf_epilogue"]}
{"id": "C84", "title": "Well-formed BIFF4 workbooks open", "statement": "A BIFF4 workbook (.XLW) whose records are all well formed opens without an exception if, and only if, every worksheet has the name that the BOUNDSHEET record of the same rank gives before it, and the cells of every worksheet satisfy the conditions of C81.", "quantifier": "every BIFF4 workbook with any number of sheets and records of all kinds in any number and order in the globals and in the sheets, except that FORMAT and XF records of a sheet come before its STYLE records; every setting of the options", "why_tests_cant": "Records of every sheet change the state of the book that later sheets are read with.", "anchors": ["xlrd/__init__.py: open_workbook", "xlrd/book.py: open_workbook_xls, Book.parse_globals, Book.handle_sheethdr, Book.handle_boundsheet, Book.initialise_format_info, Book.names_epilogue", "xlrd/sheet.py: Sheet.read", "xlrd/formatting.py: handle_palette, handle_style, xf_epilogue"]}
{"id": "C85", "title": "Names with relative references", "statement": "If the formula of a name is an expression of references to cells and areas, of which some are relative to the cell where the name is used, then Name.result is a list of Ref3D objects that, counted from any cell where their relflags say so, are exactly the areas that the formula means in that cell; the result is of kind oREL if one of them depends on the cell and of kind oREF otherwise.", "quantifier": "every workbook of BIFF5, BIFF7 or BIFF8, every expression of references, other names and the three operators on references, every cell in which the name may be used", "why_tests_cant": "Expressions nest without bound and refer to other names; each of the six bounds of an area may be relative or not, and the result must be right for every cell.", "anchors": ["xlrd/formula.py: evaluate_name_formula, get_cell_addr, get_cell_range_addr, do_box_funcs, Ref3D", "xlrd/book.py: Name.cell, Name.area2d, Book.names_epilogue"]}
{"id": "C86", "title": "Dates and times stored in cells come back exactly", "statement": "If a cell record holds the number of a day and second (in the date system of the file) to within less than half a second, and its XF has a date format, then the cell is of type XL_CELL_DATE, and xldate_as_tuple of its value and Book.datemode gives exactly that date and time, however the number was rounded; xldate_as_datetime gives exactly the day and millisecond. This holds for every cell of every sheet of files of BIFF2 to BIFF8, after any sequence of calls on the book.", "quantifier": "every file of BIFF2 to BIFF8, every cell with a date format, every day from 1900-03-01 (1904-01-02) to 9999-12-31, every second or millisecond of the day, every number near enough, every history of calls", "why_tests_cant": "There are more than 10^11 seconds to convert and several binary64 numbers for each; rounding at midnight, at minutes and hours can go wrong for any of them.", "anchors": ["xlrd/xldate.py: xldate_as_tuple, xldate_as_datetime", "xlrd/book.py: Book.datemode, Book.handle_datemode", "xlrd/sheet.py: Sheet.read, Sheet.put_cell, Sheet.cell_type, Sheet.cell_value", "xlrd/formatting.py: handle_xf, handle_format, is_date_format_string"]}
{"id": "C87", "title": "The user name of a file", "statement": "After a file has been opened, Book.user_name is the text of the last WRITEACCESS record without trailing white space, decoded (before BIFF8) in the encoding that encoding_override or the CODEPAGE records give, even if those come later in the file; it is empty if there is no such record.", "quantifier": "every file of BIFF2, BIFF3, BIFF4 (one sheet), BIFF5, BIFF7 and BIFF8, any number and order of records, any encoding_override", "why_tests_cant": "The name is decoded at once or kept until the encoding is known, and any of a dozen kinds of records can be what makes it known; every order and every version counts.", "anchors": ["xlrd/book.py: Book.handle_writeaccess, Book.derive_encoding, Book.handle_codepage, Book.user_name", "xlrd/sheet.py: Sheet.read", "xlrd/formatting.py: handle_format"]}
{"id": "C88", "title": "Files and mappings are closed", "statement": "If open_workbook raises an exception, at whatever point, or returns a book without on_demand, then every file and memory mapping that it opened has been closed, and nothing else has been; with on_demand at most one mapping stays open, it is open as long as sheets can still be loaded, and it is closed by release_resources and at the end of a with statement, whatever was done with the book in between; releasing twice has no effect. The book or exception depends only on the bytes of the file, not on whether they come from a path, from a mapping or from file_contents. dump and count_records close what they open.", "quantifier": "every answer of the system to open, seek, read and mmap (success or any exception), every content of the file, also if it changes between the two times it is opened, every set of other open files, use_mmap on or off, every history of calls on the book", "why_tests_cant": "An exception can be raised at any point of opening and reading, and each point leaves a different combination of open files, mappings and attributes to clean up.", "anchors": ["xlrd/__init__.py: inspect_format, open_workbook, dump, count_records", "xlrd/book.py: open_workbook_xls, Book.biff2_8_load, Book.release_resources, Book.__enter__, Book.__exit__, Book.get_sheet"]}
{"id": "C89", "title": "The text of the result of a name", "statement": "For every name of the workbook whose formula is stored as an expression (constants, references, operators, functions, parentheses, other names), name_obj.result.text is a formula that, read with Excel's rules of precedence and grouping, denotes exactly the stored expression; it is also the text that decompile_formula gives.", "quantifier": "every book with any number of names that refer to each other to any depth, every stored expression of any depth, every version BIFF5 to BIFF8, any Python arithmetic", "why_tests_cant": "The text is built on a second path, next to the values, by an evaluator that takes other decisions than the decompiler at each token; the sets of expressions and of nested names are infinite.", "anchors": ["xlrd/formula.py: evaluate_name_formula, Operand.text, do_binop, do_unaryop, decompile_formula", "xlrd/book.py: Name.result, Book.names_epilogue"]}
{"id": "C90", "title": "The formats of a workbook", "statement": "After a workbook has been opened, Book.format_map has for every number k: if there are FORMAT records for k, the string of the last one, with type date exactly if the string is a date format and general otherwise; if not, and k is the number of a built-in format, the documented string (or None for the numbers without one) and type of that format; otherwise nothing. Without XF records there are no built-in formats. Before BIFF5 the FORMAT records are numbered in file order and there are no built-in formats. The types of the built-in formats agree with the rule for strings.", "quantifier": "every workbook of BIFF5, BIFF7 or BIFF8, every BIFF3 or BIFF4 file, every BIFF2 file with XF records, the last worksheet of every BIFF4 workbook; any number and order of FORMAT and XF records, every format number", "why_tests_cant": "The built-in formats are added in the middle of reading and must neither replace nor be missing beside any set of described formats, in any order of the records.", "anchors": ["xlrd/formatting.py: std_format_strings, fmt_code_ranges, std_format_code_types, handle_format, handle_xf, is_date_format_string, Format", "xlrd/book.py: Book.format_map, Book.parse_globals"]}
{"id": "C91", "title": "Printed cells and pickled rows", "statement": "repr(cell) exists for every cell of one of the seven types and is unambiguous: two cells with the same repr have the same ctype and xf_index and values with the same repr. A Rowinfo object that is pickled (or copied) and restored has all the attributes of the original, whatever the restored object had before.", "quantifier": "every cell with any value and XF index, for any repr of values in which strings end with a quotation mark and numbers have no parentheses; every Rowinfo with any values of its attributes", "why_tests_cant": "The text of a cell can contain what looks like the rest of the representation; all strings must be told apart. A pickle must keep every combination of ten attributes.", "anchors": ["xlrd/sheet.py: Cell.__repr__, ctype_text, Rowinfo.__getstate__, Rowinfo.__setstate__"]}
{"id": "C92", "title": "Types and values of cells go together", "statement": "Whatever the bytes of the file and whatever calls were made on the book: every cell of every sheet that the book returns has a type and a value that go together as the table in the documentation of Cell says. Empty and blank cells have the empty string, text cells a string, number and date cells a float, boolean and error cells a whole number from 0 to 255; there are no other types. Sheet.cell_type and Sheet.cell_value answer for the same cells.", "quantifier": "every file that can be opened, also damaged ones, any number and order of records, any options, every history of calls on the book, every sheet, row and column", "why_tests_cant": "The type of a number comes from a table that XF and FORMAT records fill, and types and values are stored in separate lists that grow and are padded separately; any order of records must keep them in step.", "anchors": ["xlrd/sheet.py: Sheet.put_cell, Sheet.put_cell_ragged, Sheet.put_cell_unragged, Sheet.tidy_dimensions, Sheet.read, Sheet.cell_type, Sheet.cell_value, Cell", "xlrd/formatting.py: handle_xf, xf_epilogue", "xlrd/book.py: Book.get_sheet, Book.sheet_by_index"]}
