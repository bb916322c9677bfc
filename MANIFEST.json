{
 "claims": [
  {
   "property": "C01",
   "status": "proved",
   "theorems": [
    "Xlrd.C01_date_round_trip",
    "Xlrd.C01_serial_counts_days"
   ],
   "note": "C01_date_round_trip: a date converted to a serial and back is the same date at midnight. C01_serial_counts_days: the serial is the number of days counted on the calendar."
  },
  {
   "property": "C02",
   "status": "proved",
   "theorems": [
    "Xlrd.C02_datetime_round_trip"
   ],
   "note": "C02_datetime_round_trip: a date-time converted to a binary64 serial and back is unchanged, for every accepted date (or no date) and every second of the day."
  },
  {
   "property": "C03",
   "status": "proved",
   "theorems": [
    "Xlrd.C03_result_is_real",
    "Xlrd.C03_result_is_nearest_second"
   ],
   "note": "C03_result_is_real: every tuple returned is a real time of day, with no date or a real Gregorian date. C03_result_is_nearest_second: the tuple denotes the instant of the serial, correct to half a second (up to 2^-34 s of rounding in the arithmetic)."
  },
  {
   "property": "C04",
   "status": "proved",
   "theorems": [
    "Xlrd.C04_order_preserved",
    "Xlrd.C04_whole_days_distinct"
   ],
   "note": "C04_order_preserved: decoding preserves order (times without date come before dates). C04_whole_days_distinct: different whole-day serials give different dates."
  },
  {
   "property": "C05",
   "status": "proved",
   "theorems": [
    "Xlrd.C05_outcomes",
    "Xlrd.C05_limits"
   ],
   "note": "C05_outcomes: exactly which serials `xldate_as_tuple` accepts, and the error class of each rejection. C05_limits: the limits are the calendar's: the end serial is that of 10000-01-01."
  },
  {
   "property": "C06",
   "status": "proved",
   "theorems": [
    "Xlrd.C06_serials_differ_by_1462",
    "Xlrd.C06_decoding_agrees"
   ],
   "note": "C06_serials_differ_by_1462: a date has serials 1462 apart in the two systems. C06_decoding_agrees: decoding a whole-day serial in the 1900 system and the serial 1462 lower in the 1904 system gives the same result (also when the result is \"too large\")."
  },
  {
   "property": "C07",
   "status": "partial",
   "theorems": [
    "Xlrd.C07_whole_days_agree",
    "Xlrd.C07_not_injective_59_60",
    "Xlrd.C07_injective_partial",
    "Xlrd.C07_nearest_millisecond"
   ],
   "note": "The second half of the statement is false for the code: C07_not_injective_59_60 proves that serials 59 and 60 of the 1900 system give the same datetime. C07_injective_partial proves this is the only collision among whole-day serials; C07_nearest_millisecond covers fractional serials."
  },
  {
   "property": "C08",
   "status": "proved",
   "theorems": [
    "Xlrd.C08_date_accepted_iff",
    "Xlrd.C08_date_rejections",
    "Xlrd.C08_not_a_date_is_bad",
    "Xlrd.C08_time_accepted_iff"
   ],
   "note": "C08_date_accepted_iff: `xldate_from_date_tuple` accepts exactly `(0,0,0)` and the real dates of 1900-9999 that are not before the first unambiguous day. C08_date_rejections: a real date that is rejected is either not after day 0 (bad tuple) or before day 61 of the 1900 system (ambiguous); anything that is not a real date of 1900-9999 is a bad tuple. C08_not_a_date_is_bad: anything that is neither `(0,0,0)` nor a real date of 1900-9999 is a bad tuple. C08_time_accepted_iff: times are accepted exactly in range, and the result is a fraction of a day."
  },
  {
   "property": "C09",
   "status": "proved",
   "theorems": [
    "Xlrd.C09_colname_reads_back",
    "Xlrd.C09_book_colname_reads_back",
    "Xlrd.C09_colname_injective",
    "Xlrd.C09_implementations_agree",
    "Xlrd.C09_colname_limit"
   ],
   "note": "C09_colname_reads_back: within the 702 columns that two letters can name (a worksheet has at most 256), `colname(c)` succeeds and reads back as `c`. C09_book_colname_reads_back: the other implementation (used when displaying addresses) is right for every column. C09_colname_injective: two different columns never share a name. C09_implementations_agree: the two implementations agree wherever the exported one is defined. C09_colname_limit: The exported function gives up (IndexError) beyond two letters."
  },
  {
   "property": "C10",
   "status": "proved",
   "theorems": [
    "Xlrd.C10_cellname_reads_back",
    "Xlrd.C10_cellnameabs_reads_back",
    "Xlrd.C10_cellnameabs_r1c1_reads_back",
    "Xlrd.C10_cellname_injective"
   ],
   "note": "C10_cellname_reads_back: `cellname(r, c)` reads back as `(r, c)`. C10_cellnameabs_reads_back: `cellnameabs(r, c)` reads back as `(r, c)`. C10_cellnameabs_r1c1_reads_back: `cellnameabs(r, c, r1c1=1)` reads back as `(r, c)`, for every column. C10_cellname_injective: two different cells never have the same name."
  },
  {
   "property": "C11",
   "status": "proved",
   "theorems": [
    "Xlrd.C11_rangename2d_reads_back",
    "Xlrd.C11_single_cell_no_colon"
   ],
   "note": "C11_rangename2d_reads_back: the name of a non-empty rectangle reads back as that rectangle. C11_single_cell_no_colon: a single cell is written without a colon, anything larger with one."
  },
  {
   "property": "C12",
   "status": "proved",
   "theorems": [
    "Xlrd.C12_last_write_wins",
    "Xlrd.C12_last_write_wins_ragged",
    "Xlrd.C12_load_succeeds_iff"
   ],
   "note": "C12_last_write_wins: (rectangular loading): every position of the sheet shows the last write made there, or an empty cell; positions outside raise IndexError. C12_last_write_wins_ragged: (ragged loading): the same inside each row's length, and every written cell is inside. C12_load_succeeds_iff: a load fails only because of a write outside the limits, an unknown XF index where the type depends on it, an XF index that does not fit, or a merged range below the limits."
  },
  {
   "property": "C13",
   "status": "proved",
   "theorems": [
    "Xlrd.C13_rectangular"
   ],
   "note": "C13_rectangular: after loading, all three grids are exactly `nrows` by `ncols`."
  },
  {
   "property": "C14",
   "status": "proved",
   "theorems": [
    "Xlrd.C14_dimensions_tight",
    "Xlrd.C14_tight_meaning"
   ],
   "note": "C14_dimensions_tight: the dimensions are tight (in both loading modes). C14_tight_meaning: what `height` and `width` mean: a bound on everything written or merged, reached by something written or merged unless it is 0."
  },
  {
   "property": "C15",
   "status": "proved",
   "theorems": [
    "Xlrd.C15_ragged_agrees",
    "Xlrd.C15_ragged_row_length"
   ],
   "note": "A ragged row ends at the last cell written in it, except that the last row, when it exists only because of a merged range, has one empty cell; the theorem states this exception."
  },
  {
   "property": "C16",
   "status": "proved",
   "theorems": [
    "Xlrd.C16_slices_visit_python_slice",
    "Xlrd.C16_row_accessors_agree",
    "Xlrd.C16_col_accessors_agree",
    "Xlrd.C16_get_rows"
   ],
   "note": "C16_slices_visit_python_slice: `row_slice`, `col_slice`, `col_values`, `col_types` visit exactly the positions selected by the Python slice `[start:stop]`, for every sheet and all bounds. C16_row_accessors_agree: in a loaded sheet (rectangular or ragged), for every row: `row` is the list of the cells of the row, and `row_slice`, `row_values`, `row_types` are Python slices of it. C16_col_accessors_agree: in a rectangular sheet, for every column: `col` is the list of the cells of the column and `col_slice`, `col_values`, `col_types` are Python slices of it. C16_get_rows: iterating over a loaded sheet yields its rows in order."
  },
  {
   "property": "C17",
   "status": "partial",
   "theorems": [
    "Xlrd.C17_negative_indexes_partial",
    "Xlrd.C17_negative_xf_partial",
    "Xlrd.C17_xf_default_missed"
   ],
   "note": "False for the XF index of a cell without its own XF record: C17_xf_default_missed exhibits a sheet whose row default is found at row 0 but not at row -1. Types, values and the raw XF grid agree for all negative indexes (C17_negative_indexes_partial); cell() agrees when the cell has its own XF index or formatting_info is off (C17_negative_xf_partial)."
  },
  {
   "property": "C18",
   "status": "proved",
   "theorems": [
    "Xlrd.C18_xf_precedence",
    "Xlrd.C18_requires_formatting"
   ],
   "note": "C18_xf_precedence: the XF index of a cell of a loaded sheet: the cell's own, else the row's, else the column's, else 15; the second component names the statistics counter. C18_requires_formatting: without formatting information the call raises XLRDError."
  },
  {
   "property": "C19",
   "status": "proved",
   "theorems": [
    "Xlrd.C19_width_precedence",
    "Xlrd.C19_width_total"
   ],
   "note": "C19_width_precedence: the width is the first available source, for every version; only a column outside the GCW flags of a version 4-7 file can fail. C19_width_total: the GCW flags are only consulted in versions 4 to 7, and with the 256 flags always present a column 0..255 never fails."
  },
  {
   "property": "C20",
   "status": "proved",
   "theorems": [
    "Xlrd.C20_get_stream",
    "Xlrd.C20_get_short_stream",
    "Xlrd.C20_get_stream_no_size",
    "Xlrd.C20_locate_stream",
    "Xlrd.C20_locate_named_stream"
   ],
   "note": "C20_get_stream: `_get_stream` through the main table. The chain of the stream exists, its sectors are unmarked, and all but the last are whole: then the call returns the first `size` bytes of the sectors in chain order (all of them, if they are fewer). C20_get_short_stream: a short stream. C20_get_stream_no_size: without a size (the directory) all bytes of the chain are returned. C20_locate_stream: `_locate_stream` answers with the first `size` bytes of the sectors in chain order, whether or not they are contiguous, whenever it answers; and it does answer when the chain exists, has exactly the sectors needed, and they are unmarked. C20_locate_named_stream: , for the user: when `locate_named_stream` finds a stream in the main table, the bytes it points to are the first `size` bytes of the stream's sectors."
  },
  {
   "property": "C21",
   "status": "partial",
   "theorems": [
    "Xlrd.C21_both_fetches_agree_partial",
    "Xlrd.C21_truncated_file_differs"
   ],
   "note": "False for a truncated file: C21_truncated_file_differs exhibits a chain whose non-last sector is cut off by the end of the file; the two calls then return different bytes. Proved when all sectors but the last of the chain are whole."
  },
  {
   "property": "C22",
   "status": "partial",
   "theorems": [
    "Xlrd.C22_open_terminates_partial",
    "Xlrd.C22_marked_chain_terminates_partial",
    "Xlrd.C22_locate_terminates_partial",
    "Xlrd.C22_short_cycle_never_ends"
   ],
   "note": "False for short streams: C22_short_cycle_never_ends gives a document that opens without error and whose short stream S is never read to the end. Proved for opening every byte string, for every chain read through the main table, and for locating."
  },
  {
   "property": "C23",
   "status": "proved",
   "theorems": [
    "Xlrd.C23_no_shared_sectors"
   ],
   "note": "C23_no_shared_sectors: for every sequence of successful reads through the main table (marks are nonzero, no ignore-corruption), no sector occurs twice, neither within a chain nor in two of them, and none had been used before the first read."
  },
  {
   "property": "C24",
   "status": "partial",
   "theorems": [
    "Xlrd.C24_children_partial",
    "Xlrd.C24_lookup_partial",
    "Xlrd.C24_simple_name",
    "Xlrd.C24_extra_components_ignored"
   ],
   "note": "False for paths that go on after a stream: C24_extra_components_ignored. C24_lookup_partial gives the outcome of every lookup in terms of the directory tree, and C24_simple_name the exact statement for names without a slash. Case folding is a parameter (str.lower)."
  },
  {
   "property": "C25",
   "status": "proved",
   "theorems": [
    "Xlrd.C25_records_read_back",
    "Xlrd.C25_read_makes_progress",
    "Xlrd.C25_reads_are_bounded",
    "Xlrd.C25_conditional_read"
   ],
   "note": "C25_records_read_back: records written one after another, anywhere in a stream, are read back in order, and the position ends just after the last one. C25_read_makes_progress: a successful read anywhere in any stream, well formed or not, consumes at least the four bytes of a header that lies inside the stream, and moves by exactly four bytes plus the length it reports. C25_reads_are_bounded: `n` successive reads need `4 * n` bytes of stream; so no loop over records goes on for ever. C25_conditional_read: the conditional read takes the record when its code is the wanted one, and leaves the position alone otherwise."
  },
  {
   "property": "C26",
   "status": "partial",
   "theorems": [
    "Xlrd.C26_workbook_partial",
    "Xlrd.C26_shared_strings_partial",
    "Xlrd.C26_sst_record_partial",
    "Xlrd.C26_split_surrogate_pair_fails",
    "Xlrd.C26_long_phonetic_data_fails"
   ],
   "note": "False for two legal layouts: C26_split_surrogate_pair_fails (a surrogate pair cut by a record boundary raises a decoding error) and C26_long_phonetic_data_fails (phonetic data over two boundaries loses the next string). Proved for every other list of strings and splitting (SStr.Handled), through unpack_SST_table and handle_sst."
  },
  {
   "property": "C27",
   "status": "proved",
   "theorems": [
    "Xlrd.C27_unpack_unicode",
    "Xlrd.C27_unpack_unicode_update_pos",
    "Xlrd.C27_unpack_unicode_known_length",
    "Xlrd.C27_empty_at_end"
   ],
   "note": "C27_unpack_unicode: `unpack_unicode` returns the text, whatever stands before and after the string. C27_unpack_unicode_update_pos: `unpack_unicode_update_pos` returns the text and the position just after the whole string, with its runs and phonetic data. C27_unpack_unicode_known_length: the same when the caller knows the length already. C27_empty_at_end: an empty string at the very end may lack its options byte."
  },
  {
   "property": "C28",
   "status": "proved",
   "theorems": [
    "Xlrd.C28_unpack_string",
    "Xlrd.C28_unpack_string_update_pos",
    "Xlrd.C28_unpack_string_known_length"
   ],
   "note": "C28_unpack_string: `unpack_string` decodes exactly the bytes of the string. C28_unpack_string_update_pos: `unpack_string_update_pos` also returns the position just after the string; a decoding error is passed on. C28_unpack_string_known_length: the same when the caller knows the length already."
  },
  {
   "property": "C29",
   "status": "partial",
   "theorems": [
    "Xlrd.C29_string_result_partial",
    "Xlrd.C29_string_result_before_biff8",
    "Xlrd.C29_astral_character_fails"
   ],
   "note": "False outside the basic multilingual plane: C29_astral_character_fails. Proved for every BMP text and every splitting (BIFF8), and before BIFF8 for every codec when the stored length is the number of decoded characters."
  },
  {
   "property": "C30",
   "status": "proved",
   "theorems": [
    "Xlrd.C30_rk_decodes",
    "Xlrd.C30_every_pattern",
    "Xlrd.C30_binary64_decodes"
   ],
   "note": "C30_rk_decodes: an RK value decodes to the number it denotes: the signed integer, or the binary64 number with the given sign, exponent and leading fraction bits, or the binary64 number nearest to a hundredth of it. C30_every_pattern: this covers all 2^32 four-byte strings, so decoding never fails on four bytes. C30_binary64_decodes: an eight-byte number decodes to the binary64 number with those fields."
  },
  {
   "property": "C31",
   "status": "proved",
   "theorems": [
    "Xlrd.C31_type_codes",
    "Xlrd.C31_sheet_is_its_cells",
    "Xlrd.C31_sheet_loads",
    "Xlrd.C31_cell_at"
   ],
   "note": "C31_type_codes: the published codes for the types of cells; they are different. C31_sheet_is_its_cells: reading a worksheet made of any settings, any cells (numbers, RK values alone or in groups, shared strings, labels, rich strings, booleans, errors, blanks, formula results of every kind), unknown records and embedded charts leaves exactly the contents of the cells described, in the order of the records, and the merged ranges: the sheet is the one `loadCells` builds, to which C12 to C15 apply. C31_sheet_loads: and a worksheet whose cells can be stored is read without an error (`nearest_colour_index` being defined on every colour, C38). C31_cell_at: for the accessors: every cell shows the last record about it (type, value, and XF index when formatting information is kept), every cell without a record is empty, and nothing lies outside."
  },
  {
   "property": "C32",
   "status": "proved",
   "theorems": [
    "Xlrd.C32_range_list"
   ],
   "note": "C32_range_list: a list of ranges, with its count, is decoded with exclusive upper bounds, appended to what was there, and the position ends after it."
  },
  {
   "property": "C33",
   "status": "proved",
   "theorems": [
    "Xlrd.C33_every_format_has_parts",
    "Xlrd.C33_date_format",
    "Xlrd.C33_literal_text_ignored",
    "Xlrd.C33_no_date_characters",
    "Xlrd.C33_case_ignored"
   ],
   "note": "C33_every_format_has_parts: every string can be read as a format string (literal text, bracketed sections, other characters), so the theorem below speaks about all of them. C33_date_format: a number format is a date format exactly if more of its active characters are date characters than digit place holders. Literal text and bracketed sections do not matter. C33_literal_text_ignored: two formats with the same active characters are classified alike, whatever quoted, escaped or bracketed text they contain. C33_no_date_characters: without date characters outside the literal text and brackets a format is never a date format. C33_case_ignored: changing the case of letters anywhere in a format does not change its classification."
  },
  {
   "property": "C34",
   "status": "proved",
   "theorems": [
    "Xlrd.C34_date_cells",
    "Xlrd.C34_formatting_info_irrelevant",
    "Xlrd.C34_formats_known"
   ],
   "note": "C34_date_cells: a numeric cell with XF index `i` is a date cell exactly if the format of that XF is a date format: the last FORMAT record with its key decides, or else the built-in format of that key. Whether formatting information is kept does not matter. C34_formatting_info_irrelevant: a workbook read with formatting information has the same number and date cells as one read without. C34_formats_known: whatever bytes are loaded, every XF refers to a format that is known, and the type of the numeric cells with that XF is the one of this format."
  },
  {
   "property": "C35",
   "status": "proved",
   "theorems": [
    "Xlrd.C35_xf_attributes",
    "Xlrd.C35_every_record_is_covered",
    "Xlrd.C35_short_record",
    "Xlrd.C35_xf_list"
   ],
   "note": "C35_xf_attributes: whatever was read before, an XF record adds one entry at the end of `xf_list`; each of its attributes is the field of the record, for every combination of field values and every BIFF version. Only a format key that `format_map` does not know is replaced, by 0. C35_every_record_is_covered: nothing is left out: every byte string of the length of an XF record is one, for exactly one combination of attributes. C35_short_record: shorter records are refused with `struct.error`. C35_xf_list: the list of XFs of a workbook holds the XF records in file order, each with the attributes in the record. A cell XF whose parent does not exist gets parent 0 if formatting information is kept."
  },
  {
   "property": "C36",
   "status": "proved",
   "theorems": [
    "Xlrd.C36_numbering_file",
    "Xlrd.C36_fonts",
    "Xlrd.C36_numbering"
   ],
   "note": "C36_numbering_file: (files). Whatever the file and its version, each font and each XF of the book knows its own position in its list. C36_fonts: with formatting information, the font of the `k`-th FONT record has the attributes in the record and the number by which XFs refer to it; number 4 is a dummy. C36_numbering: whatever bytes are loaded, each font and each XF knows its own position in its list."
  },
  {
   "property": "C37",
   "status": "proved",
   "theorems": [
    "Xlrd.C37_initial_colour_map",
    "Xlrd.C37_palette",
    "Xlrd.C37_palette_ignored",
    "Xlrd.C37_workbook",
    "Xlrd.C37_file",
    "Xlrd.C37_old_file",
    "Xlrd.C37_biff2_file"
   ],
   "note": "C37_initial_colour_map: without formatting information the map is empty; with it, before any PALETTE record, it holds the fixed colours, the default palette and the magic indexes, and nothing else. C37_palette: a PALETTE record with the colours `cs` (the first one in the file) makes the map report these colours from index 8 on; everything else keeps its default. The order of the map does not change. More colours than the map has places for are refused with KeyError. C37_palette_ignored: without formatting information PALETTE records are ignored. C37_workbook: the colour map of a workbook: the default colours of the version, with those of the PALETTE record in their place; empty without formatting information. C37_file: (files). After a workbook has been opened with formatting information, the colours are the eight fixed ones and the standard palette of its version, as changed by the PALETTE records. C37_old_file: (BIFF3 and BIFF4 files): eight fixed colours, then the sixteen standard ones, as changed by the PALETTE records. C37_biff2_file: (BIFF2 files)."
  },
  {
   "property": "C38",
   "status": "proved",
   "theorems": [
    "Xlrd.C38_nearest",
    "Xlrd.C38_no_colours",
    "Xlrd.C38_lowest_index",
    "Xlrd.C38_maps_are_ascending"
   ],
   "note": "C38_nearest: if the map has any colour, the result is the index of an entry whose colour is at least as near as every other, and strictly nearer than all entries before it. C38_no_colours: with no colour in the map the result is 0. C38_lowest_index: in the property's own words, for a map whose indexes are in ascending order (as every book's are): the result is the lowest index among those with minimal distance. C38_maps_are_ascending: The keys of the initial map are in ascending order; PALETTE records keep them (`C37_palette`)."
  },
  {
   "property": "C39",
   "status": "proved",
   "theorems": [
    "Xlrd.C39_row_attributes",
    "Xlrd.C39_column_attributes",
    "Xlrd.C39_no_attributes_without_formatting"
   ],
   "note": "C39_row_attributes: with formatting information, a row has exactly the attributes of the last ROW record about it. C39_column_attributes: a column has exactly the attributes of the last COLINFO record whose range covers it; without formatting information no attributes are kept. C39_no_attributes_without_formatting: without formatting information no row or column attributes are kept."
  },
  {
   "property": "C40",
   "status": "proved",
   "theorems": [
    "Xlrd.C40_magnification",
    "Xlrd.C40_magnification_in_range"
   ],
   "note": "C40_magnification: the magnification of the view in use is the scale of the sheet; that of the other view is the cached one if in range, a cached 0 meaning 60 for the page break preview, and else the scale. C40_magnification_in_range: whatever the bytes of the file are, a sheet that loads has both magnifications between 10 and 400 per cent."
  },
  {
   "property": "C41",
   "status": "partial",
   "theorems": [
    "Xlrd.C41_named_countries",
    "Xlrd.C41_wellformed_sheets",
    "Xlrd.C41_conflicting_countries",
    "Xlrd.C41_on_demand_partial",
    "Xlrd.C41_eager_partial",
    "Xlrd.C41_same_file_partial",
    "Xlrd.C41_returned_sheet",
    "Xlrd.C41_returned_sheet_partial",
    "Xlrd.C41_availability_partial"
   ],
   "note": "False for files in which COUNTRY records of different sheets disagree: C41_conflicting_countries. The partial theorems cover all files whose sheets do not set the countries of the book (SheetsKeepCountries); C41_named_countries and C41_wellformed_sheets give sufficient conditions. C41_returned_sheet holds for all files: a sheet that is returned is the one that reading sheet k gives with some countries."
  },
  {
   "property": "C42",
   "status": "proved",
   "theorems": [
    "Xlrd.C42_by_name",
    "Xlrd.C42_keys",
    "Xlrd.C42_unknown"
   ],
   "note": "C42_by_name: in any state of any book, asking for a sheet by name is asking for the first sheet with that name by its index, and an XLRDError (which leaves the book as it is) if there is none. C42_keys: `book[key]` is `sheet_by_index` or `sheet_by_name`, and `sheet_loaded` and `unload_sheet` take names the same way: a name stands for the index of the first sheet with that name. C42_unknown: an unknown name is refused with an XLRDError by every call, and the book stays as it is."
  },
  {
   "property": "C43",
   "status": "proved",
   "theorems": [
    "Xlrd.C43_boundsheets",
    "Xlrd.C43_parallel"
   ],
   "note": "C43_boundsheets: the sheet names, positions and visibilities are those of the worksheets among the BOUNDSHEET records, in file order; the map from all sheets to worksheets has an entry for every record, the number of worksheets before it for a worksheet and -1 for the others. C43_parallel: whatever the file contains, a successful load leaves three parallel lists, and the entries of the sheet map that are not negative are 0, 1, 2, ... up to the number of worksheets."
  },
  {
   "property": "C44",
   "status": "proved",
   "theorems": [
    "Xlrd.C44_names",
    "Xlrd.C44_name_and_scope_map",
    "Xlrd.C44_name_map",
    "Xlrd.C44_old_scopes"
   ],
   "note": "C44_names gives the scope in BIFF8 (scopeOf), C44_old_scopes in BIFF5 and BIFF7, where it goes by the name of the sheet in an EXTERNSHEET record (OldScope)."
  },
  {
   "property": "C45",
   "status": "proved",
   "theorems": [
    "Xlrd.C45_clip",
    "Xlrd.C45_within",
    "Xlrd.C45_area2d",
    "Xlrd.C45_cell"
   ],
   "note": "C45_clip: clipping gives exactly the rows and columns of the area that the sheet has, in the promised order. C45_within: whatever a name refers to, a clipped area that `area2d` returns is one of cells of the sheet. C45_area2d: `area2d` of a name that refers to one area of one sheet gives that sheet, with the area as it is or clipped; any other name is refused with an XLRDError. C45_cell: `cell` of a name that refers to one cell of one sheet is that cell; any other name is refused with an XLRDError."
  },
  {
   "property": "C46",
   "status": "proved",
   "theorems": [
    "Xlrd.C46_addin_functions",
    "Xlrd.C46_addin_in_formula",
    "Xlrd.C46_outcome",
    "Xlrd.C46_local_sheets",
    "Xlrd.C46_codes",
    "Xlrd.C46_local_sheets_old",
    "Xlrd.C46_two_local_supbooks",
    "Xlrd.C46_codes_old"
   ],
   "note": "C46_outcome covers every file; C46_local_sheets/C46_codes give the exact outcome for BIFF8 references and C46_local_sheets_old for BIFF5-7. C46_two_local_supbooks records that only the last SUPBOOK for the workbook itself counts."
  },
  {
   "property": "C47",
   "status": "proved",
   "theorems": [
    "Xlrd.C47_cell_address",
    "Xlrd.C47_area_address",
    "Xlrd.C47_base_cell",
    "Xlrd.C47_base_area",
    "Xlrd.C47_cell_text",
    "Xlrd.C47_shared_text",
    "Xlrd.C47_old_rows_wrap_witness",
    "Xlrd.C47_expand"
   ],
   "note": "Decoding for all versions, with and without base cell, and the text of the address. C47_old_rows_wrap_witness: relative rows of BIFF5-7 files wrap at 65536 instead of 16384."
  },
  {
   "property": "C48",
   "status": "proved",
   "theorems": [
    "Xlrd.C48_isect_operator",
    "Xlrd.C48_range_operator",
    "Xlrd.C48_relative_operands",
    "Xlrd.C48_intersection",
    "Xlrd.C48_empty",
    "Xlrd.C48_range"
   ],
   "note": "C48_isect_operator: (intersection of absolute references). The operator takes the two references from the stack and leaves one, with exactly the common cells. C48_range_operator: (range of absolute references). The same for the range operator, which leaves the smallest box with both. C48_relative_operands: (relative references). With relative references the operators work on the offsets if the same coordinates are relative in both; otherwise the value is unknown. C48_intersection: (intersection). A cell lies in the intersection exactly if it lies in both operands. C48_empty: (empty intersection). The box reported for operands without common cells contains no cell, and with common cells its coordinates are in order. C48_range: (range). The range of two references contains both operands, and is contained in every box that contains both."
  },
  {
   "property": "C49",
   "status": "partial",
   "theorems": [
    "Xlrd.C49_evaluation_ends",
    "Xlrd.C49_decompilation_ends",
    "Xlrd.C49_deep_names",
    "Xlrd.C49_self_reference",
    "Xlrd.C49_evaluation_operands_partial",
    "Xlrd.C49_decompilation_operands_partial",
    "Xlrd.C49_nullary_call_takes_all"
   ],
   "note": "Termination and the depth of nested names hold for all token strings. The stack discipline is false for calls with no arguments of functions with a variable number of them: C49_nullary_call_takes_all. The two operands theorems prove it for every other token."
  },
  {
   "property": "C50",
   "status": "partial",
   "theorems": [
    "Xlrd.C50_leaf_int",
    "Xlrd.C50_leaf_num",
    "Xlrd.C50_leaf_bool",
    "Xlrd.C50_leaf_error",
    "Xlrd.C50_leaf_text",
    "Xlrd.C50_leaf_bytes",
    "Xlrd.C50_leaf_cell",
    "Xlrd.C50_leaf_area",
    "Xlrd.C50_grouping_lost",
    "Xlrd.C50_union_lost",
    "Xlrd.C50_error_as_string",
    "Xlrd.C50_range_of_error",
    "Xlrd.C50_no_arguments",
    "Xlrd.C50_unknown_function",
    "Xlrd.C50_leaf_shared_area",
    "Xlrd.C50_leaf_own_name_old",
    "Xlrd.C50_other_file_name_old",
    "Xlrd.C50_name_of_no_sheet_partial",
    "Xlrd.C50_leaf_addin",
    "Xlrd.C50_token_sizes_partial",
    "Xlrd.C50_array_constant_size",
    "Xlrd.C50_array_constant_fails",
    "Xlrd.C50_leaf_sheet_cell",
    "Xlrd.C50_leaf_sheet_cell_relative",
    "Xlrd.C50_leaf_sheet_area",
    "Xlrd.C50_sheets_area_text",
    "Xlrd.C50_sheets_cell_text",
    "Xlrd.C50_relative_sheet_area_fails",
    "Xlrd.C50_leaf_shared_cell",
    "Xlrd.C50_shared_formula_text",
    "Xlrd.C50_leaf_name",
    "Xlrd.C50_leaf_own_name",
    "Xlrd.C50_other_file_name",
    "Xlrd.C50_deleted_reference",
    "Xlrd.C50_constant_reference_fails",
    "Xlrd.C50_computed_reference",
    "Xlrd.C50_sheet_name_as_difference",
    "Xlrd.C50_local_name_not_quoted",
    "Xlrd.C50_text_regrouped",
    "Xlrd.C50_text_partial",
    "Xlrd.C50_function_names",
    "Xlrd.C50_leaf_offset_area",
    "Xlrd.C50_leaf_offset_cell"
   ],
   "note": "False as stated: parentheses between operators of equal precedence and around unions are lost (C50_grouping_lost, C50_union_lost), errors look like strings (C50_error_as_string), ranges of errors and calls without arguments make the reader fail (C50_range_of_error, C50_no_arguments), unknown functions leave their arguments behind (C50_unknown_function). C50_text_partial proves it for expressions grouped to the left, C50_text_regrouped says what the text denotes in all cases. Ranges and intersections are included. Leaves: constants, cells, areas, cells and areas with a sheet, cells and areas of shared formulas, relative cells and areas with a sheet in formulas of names (C50_leaf_offset_cell, C50_leaf_offset_area), names (also of other sheets, BIFF5 and later), add-in functions. Further counterexamples: tokens for array constants are taken to be a byte too long (C50_array_constant_size, C50_array_constant_fails), areas of sheets with relative coordinates and constant references of several parts make the reader fail (C50_relative_sheet_area_fails, C50_constant_reference_fails), some sheet names are not quoted (C50_sheet_name_as_difference, C50_local_name_not_quoted). C50_token_sizes_partial compares the sizes of all other tokens with the documented ones. C50_function_names compares the table of functions with the list of the file format (Spec/Functions). Missing: exactly the cases of these counterexamples."
  },
  {
   "property": "C51",
   "status": "proved",
   "theorems": [
    "Xlrd.C51_recognised",
    "Xlrd.C51_only_xls_parsed",
    "Xlrd.C51_zip_never_parsed"
   ],
   "note": "C51_recognised: `inspect_format` recognises files as described. C51_only_xls_parsed: a file recognised as another format is refused with an XLRDError that names the format, whatever parsing it would do; a file recognised as xls, or not recognised, is parsed. C51_zip_never_parsed: parsing is attempted only for files that do not start like a ZIP file."
  },
  {
   "property": "C52",
   "status": "proved",
   "theorems": [
    "Xlrd.C52_first_bof",
    "Xlrd.C52_sheet_bof",
    "Xlrd.C52_unknown_version",
    "Xlrd.C52_any_bytes"
   ],
   "note": "C52_first_bof: a well-formed BOF record of any version, found where a file starts, gives that version if the stream is one a file may start with, and is otherwise refused with an XLRDError. C52_sheet_bof: at the place of a sheet, a well-formed BOF record of a worksheet is accepted and anything else refused. C52_unknown_version: a BOF record with the code of BIFF5 and any other version number is refused where a file starts. C52_any_bytes: whatever the bytes, looking for the first BOF record gives a supported version or an XLRDError."
  },
  {
   "property": "C53",
   "status": "partial",
   "theorems": [
    "Xlrd.C53_encoding_partial",
    "Xlrd.C53_default_partial",
    "Xlrd.C53_derived_once_partial",
    "Xlrd.C53_derived_twice_differs"
   ],
   "note": "False for a BIFF8 file without CODEPAGE record and override: C53_derived_twice_differs (the first derivation leaves the encoding unset, the second sets UTF-16LE). The encoding after loading is exactly the specified one in all other cases (C53_encoding_partial), and unset or UTF-16LE in that case (C53_default_partial)."
  },
  {
   "property": "C54",
   "status": "proved",
   "theorems": [
    "Xlrd.C54_encrypted_refused",
    "Xlrd.C54_encrypted_xlrd_error",
    "Xlrd.C54_not_opened"
   ],
   "note": "C54_encrypted_refused: a FILEPASS record among the globals ends the load with an exception, whatever the rest of the file is. C54_encrypted_xlrd_error: and the exception is XLRDError if the records before it are fine, that is, if the same records without FILEPASS can be loaded. C54_not_opened: a file whose globals contain a FILEPASS record is not opened."
  },
  {
   "property": "C55",
   "status": "partial",
   "theorems": [
    "Xlrd.C55_formatting_independent_partial",
    "Xlrd.C55_blank_after_text_differs",
    "Xlrd.C55_file_partial"
   ],
   "note": "False when a cell has a BLANK record after another record: C55_blank_after_text_differs. C55_formatting_independent_partial covers every sheet in which no cell has both. C55_file_partial covers whole files: one that opens with formatting information opens without it and shows the same cells but for blank ones."
  },
  {
   "property": "C56",
   "status": "proved",
   "theorems": [
    "Xlrd.C56_display_reads_back",
    "Xlrd.C56_expand_display",
    "Xlrd.C56_cellnamerel_r1c1_reads_back",
    "Xlrd.C56_cellnamerel_nobase_reads_back",
    "Xlrd.C56_cellnamerel_a1_reads_back",
    "Xlrd.C56_mixed_base_garbled"
   ],
   "note": "C56_display_reads_back: (addresses displayed by the book): `display_cell_address` gives a text from which row and column can be read with their kinds. C56_expand_display: , C47: an address of a BIFF8 formula, expanded and displayed, reads back as the row and column that it was made from. C56_cellnamerel_r1c1_reads_back: (R1C1 notation): when R1C1 notation is requested, the text reads back as the row and column with their relative/absolute kind. C56_cellnamerel_nobase_reads_back: R1C1 notation is also used when some coordinate is relative and no base cell is given. C56_cellnamerel_a1_reads_back: (A1 notation): with a base cell, the text names the cell reached from the base (rows wrap at 65536, columns at 256) and marks exactly the absolute coordinates with `$`. C56_mixed_base_garbled: The mixed situation (base row given, base column missing, column absolute) is garbled by the code: the text for row +0 from row 4, column 7 is `C85`, which reads as column C, row 85."
  },
  {
   "property": "C57",
   "status": "proved",
   "theorems": [
    "Xlrd.C57_quoted_name_reads_back",
    "Xlrd.C57_quotedsheetname_reads_back",
    "Xlrd.C57_quoteName_injective"
   ],
   "note": "C57_quoted_name_reads_back: the quoted form of any sheet name (as it appears in formula text) reads back as that name. C57_quotedsheetname_reads_back: `quotedsheetname` on a sheet of the workbook reads back as that sheet's name. C57_quoteName_injective: different sheet names never give the same text."
  },
  {
   "property": "C58",
   "status": "proved",
   "theorems": [
    "Xlrd.C58_window_options",
    "Xlrd.C58_gridline_colour",
    "Xlrd.C58_panes"
   ],
   "note": "C58_window_options: the twelve view options and the first visible row and column are those of the last WINDOW2 record. C58_gridline_colour: the gridline colour is that of the last WINDOW2 record, and 0x40 (automatic) without one. C58_panes: the split positions, the first visible row and column of the panes and the active pane are those of the last PANE record."
  },
  {
   "property": "C59",
   "status": "proved",
   "theorems": [
    "Xlrd.C59_page_breaks"
   ],
   "note": "C59_page_breaks: with formatting information the page breaks are all those recorded, in order; without, none."
  },
  {
   "property": "C60",
   "status": "proved",
   "theorems": [
    "Xlrd.C60_default_sizes"
   ],
   "note": "C60_default_sizes: default column width, standard width, global column width flags and default row height with its options are those of the last record of each kind."
  },
  {
   "property": "C61",
   "status": "proved",
   "theorems": [
    "Xlrd.C61_ranges"
   ],
   "note": "C61_ranges: the merged ranges are all those recorded, in order, with exclusive upper bounds (with formatting information; without, none), and so are the row and column label ranges."
  },
  {
   "property": "C62",
   "status": "proved",
   "theorems": [
    "Xlrd.C62_rich_text"
   ],
   "note": "C62_rich_text: the formatting runs at a cell are those of the last cell record there that has runs: an RSTRING record, or (with formatting information) a reference to a shared string with at least one run."
  },
  {
   "property": "C63",
   "status": "proved",
   "theorems": [
    "Xlrd.C63_foreign_records_ignored"
   ],
   "note": "C63_foreign_records_ignored: two files whose worksheets differ only in unknown records and embedded substreams, and in the bytes before and after the sheet, give the same sheet in every respect, or fail alike."
  },
  {
   "property": "C64",
   "status": "proved",
   "theorems": [
    "Xlrd.C64_datemode",
    "Xlrd.C64_countries",
    "Xlrd.C64_user_name",
    "Xlrd.C64_user_name_old",
    "Xlrd.C64_user_name_override",
    "Xlrd.C64_user_name_codepage"
   ],
   "note": "C64_datemode: the date system is that of the last DATEMODE record, the 1900 system without one; whatever is loaded has date system 0 or 1. C64_countries: the countries are those of the COUNTRY record, (0, 0) without one. C64_user_name: the user name of a BIFF8 file is that of the last WRITEACCESS record without trailing white space, empty without one. C64_user_name_old: the user name of a file before BIFF8 is that of its last WRITEACCESS record without trailing white space. It is decoded in the workbook's encoding as it is known after that record or after one of those that follow. C64_user_name_override: with an `encoding_override` the user name is decoded in it. C64_user_name_codepage: in files as written by Excel 5 and 95, where no text comes before the CODEPAGE record, the user name is decoded in that codepage, although it comes before it."
  },
  {
   "property": "C65",
   "status": "proved",
   "theorems": [
    "Xlrd.C65_styles"
   ],
   "note": "C65_styles: with formatting information, `style_name_map` has for each name the last STYLE record with that name: whether it is built in, and its XF."
  },
  {
   "property": "C66",
   "status": "partial",
   "theorems": [
    "Xlrd.C66_file_partial",
    "Xlrd.C66_old_partial",
    "Xlrd.C66_biff2_partial",
    "Xlrd.C66_font_colour_left_out",
    "Xlrd.C66_earlier_sheets_count",
    "Xlrd.C66_colours_used"
   ],
   "note": "False for files before BIFF5: C66_font_colour_left_out gives a BIFF4 file with the colour of a font that is not in colour_indexes_used (the fonts are only looked at when the globals of a workbook are read), and C66_earlier_sheets_count a BIFF4 workbook where a colour of an earlier sheet stays in it. C66_file_partial proves the statement for every file of BIFF5 to BIFF8 without embedded sheet headers, from the bytes handed to the entry point; C66_old_partial and C66_biff2_partial give the exact set for BIFF3/BIFF4 files (the XF colours only) and BIFF2 files."
  },
  {
   "property": "C67",
   "status": "proved",
   "theorems": [
    "Xlrd.C67_file_cell",
    "Xlrd.C67_sheet_shows",
    "Xlrd.C67_file_partial",
    "Xlrd.C67_file_on_demand_partial",
    "Xlrd.C67_sheet_names",
    "Xlrd.C67_sheet",
    "Xlrd.C67_cell",
    "Xlrd.C67_cell_ragged",
    "Xlrd.C67_xf_index",
    "Xlrd.C67_sheet_loads",
    "Xlrd.C67_sheet_fits",
    "Xlrd.C67_shared_strings_partial",
    "Xlrd.C67_rich_text_partial",
    "Xlrd.C67_text_encoding"
   ],
   "note": "C67_sheet_fits: a sheet that is returned lies within the limits of its version. C67_cell_ragged: with ragged_rows. C67_xf_index: XF indexes with the row and column defaults. C67_cell and C67_file_cell: the latter starts from the bytes of a whole file, plain or compound document. C67_file_partial and C67_file_on_demand_partial (total correctness, the hypotheses and the result in terms of the file alone): a well-formed file whose sheets fit opens and each of its sheets shows what its records say; partial only in the limits on shared strings (C26) and in what Openable (C80) covers. The text of a LABELSST record is taken from the table of shared strings as it was read; that this is the table of the file is C67_shared_strings_partial, with the limits of C26, where C26 counts as partial."
  },
  {
   "property": "C68",
   "status": "partial",
   "theorems": [
    "Xlrd.C68_streams_partial",
    "Xlrd.C68_missing",
    "Xlrd.C68_late_entry"
   ],
   "note": "False for a stream of at least the minimum size whose directory entry has number 250 or more: C68_late_entry (OverflowError from the bytearray that marks used sectors). C68_streams_partial proves the statement for streams with a smaller number, C68_missing the paths that do not exist."
  },
  {
   "property": "C69",
   "status": "partial",
   "theorems": [
    "Xlrd.C69_sheetrange_reads_back_partial",
    "Xlrd.C69_rangename3d_reads_back_partial",
    "Xlrd.C69_rangename2drel_a1_reads_back",
    "Xlrd.C69_rangename2drel_r1c1_reads_back",
    "Xlrd.C69_rangename3drel_a1_reads_back_partial",
    "Xlrd.C69_rangename3drel_r1c1_reads_back_partial",
    "Xlrd.C69_special_names_not_quoted"
   ],
   "note": "False for sheet names with an exclamation mark or colon (and no blank or quote), which are not quoted: C69_special_names_not_quoted. Proved for all other sheet names (ClearName)."
  },
  {
   "property": "C70",
   "status": "proved",
   "theorems": [
    "Xlrd.C70_names_evaluated",
    "Xlrd.C70_name_areas",
    "Xlrd.C70_cell",
    "Xlrd.C70_area2d",
    "Xlrd.C70_old_name_areas",
    "Xlrd.C70_old_cell",
    "Xlrd.C70_old_area2d"
   ],
   "note": "C70_names_evaluated ties the evaluation to the loading of the book; C70_name_areas gives the value (C70_old_name_areas for BIFF5 and BIFF7). Non-worksheets and external books are outside the statement (see C46 for their codes)."
  },
  {
   "property": "C71",
   "status": "partial",
   "theorems": [
    "Xlrd.C71_hyperlink_list_partial",
    "Xlrd.C71_hyperlink_map_partial",
    "Xlrd.C71_astral_url_fails",
    "Xlrd.C71_relative_string_lost"
   ],
   "note": "False for URLs with characters beyond the basic plane (C71_astral_url_fails: the record is refused) and for relative paths stored as strings (C71_relative_string_lost). Proved for all other links."
  },
  {
   "property": "C72",
   "status": "partial",
   "theorems": [
    "Xlrd.C72_notes_partial",
    "Xlrd.C72_divided_character_fails",
    "Xlrd.C72_box_zero_lost",
    "Xlrd.C72_box_before_object_fails"
   ],
   "note": "False for a character divided over two records (C72_divided_character_fails), for text boxes with object number 0 (C72_box_zero_lost) and before any object (C72_box_before_object_fails). Proved for all other sheets."
  },
  {
   "property": "C73",
   "status": "partial",
   "theorems": [
    "Xlrd.C73_file",
    "Xlrd.C73_one_sheet",
    "Xlrd.C73_sheet",
    "Xlrd.C73_cell_partial",
    "Xlrd.C73_no_formats",
    "Xlrd.C73_settings",
    "Xlrd.C73_formats",
    "Xlrd.C73_xf_list",
    "Xlrd.C73_fonts",
    "Xlrd.C73_colours",
    "Xlrd.C73_styles",
    "Xlrd.C73_not_at_start"
   ],
   "note": "False without FORMAT records: C73_no_formats (numbers then have type text), and for a stream that does not start at byte 0: C73_not_at_start. C73_sheet reduces the sheet to its own records, so that C31, C39, C40, C58-C63, C71 and C72 apply. Assumes that no FORMAT or XF record follows a STYLE record. C73_cell_partial gives every cell of a file with FORMAT records."
  },
  {
   "property": "C74",
   "status": "partial",
   "theorems": [
    "Xlrd.C74_file",
    "Xlrd.C74_one_sheet",
    "Xlrd.C74_settings",
    "Xlrd.C74_fonts",
    "Xlrd.C74_colours",
    "Xlrd.C74_formats",
    "Xlrd.C74_xf_list",
    "Xlrd.C74_sheet_settings",
    "Xlrd.C74_window_partial",
    "Xlrd.C74_window_options_lost",
    "Xlrd.C74_cell",
    "Xlrd.C74_rows_partial"
   ],
   "note": "False for the options of the WINDOW2 record: C74_window_options_lost; rows lack their outline level, hidden flag and others (field unset in C74_rows_partial). C74_cell assumes at least one FORMAT record, as C73. C74_fonts covers the colours in EFONT records (fontColours, Spec/Biff2); an EFONT record with no FONT record before it is outside B2File.Ok."
  },
  {
   "property": "C75",
   "status": "partial",
   "theorems": [
    "Xlrd.C75_cell_partial",
    "Xlrd.C75_xf_count",
    "Xlrd.C75_formats",
    "Xlrd.C75_row_index_fails"
   ],
   "note": "False with formatting information for a ROW record that names an XF: C75_row_index_fails (TypeError). C75_cell_partial holds for every file that opens, with the numbers of the XFs given by attrNumber; C74_file, C74_one_sheet, C74_settings, C74_fonts, C74_colours, C74_sheet_settings and C74_window_partial hold for these files too."
  },
  {
   "property": "C76",
   "status": "partial",
   "theorems": [
    "Xlrd.C76_file",
    "Xlrd.C76_names",
    "Xlrd.C76_sheets",
    "Xlrd.C76_missing_sheet",
    "Xlrd.C76_sheet",
    "Xlrd.C76_cell_partial",
    "Xlrd.C76_settings",
    "Xlrd.C76_last_formatting",
    "Xlrd.C76_last_fonts"
   ],
   "note": "Needs a worksheet for each BOUNDSHEET name (C76_missing_sheet otherwise) and, for dates, XFs whose format is described by an earlier FORMAT record of the sheet (C76_cell_partial); as in C73 no FORMAT or XF record follows a STYLE record. C76_last_formatting and C76_last_fonts: format_map, xf_list and font_list of the book are those of the last sheet only, so that xf_index of a cell of an earlier sheet cannot be looked up there."
  },
  {
   "property": "C77",
   "status": "partial",
   "theorems": [
    "Xlrd.C77_one_result",
    "Xlrd.C77_sheet_ends",
    "Xlrd.C77_old_sheet_ends",
    "Xlrd.C77_inner_loops_end",
    "Xlrd.C77_globals_end_partial",
    "Xlrd.C77_endless_file"
   ],
   "note": "False for BIFF4 workbooks: C77_endless_file (44 bytes; a SHEETHDR record with a negative length leads back to the name of its sheet, so the code goes on until memory is exhausted). C77_globals_end_partial covers all files without a SHEETHDR record of negative length; the loops over worksheets and within records end without condition. Chains of sectors are C20-C22, formulas C49."
  },
  {
   "property": "C78",
   "status": "partial",
   "theorems": [
    "Xlrd.ExprSample.C78_division_by_zero",
    "Xlrd.ExprSample.C78_no_arguments",
    "Xlrd.ExprSample.C78_choose_unknown",
    "Xlrd.ExprSample.C78_array",
    "Xlrd.ExprSample.C78_minus_error",
    "Xlrd.ExprSample.C78_plus_text",
    "Xlrd.C78_old_name_value_partial",
    "Xlrd.C78_name_value_partial",
    "Xlrd.C78_one_value"
   ],
   "note": "False for division by zero (C78_division_by_zero: the workbook cannot be opened), constant arrays (C78_array), calls without arguments of functions with a variable number of them (C78_no_arguments), CHOOSE by a sum (C78_choose_unknown), a sign before an error value or text (C78_minus_error, C78_plus_text). C78_name_value_partial (and C78_old_name_value_partial for BIFF5 and BIFF7) covers all other formulas without relative references, provided the workbook opens; C78_one_value: the specification gives at most one value. Arithmetic, comparison, float() and str() of numbers are Python's (PyCalc)."
  },
  {
   "property": "C79",
   "status": "partial",
   "theorems": [
    "Xlrd.C79_dump",
    "Xlrd.C79_records_exist",
    "Xlrd.C79_counts_partial",
    "Xlrd.C79_dump_file",
    "Xlrd.C79_count_file_partial",
    "Xlrd.C79_padding"
   ],
   "note": "False for count_records if a stream in a compound document is padded with zeros: C79_padding (the zeros are compared with all that follows in the file, so they are counted as records). C79_counts_partial and C79_count_file_partial cover streams without such zeros, and all plain files; C79_records_exist: every stream has a list of records. C79_dump and C79_dump_file have no such limit; if the last record claims more bytes than the stream has, the dump shows bytes after the stream as well and says so."
  },
  {
   "property": "C80",
   "status": "partial",
   "theorems": [
    "Xlrd.C80_globals_partial",
    "Xlrd.C80_opens_partial",
    "Xlrd.C80_eager_partial",
    "Xlrd.C80_opens_all_partial",
    "Xlrd.C80_file_opens_partial",
    "Xlrd.C80_opens_iff_partial",
    "Xlrd.C80_file_opens_iff_partial",
    "Xlrd.C80_chart_local_name_fails"
   ],
   "note": "False for a name that uses a name belonging to a chart sheet: C80_chart_local_name_fails (IndexError). C80_eager_partial is the second half of the statement, for files whose sheets do not set the countries of the book (see C41); C80_opens_iff_partial and C80_file_opens_iff_partial say exactly when a well-formed workbook opens with all its sheets. The partial theorems cover workbooks whose names are macros, binary data, without formula, have formulas of references, absolute or relative (C70, C85, also the ranges that C85 shows to have no value), or have formulas of the kind of C78 that are safe (no division by zero, functions with a right number of arguments, see Spec/Computable), nested at most ten deep, in BIFF5 to BIFF8; formulas with other tokens can fail (see the counterexamples of C78) and are not covered. Strings of the shared table must be SStr.Handled (C26)."
  },
  {
   "property": "C81",
   "status": "proved",
   "theorems": [
    "Xlrd.C81_opens_iff"
   ],
   "note": "C81_opens_iff, with the conditions on records in Spec/OldOpen (OldOpenable) and Spec/OldFile (OldWorkbook), those on cells in CellsFit."
  },
  {
   "property": "C82",
   "status": "proved",
   "theorems": [
    "Xlrd.C82_on_demand_steady",
    "Xlrd.C82_iteration",
    "Xlrd.C82_subscripts",
    "Xlrd.C82_on_demand"
   ],
   "note": "C82_iteration: books with all their sheets, all versions. C82_on_demand: books opened on demand, any file; a sheet is read while the book holds some countries, on which the outcome can depend (see C41); C82_on_demand_steady is the form for files in which it does not. The number of a sheet is the index it was first asked for with. C82_subscripts: subscripts and iteration of sheets."
  },
  {
   "property": "C83",
   "status": "proved",
   "theorems": [
    "Xlrd.C83_opens_iff",
    "Xlrd.C83_opens_without_xfs_iff"
   ],
   "note": "C83_opens_iff for files with XF records, C83_opens_without_xfs_iff for files without; the conditions on records are in Spec/OldOpen (OldOpenable), Spec/Biff2 (B2Workbook) and Spec/OpenB2, those on cells in CellsFit."
  },
  {
   "property": "C84",
   "status": "partial",
   "theorems": [
    "Xlrd.C84_opens_iff_partial",
    "Xlrd.C84_two_palettes"
   ],
   "note": "False with formatting_info=True if two sheets have PALETTE records: C84_two_palettes (AssertionError; initialise_format_info does not reset the palette). C84_opens_iff_partial covers workbooks with at most one PALETTE record; the conditions on records are in Spec/OpenW (WOpenable), those on names in NamedSheets, those on cells in CellsFit."
  },
  {
   "property": "C85",
   "status": "partial",
   "theorems": [
    "Xlrd.C85_relative_areas_partial",
    "Xlrd.C85_old_relative_areas_partial",
    "Xlrd.C85_unlike_areas_lost"
   ],
   "note": "False for a range or an intersection of two areas of which different bounds are relative: C85_unlike_areas_lost (the result has no value, and if only one of them is relative Name.cell raises TypeError). C85_relative_areas_partial (BIFF8) and C85_old_relative_areas_partial (BIFF5 and BIFF7) cover all other expressions (RelVal in Spec/RelExpr). Rows and columns are counted without wrapping around at the edges of the sheet."
  },
  {
   "property": "C86",
   "status": "proved",
   "theorems": [
    "Xlrd.C86_number_as_tuple",
    "Xlrd.C86_number_as_time",
    "Xlrd.C86_number_as_datetime",
    "Xlrd.C86_number_as_early_datetime",
    "Xlrd.C86_date_cell",
    "Xlrd.C86_date_cell_old",
    "Xlrd.C86_date_cell_biff2",
    "Xlrd.C86_date_cell_attributes",
    "Xlrd.C86_date_cell_biff4w"
   ],
   "note": "ShowsDate (Spec/DateCells) says what a date cell shows; C86_date_cell for BIFF5 to BIFF8, C86_date_cell_old for BIFF3 and BIFF4, C86_date_cell_biff2 and C86_date_cell_attributes for BIFF2 with and without XF records, C86_date_cell_biff4w for BIFF4 workbooks. The hypotheses on the files are those of C67, C73, C74, C75 and C76. Days before the first unambiguous one (see C02): C86_number_as_early_datetime."
  },
  {
   "property": "C87",
   "status": "partial",
   "theorems": [
    "Xlrd.C87_padded_name",
    "Xlrd.C87_user_name_biff8",
    "Xlrd.C87_user_name_biff57",
    "Xlrd.C87_no_user_name_biff57",
    "Xlrd.C87_user_name_old_partial",
    "Xlrd.C87_user_name_old",
    "Xlrd.C87_user_name_biff2",
    "Xlrd.C87_user_name_biff2_partial",
    "Xlrd.C87_no_user_name_old",
    "Xlrd.C87_no_user_name_biff2",
    "Xlrd.C87_user_name_biff4w",
    "Xlrd.C87_no_user_name_biff4w",
    "Xlrd.C87_user_name_left_raw"
   ],
   "note": "False for files before BIFF5 without any text: C87_user_name_left_raw (user_name is then the bytes of the record). C87_user_name_biff8, C87_user_name_biff57 and C87_user_name_biff4w are the whole statement for the later versions and for BIFF4 workbooks; C87_user_name_old and C87_user_name_biff2 say for all other old files that the name is decoded as stated or else Book.encoding is None and user_name is the data of the record; with a FORMAT or CODEPAGE record it is decoded (the _partial theorems). The C87_no_user_name theorems are about files without the record. The number k says up to which record the CODEPAGE records count; C64_user_name_codepage settles it for the usual order."
  },
  {
   "property": "C88",
   "status": "partial",
   "theorems": [
    "Xlrd.C88_nothing_left_open_partial",
    "Xlrd.C88_with_block_partial",
    "Xlrd.C88_open_while_needed_partial",
    "Xlrd.C88_release_again",
    "Xlrd.C88_same_result",
    "Xlrd.C88_empty_file",
    "Xlrd.C88_zip_left_open",
    "Xlrd.C88_mapping_closed",
    "Xlrd.C88_dump_partial",
    "Xlrd.C88_dump_left_open"
   ],
   "note": "False for ZIP files (C88_zip_left_open: the ZipFile object made to look at the names is dropped without being closed), for a mapping passed by the caller as file_contents (C88_mapping_closed: it is closed too), and for dump and count_records (C88_dump_left_open: the mapping is left to the garbage collector; C88_dump_partial: nothing else is). C88_nothing_left_open_partial, C88_with_block_partial and C88_open_while_needed_partial cover everything else; C88_same_result and C88_release_again hold without condition. Model/Resources has the functions of Model/Open once more with what they open and close; C88_same_result shows that both models give the same result."
  },
  {
   "property": "C89",
   "status": "partial",
   "theorems": [
    "Xlrd.C89_decompiled_partial",
    "Xlrd.C89_result_text_partial",
    "Xlrd.C89_workbook_partial",
    "Xlrd.C89_relative_lost",
    "Xlrd.C89_macro_lost",
    "Xlrd.C89_relative_area_partial",
    "Xlrd.C89_relative_cell_partial",
    "Xlrd.C89_sheets_area_partial",
    "Xlrd.C89_sheets_cell_partial",
    "Xlrd.C89_relative_workbook_partial",
    "Xlrd.C89_old_relative_workbook_partial"
   ],
   "note": "False for references without a sheet (C89_relative_lost: the text is \"?\") and for functions of add-ins and macros (C89_macro_lost: name.result is None). C89_decompiled_partial covers any byte strings: the text is that of decompile_formula, for names without errors; relative references with a sheet in the R1C1 style. C89_result_text_partial joins it with C50 for the meaning of the text, also for expressions with relative references that have sheets; C89_workbook_partial starts from the records of a BIFF5 to BIFF8 workbook. C89_relative_area_partial, C89_relative_cell_partial, C89_relative_workbook_partial and C89_old_relative_workbook_partial: the text of a relative reference reads back as exactly the stored sheets and offsets; C89_sheets_area_partial and C89_sheets_cell_partial: the same for absolute references on ranges of sheets. Missing besides: what C50 does not have."
  },
  {
   "property": "C90",
   "status": "proved",
   "theorems": [
    "Xlrd.C90_formats",
    "Xlrd.C90_no_xfs",
    "Xlrd.C90_types_agree",
    "Xlrd.C90_old_formats",
    "Xlrd.C90_biff2_formats",
    "Xlrd.C90_biff4w_formats"
   ],
   "note": "C90_formats: workbooks of BIFF5 to BIFF8 with an XF record, from the stream; C90_no_xfs: without; C90_types_agree: the types of the built-in formats agree with their strings; C90_old_formats, C90_biff2_formats, C90_biff4w_formats: files before BIFF5."
  },
  {
   "property": "C91",
   "status": "proved",
   "theorems": [
    "Xlrd.C91_cell_repr",
    "Xlrd.C91_cell_repr_exists",
    "Xlrd.C91_row_pickle"
   ],
   "note": "C91_cell_repr: Cells with the same `repr` have the same type and XF index, and values with the same `repr`. C91_cell_repr_exists: Every cell with one of the seven types has a `repr`. C91_row_pickle: A `Rowinfo` restored from a pickle has the attributes of the one that was pickled, whatever it had before."
  },
  {
   "property": "C92",
   "status": "partial",
   "theorems": [
    "Xlrd.C92_sheet",
    "Xlrd.C92_cells_partial",
    "Xlrd.C92_number_as_text",
    "Xlrd.C92_cells_have_repr",
    "Xlrd.C92_old_cells_partial"
   ],
   "note": "C92_cells_partial: files of BIFF5 to BIFF8, any bytes, any history of calls. C92_old_cells_partial: all older files, any bytes, any history of calls, with one exception: a number may have the type of text. That the exception happens is C92_number_as_text (an XF with a format that the file does not describe), so the full statement is false before BIFF5. C92_sheet: any sheet, given what types numbers can get. C92_cells_have_repr: with C91, every cell of BIFF5 and later can be printed."
  }
 ]
}