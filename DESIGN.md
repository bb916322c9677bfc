# xlrd: formal model and proofs

The subject is `python-excel/xlrd` as found in `/repo/xlrd`.  It is read as text; nothing is built or run.
The model is a Lean 4 development under `lean/Verif`, checked by `lake build`.

## Shape of the development

| Part | Contents |
|---|---|
| `Verif/Model/*.lean` | executable model, one definition per Python function (or per branch group), each citing file and lines |
| `Verif/Spec/*.lean`  | small independent specifications (encoders, abstract cell maps, calendars, parsers); they do not use the model's helpers |
| `Verif/Lemmas/*.lean` | helper lemmas |
| `Verif/Props/*.lean` | the property theorems, with a non-vacuity `example` beside each |

Conventions of the model

* Python exceptions are values: functions return `Except PyErr a`; the message text is dropped, the class is kept.
* `bytes` is `List UInt8`; Python slicing (`b[i:j]` with any integers) and indexing (negative allowed, IndexError) are modelled by `Py.slice` and `Py.idx`.
* `struct.unpack` of a fixed layout raises `struct.error` unless the length is exact, then fields are little-endian reads.
* `str` is `List Char`.  The `utf_16_le` and `latin_1` decoders are modelled exactly (strict error handling); other codecs are a parameter.
* Floats: a finite binary64 value is its exact rational value; every arithmetic operation of the code is followed by an explicit round-to-nearest-even to 53 bits (`Model/Float.lean`).  The sign of zero is not modelled.
* Loops are structural recursion over data where the code iterates over data, otherwise recursion on an explicit fuel; running out of fuel is a separate outcome and termination claims say it does not happen (or, where the code can hang, that it happens for every fuel).
* Logging (`print >> logfile`, verbosity) is not modelled except where it can raise.

## Plan per property

C01-C08 (dates): `xldate.py` function by function over integers and rationals with binary64 rounding.  The reference calendar is an independent day count (sum of month and year lengths).  Linear integer arithmetic over the Julian-day formulas; relative-error bounds for the time of day.

C09-C11 (names): `colname` (both versions), `cellname`, `cellnameabs`, `rangename2d`.  Specification is a parser from text to coordinates; round trip proved by induction on digits.

C12-C15, C55 (cell store): `put_cell_ragged`, `put_cell_unragged`, `tidy_dimensions` over lists of rows, with the first-full-row variable.  Refinement to an abstract finite map by induction over the history of writes.

C16-C19 (accessors, defaults): accessors over a sheet state with Python slicing; decision logic for XF index and column width.

C20-C24 (compound documents): `_get_stream`, `_locate_stream`, `_dir_search`, `_build_family_tree`, `locate_named_stream`, `get_named_stream`.  Chains as an inductive relation; marks as a list; termination by counting unmarked sectors.  C22 is expected to fail for short streams (no marks are kept for the short-stream table): to be shown by a witness.

C25 (records): `get_record_parts(_conditional)` against a concatenating encoder.

C26-C29 (strings): decoders against encoders with arbitrary splits.  C29 is expected to fail outside the basic plane (lengths are counted in code points): witness and partial theorem.

C30 (RK): all four encodings against a direct reading of the bits.

C31, C34, C39, C40, C55 (sheet records): the record dispatch of `Sheet.read` as a step function.

C32: decoder against encoder, by induction on the list.

C33: the scanner of `is_date_format_string` as functions over character lists.

C35-C38: `handle_xf`, `handle_font`, `initialise_colour_map`, `handle_palette`, `nearest_colour_index`.

C41-C45, C51-C54 (book): state machine of the `Book` object; decision logic of `getbof`, `derive_encoding`, `inspect_format`, `open_workbook`.

C41, C42 by simulation: an abstract life of a book (which sheets are loaded, whether resources are released) predicts the replies to every sequence of calls.  Reading a sheet has one lasting effect on the book: a COUNTRY record in it sets the book's countries if they are not set, and must agree with them otherwise.  The predictions therefore need that no sheet sets them (`SheetsKeepCountries`, in terms of `sheet_by_index` on a book that has just been opened); `C41_named_countries` and `C41_wellformed_sheets` give two sufficient conditions, `C41_returned_sheet` is what remains without it.  C67 composes C52, C43, C34, C31, C12 and C41 from the bytes of a workbook stream to the cells, C12, C15 for ragged rows, C18 and C39 to the XF indexes with the defaults of rows and columns, and C26, C62 to the runs of formatted text.

C46-C50 (formulas): address decoding, box operators, the token loops with an explicit operand stack.  The table of functions is compared with a list of the functions of the file format written down independently (Spec/Functions, `C50_function_names`; the functions 92, 204 and 368 to 379 are not in that list).  C46 follows the EXTERNSHEET and SUPBOOK records from the file to the sheet range, and the EXTERNNAME records to the names of add-in functions.  C49: a measure for the loops, the level for names that use names, and a frame argument (operands below those a token needs are neither read nor changed).  C50: a grammar for formula texts (Spec/FormulaText: a reader of symbols, precedence levels, all binary operators grouped to the left), shown to be unambiguous; stored expressions with their tokens; the text made from the tokens of an expression denotes the expression with operators of equal precedence regrouped to the left, hence the expression itself if no right operand has the precedence of its operator.  The range operator and the intersection (a space) are operators of the grammar; the union, ranges with an error as operand, functions outside of the table and calls without arguments of functions with a variable number of arguments are outside of the theorem, with counterexamples.  `str` of numbers is a parameter, assumed to give a single word for the numbers in the formula.  Leaves with sheets and names: Spec/FormulaSheets, Props/FormulaSheets; areas of shared formulas, names before BIFF8 and add-in functions: Props/FormulaShared; the sizes of all tokens are compared with a table by token and version (`C50_token_sizes_partial`, array constants excepted).

C58-C63 (sheet settings): the record loop of `Sheet.read` refined to a list of items (settings, cells, foreign records), then the value of each attribute as a function of that list.

C64-C66 (settings, styles, colours in use): the record loop of `parse_globals` refined to a list of items, then the value of each attribute as a function of that list.  The user name of a file before BIFF8 may have to wait for the encoding: an invariant says that it waits only while there is none, and the theorems say in which encoding it is decoded.  C66 is proved as an invariant over arbitrary bytes for the globals of a workbook, and for whole files (Spec/Colours, Props/ColoursUsed) from the bytes handed to the entry point; for files before BIFF5 it is false and the exact set is given instead.  C36 is carried to whole files of every version in the same place (`C36_numbering_file`).

C55, C67 (whole files, Spec/Whole, Props/Whole): with C80 (what opens) the cell theorems become statements about the file alone: `SheetShows` says what a user sees of a sheet, `numberType` which numbers are dates, `SameSheet` what formatting information changes; a well-formed file whose sheets fit opens and shows just that.

C68 (well-formed containers): an encoder-style description of a compound document (Spec/Container: header, table sectors, directory entries, streams) and a proof that the opening code finds each table and each stream; marks are followed as an invariant (sectors used so far).  Files that end within the last sector of a stream, master tables with entries for sectors after the end of the file, and the marks -1, -4 and 0 for "no extension" are included.  C67 is composed with it, so that it starts from the bytes of a file.

C69 (references with sheet names): a reader for references (Spec/Names3, written from the formula syntax) applied to the text.

C70 (what names refer to): an expression type for references with its token encoding and its meaning (Spec/RefExpr); the token loop is followed by induction on the meaning, and the table of evaluated names by an invariant over the recursion through names (`evaluateName_inv`).  BIFF5 and BIFF7, where a reference holds the numbers of its sheets itself, have the same theorems over Spec/OldRefExpr (`C70_old_*`).  Props/Display has readers of the displayed relative addresses: `C56_display_reads_back` says that the offsets can be read back from the text, so different offsets have different texts.

C71 (hyperlinks), C72 (notes): the records as a writer lays them out (Spec/Drawing) and, for each, that the handler reads it to the end and yields its value (Lemmas/Hyperlinks, Lemmas/Notes); they are further items of a worksheet, so every theorem about worksheets (C31, C39, C58-C63, C67) holds with them in between.  The map of links and the table of text boxes by an invariant over the items.

C73 (files of BIFF3 and BIFF4): the record loop of `Sheet.read` with the records that act on the book (Model/OldSheet) is shown to do the book records in their order as `parse_globals` would, and the other records as in a worksheet of a later version (Lemmas/OldHead, OldLoop, OldRead); then the theorems on the parts apply.

C74, C75 (files of BIFF2): the same record loop with the cell records of BIFF2 and their three bytes of attributes (Spec/Biff2).  Each record is followed to its effect (Lemmas/Biff2Record, Biff2Step); for files without XF records an invariant says that the list of XFs, the cache from attributes to XF numbers and the table of types agree (Lemmas/Biff2Xf), and that the numbers are those of a small specification in the order of first use (`attrNumber`, Spec/Biff2); it is carried through the records (Lemmas/Biff2Body, Biff2File).  Fields of the sheet by induction over the items (Lemmas/Biff2Fields).  An EFONT record gives the colour of the font before it: the book read is the one without these records with other colours in its list of fonts (`Painted`, Lemmas/Efont), and `fontColours` (Spec/Biff2) says which.

C76 (BIFF4 workbooks): Spec/Biff4w describes the file as parts (records of the globals, then a worksheet with its header).  An invariant says what the book holds after any records, whether of the globals or of a sheet (Lemmas/Biff4w, `WInv`); one part is followed through `handle_sheethdr` with the theorem about old worksheets (`old_file`), and the record loop by induction over the parts.  An invariant relates XFs, formats and the table of types within a sheet (Lemmas/Biff4wTypes).

C77 (loading ends): Spec/Loop says without any fuel what it means that a loop is left after n passes.  For every loop of the model one pass is given as a function of its own, and the fuelled loop of the model is shown to be the loop of these passes: the position after a pass is at least four bytes further on, and a pass needs four bytes (Lemmas/Loops).  The exception are SHEETHDR records with a negative length: for a file of 44 bytes no number of passes is enough.
C78 (values of names): Spec/NameExpr has expressions with their BIFF8 tokens and an inductive relation HasVal between expressions and values; names are looked up in a function from numbers to formulas, so that the relation does not mention evaluation order.  `Agree` says that an operand on the stack has the value of an expression if there is one and otherwise none.  For each token a lemma says that it keeps this (Props/NameExpr, Props/NameExprRun), induction on well-formed expressions gives the whole formula, and the invariant of C70 over the table of evaluated names gives all names.  The lemmas do not fix the table of token sizes, so Props/NameExprOld uses them for BIFF5 and BIFF7 too; Spec/OldNameExpr has the form in which these versions store the same expressions.

C79 (dumps): Spec/Dump has a reader for dumps (`readDump`) that checks every line - position, digits, characters, names, lengths - and gives the bytes back.  C79_dump: an invariant of the loop of `biff_dump` says that what has been written reads as the stream up to the position, except zeros that are still to be written.  Counting: the relation RecordNames says what the records of a stream are; the loop refines it, the dictionary holds the counts, sorting gives strictly increasing names.

C80 (opening succeeds): Spec/Openable gives the well-formed form of each kind of record (`Readable`), the conditions on codecs and scopes (`Openable`) and on names (`NamesFine`).  Each handler succeeds on its record (Lemmas/OpenOk); the loop of parse_globals goes on by induction over the records, with an invariant that keeps names, fonts and maps in step with what has been read.  Evaluation of names (Lemmas/NamesOk, Lemmas/NamesOkOld for BIFF5 and BIFF7) succeeds by induction on the level of a name and on its expression.  Names may also have formulas of the kind of C78 (constants, operators, functions, IF, CHOOSE) that are `Safe` (Spec/Computable): each operation on known values has a result in Python (`PyCan`), functions have as many arguments as they take, range and intersection are applied to single areas, the index of CHOOSE is not a number without a value.  One step of the evaluation of each token succeeds (Lemmas/NameSteps); together with the theorem of C78 on what the tokens leave on the stack this gives the evaluation of the whole formula, and an induction on the level of names gives that of all names (Lemmas/NameProgress).  Other names of the same workbook may be expressions of references of which some are relative (`RelEvaluable`, Spec/RelExpr): each token succeeds on the areas that C85 says are on the stack, and names are nested at most ten deep (`RelNest`, Lemmas/RelProgress).  Texts in formulas of BIFF5 and BIFF7 are decoded with the codec of the last CODEPAGE record (Lemmas/EncKept).  C80_eager_partial is an induction over the sheet numbers.  C80_opens_iff_partial and C80_file_opens_iff_partial state when a workbook opens with all its sheets in terms of the file alone: the XFs with a known cell type are XF 0 and those of the file (`KnownInv`, an invariant over the records), the shared strings are those of the last SST record, and from BIFF8 on the form of a sheet does not depend on the codec.

C81 (opening files of BIFF3 and BIFF4): Spec/OldOpen gives the well-formed form of the records about the whole file (`OldReadable`, most of them as in C80) and the conditions on cells (`CellsFit`).  Lemmas/OldOpenOk turns the implications of C73 (what a file that opens holds) into equations: every step of the loop over the records succeeds if the handler of the record does; the records about the whole file do by induction (as in C80), the settings and cells of the sheet do exactly if the cells can be stored (C12).  The XFs with a known cell type are those of the file and XF 0 (`KnownInv`, an invariant over the records).

C82 (iterating): a program is a list of steps, each a call of C41 or a request to one of its iterators (`Spec.Step`).  An iterator is the state of the generator of `Book.__iter__`; making one has no effect, since the body of a generator runs only at the first request.  For books with all their sheets the list of sheets is an invariant of all calls except `unload_sheet`; for books opened on demand the simulation of C41 is extended by iterators, with the invariant that after `m` requests an iterator is at sheet `m`, or at its end.  `C82_on_demand` does without the simulation: what a book holds is read with some countries (`Held`), for every file.

C83 (opening files of BIFF2): as C81, with Lemmas/Biff2Ok for the records of BIFF2.  An invariant (`B2Can`) links the XFs and cell types made up so far to the attributes read so far; it gives, for each record, the index of its XF, and with it exactly when the cell can be stored.  Since the number of an attribute does not change when further ones follow, the conditions can be stated with the numbers of the finished file (C75).

C84 (opening BIFF4 workbooks): one induction over the sheets (`w_loop_iff`) with an invariant (`WOk`) that holds after every record, be it of the globals or of a sheet: the encoding is the one of the last CODEPAGE record, the names are those of the BOUNDSHEET records so far, there are no name objects, and what C80 needs of the rest.  For each sheet `sheethdr_next` and `sheethdr_ok` show that its SHEETHDR record is dealt with exactly if its name is right and its cells fit.

C85 (names with relative references): an expression has a list of moving areas as its value, that is, functions from the cell in which the name is used to an area, with the bounds that move (Spec/RelExpr).  The token loop is followed by induction on that relation, for the three versions at once; that a range of two references with the same flags, counted from a cell, is the range of what they mean there is `follow_box`.  What is lost otherwise is `lost_kept`.

C86 (dates in cells): the theorems on whole files (C67, C73 to C76) say what type and number a cell has and what the date mode is.  That a number nearer than half a second (or millisecond) to that of a day and second is converted to that day and second follows from the bounds on what the binary64 arithmetic loses (`total_eq`, `secOf_near`, `datetime_near`): two integers less than 1 apart are equal.

C87 (user name): an invariant over the records (`NameAt`, `WaitInv`) says that the name is either still the bytes of the last WRITEACCESS record, and then there is no encoding yet, or their text in the encoding of that moment; after a FORMAT or CODEPAGE record there is an encoding (`text_enc`), and reading the cells changes nothing if the name is decoded (`UserSame`). For the old files and BIFF4 workbooks the invariant is `UserHist`, kept by the records of the file and by every cell that needs an encoding.

C88 (files and mappings): `Model/Resources` repeats the functions that open files, now with the set of open files and mappings of the process (`World`) and the attributes `mem` and `filestr` of the book (`Keeps`); what the system answers is a parameter. An invariant (`OwnMap`) says that a book holds nothing or exactly one mapping, which it has opened itself; it holds at every exit of `biff2_8_load`, is kept by every call, and releasing gives back the set of before. `C88_same_result` shows that the results are those of `Model/Open`.

C89 (texts of names): a simulation between the loop of `evaluate_name_formula` and that of `decompile_formula`: the stacks have the same length and wherever the decompiler has an operand the evaluator has one of the same rank and text (`SameTexts`); flags only go from false to true, so the conditions on the end hold at every token. The result is kept as an invariant of the table of names while names are evaluated in any nesting, and C50 says what the text denotes. For relative references with a sheet the text (R1C1 style) is read back by the reader of C69: it gives the stored sheets and coordinates, offsets as offsets. Such references are also leaves of expressions (`Props/RelLeaf`), so that the text of an expression with relative references denotes the stored expression.

C90 (formats of a workbook): `format_map` after the loop over the records is a function of the FORMAT records and of whether an XF record came (`formats_items`); the built-in entries are compared, for all 82 numbers that can have one, with strings put together in `Spec/Tables.lean` from their documented parts. The default colours (C37) are compared with the hexadecimal lists there. These comparisons are finite because the tables are; the theorems that use them are about every file.

C91 (representations): `Cell.__repr__` over any `repr` of values with the facts of `PyRepr`; the type ends at the first colon and the XF index begins after the last one, so that both can be read off any text of the value between them. The states of `Rowinfo` are lists of ten values.

C92 (types and values): an invariant of the lists of types and values (`Kinds`: same shape, and `CellOk` cell by cell) that `put_cell` and `tidy_dimensions` keep, and so every record of a sheet; beside it an invariant of the book (`TypesKnown`: the table of XF types has numbers and dates only), kept by all records of BIFF5 and later and by all calls. The specification is the table of types in the documentation. The same lemmas, over any relation that includes the table (`Weaker`), serve for files before BIFF5, where the relation also allows numbers of the type of text (`Props/OldCellKinds`).

No property of the list is considered inexpressible at this point.

## Trusted base

* Lean 4.33.0's kernel and the parts of Mathlib imported (all checked by that kernel).  `decide +kernel` is used for finite case distinctions inside proofs and for concrete witnesses; it is kernel reduction, no compiled code.
* Axioms: every theorem in `Verif/Props` depends on at most `propext`, `Classical.choice`, `Quot.sound`.  None is added, there is no `sorry`, no `native_decide`, no `bv_decide`.
* That the model says what the Python says.  Each definition cites the lines it models; simplifications are named in its comment.
* Python semantics used by the model: slicing, indexing, integer floor division, `struct.unpack`, the `utf_16_le` and `latin_1` decoders (`Model/Py.lean`, `Model/Codec.lean`), binary64 arithmetic as round-to-nearest-even of the exact result (`Model/Float.lean`).  `Lemmas/PySemantics.lean` proves that the definitions are what the standards say: rounding gives a nearest binary64 number, on ties the even one (`fl_isBinary64`, `fl_nearest`, `fl_tie`), indexing and slicing (`idx_spec`, `slice_spec`), two's complement (`sgn_spec`), splitting paths (`splitSlash_spec`), and the decoders (`utf16leDecode_iff`, `latin1Decode_spec`).
* Parameters (arbitrary in every theorem): the codec of a pre-BIFF8 file, `str.lower`, the recursion limit (`depth`), and in `BookEnv` the codecs, `str.rstrip` and the evaluation of name formulas (C70 instantiates it with the modelled evaluation, `EvaluatesNames`).  The arithmetic, comparisons and conversions that formula evaluation applies to Python values (`PyOps`).  In `OpenEnv` also the names in a ZIP file.
* C66 assumes that no SHEETHDR record is accepted: such records belong to BIFF4W, but the code acts on them in any version.

## What is modelled

| Source | Model | Not modelled |
|---|---|---|
| `xldate.py` | `Model/XlDate.lean`: everything | |
| `formula.py` 2050-2190 (names of cells, ranges, sheets) | `Model/Names.lean` | |
| `formula.py` evaluate_name_formula, decompile_formula, address and EXTERNSHEET helpers, operators; `book.py` 1041-1045 | `Model/Formula.lean` | `dump_formula`; messages on the log |
| `sheet.py` 404-784 (cell store, accessors, defaults) | `Model/Cells.lean`, `Model/Access.lean` | `row`/`col` printing, `dump` |
| `compdoc.py` | `Model/CompDoc.lean`: everything | logging, `dump` |
| `book.py` get_record_parts, handle_sst, unpack_SST_table | `Model/Records.lean` | |
| `biffh.py` unpack_* | `Model/Records.lean`, `Model/Codec.lean` | `BaseObject.dump` |
| `biffh.py` hex_char_dump, biff_dump, biff_count_records; `__init__.py` dump, count_records | `Model/Dump.lean` | warnings about the compound document that are written to the same output |
| `sheet.py` 789-1583, 2219-2233 (`read`, `unpack_RK`) | `Model/SheetRead.lean`, `Model/Rk.lean` | |
| `sheet.py` `read` for BIFF2-4 (records that change the book, BIFF2 cells and attributes); `book.py` fake_globals_get_sheet, handle_sheethdr, handle_sheetsoffset | `Model/OldSheet.lean` | |
| `sheet.py` 1746-1866, 1905-2062 (hyperlinks, objects, text boxes, notes) | `Model/Drawing.lean` | output when debugging is on; attributes of OBJ and TXO records other than object number, autofilter flag, text and runs |
| `formatting.py` | `Model/FormatString.lean`, `Model/Formatting.lean`: everything | `fixed`-width dumps |
| `book.py` parse_globals and its handlers, derive_encoding, names_epilogue | `Model/Globals.lean` | `handle_obj` contents |
| `book.py` open_workbook_xls, biff2_8_load, getbof, get_sheet(s), sheets, sheet_by_*, sheet_loaded, unload_sheet, release_resources, Name.cell, Name.area2d | `Model/Open.lean`, `Model/Resources.lean` | timing; closing a file or mapping is taken not to fail |
| `book.py` Book.__iter__; `sheet.py` Sheet.__getitem__ | `Model/Iter.lean` | subscripts that are neither numbers nor sequences of numbers |
| `sheet.py` Cell.__repr__, ctype_text, Rowinfo.__getstate__, Rowinfo.__setstate__ | `Model/Repr.lean` | `repr` of values (a parameter with the facts of `PyRepr`) |
| `__init__.py` inspect_format, open_workbook | `Model/Open.lean`, `Model/Resources.lean` | `zipfile` (the list of names is a parameter) |

## Properties the code does not have

Each is a theorem with a concrete witness; the remaining part is proved under the name `..._partial`.

* C07: serials 59 and 60 of the 1900 system give the same datetime (`C07_not_injective_59_60`).
* C09: `formula.colname` fails from column 702 on.
* C17: a row's default XF is missed when the row is given by a negative index (`C17_xf_default_missed`).
* C21: `_locate_stream` and `_get_stream` disagree on a truncated file (`C21_truncated_file_differs`).
* C22: a cyclic short stream is never read to its end (`C22_short_cycle_never_ends`).
* C24: path components after a stream name are ignored (`C24_extra_components_ignored`).
* C26: a surrogate pair cut by a record boundary, and phonetic data crossing two boundaries (`C26_split_surrogate_pair_fails`, `C26_long_phonetic_data_fails`).
* C29: a formula result with a character outside the BMP (`C29_astral_character_fails`).
* C53: the first derivation of the encoding of a BIFF8 file without CODEPAGE record leaves it unset, the second sets it (`C53_derived_twice_differs`).
* C71: a URL with a character beyond the basic plane is refused (`C71_astral_url_fails`); a relative path stored as a string is lost (`C71_relative_string_lost`).
* C72: a character divided over two records of a text box is refused (`C72_divided_character_fails`); the text of a box with number 0 is lost (`C72_box_zero_lost`).
* C55: a BLANK record after another record for the same cell hides it only with formatting information (`C55_blank_after_text_differs`).
* C56: `cellnamerel` mixes notations for a partly relative reference without base.
* C41: if the sheets have COUNTRY records that differ from each other and the globals have none, which of the sheets can be had depends on the order in which they are asked for (`C41_conflicting_countries`).
* C46: when several SUPBOOK records stand for the workbook itself, only the last counts; references through the others give code -4 (`C46_two_local_supbooks`).
* C47: in BIFF5-7 files relative rows wrap at 65536, not at the 16384 rows of those files (`C47_old_rows_wrap_witness`).
* C49: a call of a function with a variable number of arguments and none given takes every operand on the stack, so that `5+ROW()` fails with an AssertionError (`C49_nullary_call_takes_all`).  A workbook with a name that refers to itself cannot be opened (`C49_self_reference`).
* C50: parentheses around a right operand of the same precedence are lost, `A1-(B1-C1)` is shown as `A1-B1-C1` (`C50_grouping_lost`); a union as an argument looks like two arguments, `SUM((A1,B1))` is shown as `SUM(A1,B1)` (`C50_union_lost`); an error constant is shown as a string (`C50_error_as_string`); a range with an error as operand makes the reader fail (`C50_range_of_error`); a call without arguments of a function with a variable number of arguments takes everything on its left, `A1+ROW()` makes the reader fail (`C50_no_arguments`); a function that is not in the table leaves its arguments on the stack, and the formula has no text (`C50_unknown_function`); the token of an array constant is taken to be one byte longer than documented, `SUM({…})` makes the reader fail (`C50_array_constant_size`, `C50_array_constant_fails`); in the formula of a cell an area of a sheet with a relative coordinate makes it fail with a TypeError, as the base cell is left out (`C50_relative_sheet_area_fails`); constant references of several parts make it fail with a NameError (`C50_constant_reference_fails`); a sheet name with an operator in it is not quoted (`C50_sheet_name_as_difference`), and the sheet before a name of one sheet never is (`C50_local_name_not_quoted`).
* C66: `colour_indexes_used` leaves out the colours of fonts in BIFF2 to BIFF4 files (`C66_font_colour_left_out`), and in a BIFF4 workbook keeps the colours of earlier sheets (`C66_earlier_sheets_count`).
* C69: sheet names with `!` or `:` are not quoted unless they also contain a blank or a quote (`C69_special_names_not_quoted`).
* C68: a stream of at least the minimum size whose directory entry has number 250 or more cannot be fetched: its mark does not fit a byte (`C68_late_entry`).
* C73: in a BIFF3 or BIFF4 file without FORMAT records, cells with numbers have type text (`C73_no_formats`); a BIFF3 or BIFF4 stream that does not start at byte 0 of the data is refused (`C73_not_at_start`).
* C74: after a WINDOW2 record of BIFF2 the five options of the window are all reported as set (`C74_window_options_lost`); rows of BIFF2 sheets lack six of their attributes, asking for them raises AttributeError (`C74_rows_partial`, field `unset`).
* C75: with formatting information, a BIFF2 file without XF records whose ROW record names an XF cannot be opened (`C75_row_index_fails`).
* C76: in a BIFF4 workbook `format_map` and `xf_list` describe the last sheet only (`C76_last_formatting`); names without worksheet are counted by `nsheets` although the sheets cannot be had (`C76_missing_sheet`).
* C77: a BIFF4 workbook with a negative length in a SHEETHDR record is read for ever (`C77_endless_file`).
* C78: a workbook cannot be opened if it has a name such as `=1/0` (`C78_division_by_zero`), `=SUM({1})` (`C78_array`: the table gives tArray one byte too many), `=1+ROW()` (`C78_no_arguments`) or `=CHOOSE(SUM(1),2)` (`C78_choose_unknown`); `=-#N/A` is a number (`C78_minus_error`) and `=+"12"` a number whose value is a text (`C78_plus_text`).
* C79: `count_records` counts zeros at the end of a workbook stream as records `<Dummy (zero)>` if the stream lies in one piece in a compound document (`C79_padding`).
* C80: a workbook cannot be opened (IndexError) if a name uses a name that belongs to a chart sheet and there is only one worksheet (`C80_chart_local_name_fails`).
* C84: with formatting information, a BIFF4 workbook cannot be opened (AssertionError) if two of its sheets have PALETTE records (`C84_two_palettes`).
* C85: a name that is a range or an intersection of two areas, of which different bounds are relative, has no value; if one of the areas is fixed, `Name.cell` and `Name.area2d` raise TypeError (`C85_unlike_areas_lost`).
* C87: in a file before BIFF5 without CODEPAGE, FORMAT or other text, `user_name` stays the bytes of the WRITEACCESS record (`C87_user_name_left_raw`).
* C88: a ZIP file is refused without closing the `ZipFile` object (`C88_zip_left_open`); a mapping passed as `file_contents` is closed (`C88_mapping_closed`); `dump` and `count_records` leave the mapping to the garbage collector (`C88_dump_left_open`).
* C89: a name with a reference without a sheet has the text `?` (`C89_relative_lost`), a name that calls a function of an add-in or macro has no result (`C89_macro_lost`).
* C92: in a file of BIFF3 or BIFF4 a number whose XF refers to a format that the file does not describe is a text cell with a float (`C92_number_as_text`).

## Wrong programs

`seeded/LOG.jsonl` lists edits of the model that a realistic bug would make, each tried in a scratch copy.  How to read `failed`:

* A build stops soon after the first errors, so the list is not complete: theorems in modules that depend on the failing one were not reached.  Often it names the lemma about the edited definition, not the property theorem built on it.
* Names are found from the lines of the error messages.  An error that Lean reports at the comment above a theorem is counted for the declaration before it, so that a list may name one theorem too many.
