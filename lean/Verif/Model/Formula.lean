import Verif.Model.Open
import Verif.Model.Names
import Verif.Model.Rk

/-!
# Formulas

`formula.py`: addresses (408-470), references to sheets (472-528), operands (534-684), evaluation of the formulas of defined
names (752-1357) and texts of formulas (1360-1883).  `dump_formula`, which only prints, is not modelled; neither are the
messages printed by the other functions.
-/
namespace Xlrd

/-! ## Tables -/

/-- formula.py 100 -/
def sztab0 : List Int :=
  [-2, 4, 4, 1, 1, 1, 1, 1, 1, 1, 1, 1, 1, 1, 1, 1, 1, 1, 1, 1, 1, 1, 1, -1, -2, -1, 8, 4, 2, 2, 3, 9, 8, 2, 3, 8, 4, 7, 5, 5, 5, 2, 4, 7, 4, 7, 2, 2, -2, -2, -2, -2, -2, -2, -2, -2, 3, -2, -2, -2, -2, -2, -2, -2]

/-- formula.py 101 -/
def sztab1 : List Int :=
  [-2, 5, 5, 1, 1, 1, 1, 1, 1, 1, 1, 1, 1, 1, 1, 1, 1, 1, 1, 1, 1, 1, 1, -1, -2, -1, 11, 5, 2, 2, 3, 9, 9, 2, 3, 11, 4, 7, 7, 7, 7, 3, 4, 7, 4, 7, 3, 3, -2, -2, -2, -2, -2, -2, -2, -2, 3, -2, -2, -2, -2, -2, -2, -2]

/-- formula.py 102 -/
def sztab2 : List Int :=
  [-2, 5, 5, 1, 1, 1, 1, 1, 1, 1, 1, 1, 1, 1, 1, 1, 1, 1, 1, 1, 1, 1, 1, -1, -2, -1, 11, 5, 2, 2, 3, 9, 9, 3, 4, 11, 4, 7, 7, 7, 7, 3, 4, 7, 4, 7, 3, 3, -2, -2, -2, -2, -2, -2, -2, -2, -2, -2, -2, -2, -2, -2, -2, -2]

/-- formula.py 103 -/
def sztab3 : List Int :=
  [-2, 5, 5, 1, 1, 1, 1, 1, 1, 1, 1, 1, 1, 1, 1, 1, 1, 1, 1, 1, 1, 1, 1, -1, -2, -1, -2, -2, 2, 2, 3, 9, 9, 3, 4, 15, 4, 7, 7, 7, 7, 3, 4, 7, 4, 7, 3, 3, -2, -2, -2, -2, -2, -2, -2, -2, -2, 25, 18, 21, 18, 21, -2, -2]

/-- formula.py 104 -/
def sztab4 : List Int :=
  [-2, 5, 5, 1, 1, 1, 1, 1, 1, 1, 1, 1, 1, 1, 1, 1, 1, 1, 1, 1, 1, 1, 1, -1, -1, -1, -2, -2, 2, 2, 3, 9, 9, 3, 4, 5, 5, 9, 7, 7, 7, 3, 5, 9, 5, 9, 3, 3, -2, -2, -2, -2, -2, -2, -2, -2, -2, 7, 7, 11, 7, 11, -2, -2]

/-- formula.py 106-115 `szdict`; KeyError for other versions. -/
def szdict (bv : Nat) : R (List Int) :=
  if bv = 20 ∨ bv = 21 then .ok sztab0
  else if bv = 30 then .ok sztab1
  else if bv = 40 ∨ bv = 45 then .ok sztab2
  else if bv = 50 ∨ bv = 70 then .ok sztab3
  else if bv = 80 then .ok sztab4
  else .error .key

/-- formula.py 121-383 `func_defs`: number, name, least and greatest number of arguments (the other columns are not used). -/
def funcTable : List (Nat × String × Nat × Nat) := [
  (0, "COUNT", 0, 30), (1, "IF", 2, 3), (2, "ISNA", 1, 1), (3, "ISERROR", 1, 1),
  (4, "SUM", 0, 30), (5, "AVERAGE", 1, 30), (6, "MIN", 1, 30), (7, "MAX", 1, 30),
  (8, "ROW", 0, 1), (9, "COLUMN", 0, 1), (10, "NA", 0, 0), (11, "NPV", 2, 30),
  (12, "STDEV", 1, 30), (13, "DOLLAR", 1, 2), (14, "FIXED", 2, 3), (15, "SIN", 1, 1),
  (16, "COS", 1, 1), (17, "TAN", 1, 1), (18, "ATAN", 1, 1), (19, "PI", 0, 0),
  (20, "SQRT", 1, 1), (21, "EXP", 1, 1), (22, "LN", 1, 1), (23, "LOG10", 1, 1),
  (24, "ABS", 1, 1), (25, "INT", 1, 1), (26, "SIGN", 1, 1), (27, "ROUND", 2, 2),
  (28, "LOOKUP", 2, 3), (29, "INDEX", 2, 4), (30, "REPT", 2, 2), (31, "MID", 3, 3),
  (32, "LEN", 1, 1), (33, "VALUE", 1, 1), (34, "TRUE", 0, 0), (35, "FALSE", 0, 0),
  (36, "AND", 1, 30), (37, "OR", 1, 30), (38, "NOT", 1, 1), (39, "MOD", 2, 2),
  (40, "DCOUNT", 3, 3), (41, "DSUM", 3, 3), (42, "DAVERAGE", 3, 3), (43, "DMIN", 3, 3),
  (44, "DMAX", 3, 3), (45, "DSTDEV", 3, 3), (46, "VAR", 1, 30), (47, "DVAR", 3, 3),
  (48, "TEXT", 2, 2), (49, "LINEST", 1, 4), (50, "TREND", 1, 4), (51, "LOGEST", 1, 4),
  (52, "GROWTH", 1, 4), (56, "PV", 3, 5), (57, "FV", 3, 5), (58, "NPER", 3, 5),
  (59, "PMT", 3, 5), (60, "RATE", 3, 6), (61, "MIRR", 3, 3), (62, "IRR", 1, 2),
  (63, "RAND", 0, 0), (64, "MATCH", 2, 3), (65, "DATE", 3, 3), (66, "TIME", 3, 3),
  (67, "DAY", 1, 1), (68, "MONTH", 1, 1), (69, "YEAR", 1, 1), (70, "WEEKDAY", 1, 2),
  (71, "HOUR", 1, 1), (72, "MINUTE", 1, 1), (73, "SECOND", 1, 1), (74, "NOW", 0, 0),
  (75, "AREAS", 1, 1), (76, "ROWS", 1, 1), (77, "COLUMNS", 1, 1), (78, "OFFSET", 3, 5),
  (82, "SEARCH", 2, 3), (83, "TRANSPOSE", 1, 1), (86, "TYPE", 1, 1), (92, "SERIESSUM", 4, 4),
  (97, "ATAN2", 2, 2), (98, "ASIN", 1, 1), (99, "ACOS", 1, 1), (100, "CHOOSE", 2, 30),
  (101, "HLOOKUP", 3, 4), (102, "VLOOKUP", 3, 4), (105, "ISREF", 1, 1), (109, "LOG", 1, 2),
  (111, "CHAR", 1, 1), (112, "LOWER", 1, 1), (113, "UPPER", 1, 1), (114, "PROPER", 1, 1),
  (115, "LEFT", 1, 2), (116, "RIGHT", 1, 2), (117, "EXACT", 2, 2), (118, "TRIM", 1, 1),
  (119, "REPLACE", 4, 4), (120, "SUBSTITUTE", 3, 4), (121, "CODE", 1, 1), (124, "FIND", 2, 3),
  (125, "CELL", 1, 2), (126, "ISERR", 1, 1), (127, "ISTEXT", 1, 1), (128, "ISNUMBER", 1, 1),
  (129, "ISBLANK", 1, 1), (130, "T", 1, 1), (131, "N", 1, 1), (140, "DATEVALUE", 1, 1),
  (141, "TIMEVALUE", 1, 1), (142, "SLN", 3, 3), (143, "SYD", 4, 4), (144, "DDB", 4, 5),
  (148, "INDIRECT", 1, 2), (162, "CLEAN", 1, 1), (163, "MDETERM", 1, 1), (164, "MINVERSE", 1, 1),
  (165, "MMULT", 2, 2), (167, "IPMT", 4, 6), (168, "PPMT", 4, 6), (169, "COUNTA", 0, 30),
  (183, "PRODUCT", 0, 30), (184, "FACT", 1, 1), (189, "DPRODUCT", 3, 3), (190, "ISNONTEXT", 1, 1),
  (193, "STDEVP", 1, 30), (194, "VARP", 1, 30), (195, "DSTDEVP", 3, 3), (196, "DVARP", 3, 3),
  (197, "TRUNC", 1, 2), (198, "ISLOGICAL", 1, 1), (199, "DCOUNTA", 3, 3), (204, "USDOLLAR", 1, 2),
  (205, "FINDB", 2, 3), (206, "SEARCHB", 2, 3), (207, "REPLACEB", 4, 4), (208, "LEFTB", 1, 2),
  (209, "RIGHTB", 1, 2), (210, "MIDB", 3, 3), (211, "LENB", 1, 1), (212, "ROUNDUP", 2, 2),
  (213, "ROUNDDOWN", 2, 2), (214, "ASC", 1, 1), (215, "DBCS", 1, 1), (216, "RANK", 2, 3),
  (219, "ADDRESS", 2, 5), (220, "DAYS360", 2, 3), (221, "TODAY", 0, 0), (222, "VDB", 5, 7),
  (227, "MEDIAN", 1, 30), (228, "SUMPRODUCT", 1, 30), (229, "SINH", 1, 1), (230, "COSH", 1, 1),
  (231, "TANH", 1, 1), (232, "ASINH", 1, 1), (233, "ACOSH", 1, 1), (234, "ATANH", 1, 1),
  (235, "DGET", 3, 3), (244, "INFO", 1, 1), (247, "DB", 4, 5), (252, "FREQUENCY", 2, 2),
  (261, "ERROR.TYPE", 1, 1), (269, "AVEDEV", 1, 30), (270, "BETADIST", 3, 5), (271, "GAMMALN", 1, 1),
  (272, "BETAINV", 3, 5), (273, "BINOMDIST", 4, 4), (274, "CHIDIST", 2, 2), (275, "CHIINV", 2, 2),
  (276, "COMBIN", 2, 2), (277, "CONFIDENCE", 3, 3), (278, "CRITBINOM", 3, 3), (279, "EVEN", 1, 1),
  (280, "EXPONDIST", 3, 3), (281, "FDIST", 3, 3), (282, "FINV", 3, 3), (283, "FISHER", 1, 1),
  (284, "FISHERINV", 1, 1), (285, "FLOOR", 2, 2), (286, "GAMMADIST", 4, 4), (287, "GAMMAINV", 3, 3),
  (288, "CEILING", 2, 2), (289, "HYPGEOMDIST", 4, 4), (290, "LOGNORMDIST", 3, 3), (291, "LOGINV", 3, 3),
  (292, "NEGBINOMDIST", 3, 3), (293, "NORMDIST", 4, 4), (294, "NORMSDIST", 1, 1), (295, "NORMINV", 3, 3),
  (296, "NORMSINV", 1, 1), (297, "STANDARDIZE", 3, 3), (298, "ODD", 1, 1), (299, "PERMUT", 2, 2),
  (300, "POISSON", 3, 3), (301, "TDIST", 3, 3), (302, "WEIBULL", 4, 4), (303, "SUMXMY2", 2, 2),
  (304, "SUMX2MY2", 2, 2), (305, "SUMX2PY2", 2, 2), (306, "CHITEST", 2, 2), (307, "CORREL", 2, 2),
  (308, "COVAR", 2, 2), (309, "FORECAST", 3, 3), (310, "FTEST", 2, 2), (311, "INTERCEPT", 2, 2),
  (312, "PEARSON", 2, 2), (313, "RSQ", 2, 2), (314, "STEYX", 2, 2), (315, "SLOPE", 2, 2),
  (316, "TTEST", 4, 4), (317, "PROB", 3, 4), (318, "DEVSQ", 1, 30), (319, "GEOMEAN", 1, 30),
  (320, "HARMEAN", 1, 30), (321, "SUMSQ", 0, 30), (322, "KURT", 1, 30), (323, "SKEW", 1, 30),
  (324, "ZTEST", 2, 3), (325, "LARGE", 2, 2), (326, "SMALL", 2, 2), (327, "QUARTILE", 2, 2),
  (328, "PERCENTILE", 2, 2), (329, "PERCENTRANK", 2, 3), (330, "MODE", 1, 30), (331, "TRIMMEAN", 2, 2),
  (332, "TINV", 2, 2), (336, "CONCATENATE", 0, 30), (337, "POWER", 2, 2), (342, "RADIANS", 1, 1),
  (343, "DEGREES", 1, 1), (344, "SUBTOTAL", 2, 30), (345, "SUMIF", 2, 3), (346, "COUNTIF", 2, 2),
  (347, "COUNTBLANK", 1, 1), (350, "ISPMT", 4, 4), (351, "DATEDIF", 3, 3), (352, "DATESTRING", 1, 1),
  (353, "NUMBERSTRING", 2, 2), (354, "ROMAN", 1, 2), (358, "GETPIVOTDATA", 2, 2), (359, "HYPERLINK", 1, 2),
  (360, "PHONETIC", 1, 1), (361, "AVERAGEA", 1, 30), (362, "MAXA", 1, 30), (363, "MINA", 1, 30),
  (364, "STDEVPA", 1, 30), (365, "VARPA", 1, 30), (366, "STDEVA", 1, 30), (367, "VARA", 1, 30),
  (368, "BAHTTEXT", 1, 1), (369, "THAIDAYOFWEEK", 1, 1), (370, "THAIDIGIT", 1, 1), (371, "THAIMONTHOFYEAR", 1, 1),
  (372, "THAINUMSOUND", 1, 1), (373, "THAINUMSTRING", 1, 1), (374, "THAISTRINGLENGTH", 1, 1), (375, "ISTHAIDIGIT", 1, 1),
  (376, "ROUNDBAHTDOWN", 1, 1), (377, "ROUNDBAHTUP", 1, 1), (378, "THAIYEAR", 1, 1), (379, "RTD", 2, 5)]

/-- `func_defs.get(funcx)` -/
def funcDef (funcx : Nat) : Option (PyStr × Nat × Nat) :=
  (funcTable.find? fun e => e.1 == funcx).map fun e => (e.2.1.toList, e.2.2)

/-- biffh.py 92-100 `error_text_from_code`; KeyError for other codes. -/
def errorText (code : Nat) : R PyStr :=
  if code = 0x00 then .ok "#NULL!".toList
  else if code = 0x07 then .ok "#DIV/0!".toList
  else if code = 0x0F then .ok "#VALUE!".toList
  else if code = 0x17 then .ok "#REF!".toList
  else if code = 0x1D then .ok "#NAME?".toList
  else if code = 0x24 then .ok "#NUM!".toList
  else if code = 0x2A then .ok "#N/A".toList
  else .error .key

/-! ## Cell addresses -/

/-- A decoded address: row and column (offsets if relative) and the two flags. -/
structure Addr where
  rowx : Int
  colx : Int
  rowRel : Bool
  colRel : Bool
  deriving DecidableEq, Repr

/-- `x -= base` if the flag is set; `None` is a TypeError. -/
def subBase (x : Int) (rel : Bool) (base : Option Int) : R Int :=
  if rel then match base with
    | none => .error .type
    | some v => .ok (x - v)
  else .ok x

/-- The common end of formula.py 413-423 and 430-441: `half` and `full` are 32768 and 65536, or 8192 and 16384. -/
def adjustAddr (half full : Int) (rowx colx : Int) (rowRel colRel reldelta : Bool) (browx bcolx : Option Int) : R Addr :=
  if reldelta then
    .ok { rowx := if rowRel ∧ rowx ≥ half then rowx - full else rowx
          colx := if colRel ∧ colx ≥ 128 then colx - 256 else colx
          rowRel := rowRel, colRel := colRel }
  else do
    let r ← subBase rowx rowRel browx
    let c ← subBase colx colRel bcolx
    pure { rowx := r, colx := c, rowRel := rowRel, colRel := colRel }

/-- formula.py 408-423 `adjust_cell_addr_biff8` -/
def adjustCellAddr8 (rowval colval : Nat) (reldelta : Bool) (browx bcolx : Option Int) : R Addr :=
  adjustAddr 32768 65536 rowval ((colval &&& 0xff : Nat) : Int) (colval.testBit 15) (colval.testBit 14) reldelta browx bcolx

/-- formula.py 425-441 `adjust_cell_addr_biff_le7` -/
def adjustCellAddrLe7 (rowval colval : Nat) (reldelta : Bool) (browx bcolx : Option Int) : R Addr :=
  adjustAddr 8192 16384 ((rowval &&& 0x3fff : Nat) : Int) colval (rowval.testBit 15) (rowval.testBit 14) reldelta browx bcolx

/-- formula.py 443-452 `get_cell_addr` -/
def getCellAddr (data : Bytes) (pos : Int) (bv : Nat) (reldelta : Bool) (browx bcolx : Option Int) : R Addr :=
  if bv ≥ 80 then do
    let b ← unpackN 4 (slice data pos (pos + 4))
    adjustCellAddr8 (fld b 0 2) (fld b 2 2) reldelta browx bcolx
  else do
    let b ← unpackN 3 (slice data pos (pos + 3))
    adjustCellAddrLe7 (fld b 0 2) (fld b 2 1) reldelta browx bcolx

/-- formula.py 454-470 `get_cell_range_addr` -/
def getCellRangeAddr (data : Bytes) (pos : Int) (bv : Nat) (reldelta : Bool) (browx bcolx : Option Int) : R (Addr × Addr) :=
  if bv ≥ 80 then do
    let b ← unpackN 8 (slice data pos (pos + 8))
    let a1 ← adjustCellAddr8 (fld b 0 2) (fld b 4 2) reldelta browx bcolx
    let a2 ← adjustCellAddr8 (fld b 2 2) (fld b 6 2) reldelta browx bcolx
    pure (a1, a2)
  else do
    let b ← unpackN 6 (slice data pos (pos + 6))
    let a1 ← adjustCellAddrLe7 (fld b 0 2) (fld b 4 1) reldelta browx bcolx
    let a2 ← adjustCellAddrLe7 (fld b 2 2) (fld b 5 1) reldelta browx bcolx
    pure (a1, a2)

/-! ## References to sheets -/

/-- formula.py 495-507 and 518-528: from the first and the last sheet, counted as in the file, to sheet numbers. `bad` is the
code for sheets out of range. -/
def localRange (b : Book) (bad first last : Int) : R (Int × Int) :=
  if ¬ (0 ≤ first ∧ first ≤ last ∧ last < b.allSheetsMap.length) then .ok (bad, bad)
  else do
    let x1 ← idx b.allSheetsMap first
    let x2 ← idx b.allSheetsMap last
    if ¬ (0 ≤ x1 ∧ x1 ≤ x2) then pure (-3, -3) else pure (x1, x2)

/-- formula.py 480-507: what an entry of the EXTERNSHEET table refers to. -/
def externInfoRange (b : Book) (info : Nat × Nat × Nat) : R (Int × Int) :=
  if some info.1 = b.supbookAddinsInx then
    if info.2.1 = 0xFFFE ∧ 0xFFFE = info.2.2 then .ok (-5, -5) else .error .assertion
  else if some info.1 ≠ b.supbookLocalsInx then .ok (-4, -4)
  else if info.2.1 = 0xFFFE ∧ 0xFFFE = info.2.2 then .ok (-1, -1)
  else if info.2.1 = 0xFFFF ∧ 0xFFFF = info.2.2 then .ok (-2, -2)
  else localRange b (-102) info.2.1 info.2.2

/-- formula.py 472-507 `get_externsheet_local_range` (BIFF8) -/
def externRange (b : Book) (refx : Nat) : R (Int × Int) :=
  match b.externsheetInfo[refx]? with
  | none => .ok (-101, -101)
  | some info => externInfoRange b info

/-- formula.py 509-528 `get_externsheet_local_range_b57` -/
def externRange57 (b : Book) (extshtx first last : Int) : R (Int × Int) :=
  if extshtx > 0 then .ok (-4, -4)
  else if first = -1 ∧ last = -1 then .ok (-2, -2)
  else localRange b (-103) first last

/-! ## Operands -/

/-- formula.py 73-80 -/
inductive OKind
  | unk | strg | num | bool | err | msng | ref | relref
  deriving DecidableEq, Repr

/-- formula.py 626-684 `Ref3D` with `relflags` (sheet, row and column, first and last each). -/
structure RelRef extends Ref3D where
  relflags : List Bool := [false, false, false, false, false, false]
  deriving DecidableEq, Repr

/-- The values of operands: floats, ints (booleans, error codes), strings and lists of references. -/
inductive PVal
  | num (x : F64)
  | int (n : Int)
  | str (s : PyStr)
  | refs (l : List RelRef)
  deriving DecidableEq

/-- formula.py 534-620 `Operand` -/
structure Opnd where
  kind : OKind := .unk
  value : Option PVal := none
  rank : Nat := 0
  text : PyStr := ['?']
  deriving DecidableEq

/-- formula.py 399-406: the coordinates combined by `tRangeFuncs` (min, max) or `tIsectFuncs` (max, min). -/
def boxRange (a b : Ref3D) : Ref3D :=
  { shtxlo := min a.shtxlo b.shtxlo, shtxhi := max a.shtxhi b.shtxhi, rowxlo := min a.rowxlo b.rowxlo
    rowxhi := max a.rowxhi b.rowxhi, colxlo := min a.colxlo b.colxlo, colxhi := max a.colxhi b.colxhi }
def boxIsect (a b : Ref3D) : Ref3D :=
  { shtxlo := max a.shtxlo b.shtxlo, shtxhi := min a.shtxhi b.shtxhi, rowxlo := max a.rowxlo b.rowxlo
    rowxhi := min a.rowxhi b.rowxhi, colxlo := max a.colxlo b.colxlo, colxhi := min a.colxhi b.colxhi }

/-- The arithmetic of Python on these values, and `str` and `float`: not part of xlrd. -/
structure PyOps where
  str : PVal → PyStr
  toFloat : PVal → R PVal
  arith : Nat → PVal → PVal → R PVal
  cmp : Nat → PVal → PVal → R Bool
  neg : PVal → R PVal
  percent : PVal → R PVal

/-- formula.py 712-719 `num2strg` -/
def num2strg (ops : PyOps) (v : PVal) : PVal :=
  let s := ops.str v
  .str (if s.drop (s.length - 2) = ".0".toList then s.take (s.length - 2) else s)

/-- How a rule of `binop_rules` converts its arguments (formula.py 721-724). -/
inductive ArgConv
  | arith | cmp | strg
  deriving DecidableEq

/-- formula.py 725-738 `binop_rules`: conversion, kind of the result, rank and symbol. -/
def binRule (opcode : Nat) : R (ArgConv × OKind × Nat × PyStr) :=
  if opcode = 0x03 then .ok (.arith, .num, 30, "+".toList)
  else if opcode = 0x04 then .ok (.arith, .num, 30, "-".toList)
  else if opcode = 0x05 then .ok (.arith, .num, 40, "*".toList)
  else if opcode = 0x06 then .ok (.arith, .num, 40, "/".toList)
  else if opcode = 0x07 then .ok (.arith, .num, 50, "^".toList)
  else if opcode = 0x08 then .ok (.strg, .strg, 20, "&".toList)
  else if opcode = 0x09 then .ok (.cmp, .bool, 10, "<".toList)
  else if opcode = 0x0A then .ok (.cmp, .bool, 10, "<=".toList)
  else if opcode = 0x0B then .ok (.cmp, .bool, 10, "=".toList)
  else if opcode = 0x0C then .ok (.cmp, .bool, 10, ">=".toList)
  else if opcode = 0x0D then .ok (.cmp, .bool, 10, ">".toList)
  else if opcode = 0x0E then .ok (.cmp, .bool, 10, "<>".toList)
  else .error .key

/-- formula.py 740-744 `unop_rules`: rank, symbol before and symbol after. -/
def unRule (opcode : Nat) : R (Nat × PyStr × PyStr) :=
  if opcode = 0x13 then .ok (70, "-".toList, [])
  else if opcode = 0x12 then .ok (70, "+".toList, [])
  else if opcode = 0x14 then .ok (60, [], "%".toList)
  else .error .key

/-- formula.py 746-747 -/
abbrev LEAF_RANK : Nat := 90
abbrev FUNC_RANK : Nat := 90

/-- A text in parentheses if its rank is smaller than that of the operator. -/
def parens (r rank : Nat) (t : PyStr) : PyStr := if r < rank then '(' :: t ++ [')'] else t

/-- The text of a binary operation (formula.py 780-788 and many more). -/
def binText (rank : Nat) (sym : PyStr) (ra : Nat) (ta : PyStr) (rb : Nat) (tb : PyStr) : PyStr :=
  parens ra rank ta ++ sym ++ parens rb rank tb

/-- The text of a unary operation (formula.py 812-818). -/
def unText (rank : Nat) (sym1 sym2 : PyStr) (ra : Nat) (ta : PyStr) : PyStr := sym1 ++ parens ra rank ta ++ sym2

/-- `argdict[kind]` applied to a value; `none`: KeyError for the kind. -/
def argConv (ops : PyOps) (c : ArgConv) (k : OKind) : Option (PVal → R PVal) :=
  match c, k with
  | .arith, .num => some .ok
  | .arith, .strg => some ops.toFloat
  | .cmp, .num => some .ok
  | .cmp, .strg => some .ok
  | .strg, .num => some fun v => .ok (num2strg ops v)
  | .strg, .strg => some .ok
  | _, _ => none

def PVal.isNumber : PVal → Bool
  | .num _ => true
  | .int _ => true
  | _ => false

def PVal.isZero : PVal → Bool
  | .num x => x = .fin 0
  | .int n => n = 0
  | _ => false

/-- formula.py 801-803: the function of the rule; true division of numbers by zero raises. -/
def binApply (ops : PyOps) (opcode : Nat) (k : OKind) (a b : PVal) : R PVal :=
  if k = .bool then do
    let r ← ops.cmp opcode a b
    pure (.int (if r then 1 else 0))
  else if opcode = 0x06 ∧ a.isNumber ∧ b.isZero then .error .zeroDiv
  else ops.arith opcode a b

/-- formula.py 789-805: the value of a binary operation. -/
def binValue (ops : PyOps) (opcode : Nat) (c : ArgConv) (k : OKind) (aop bop : Opnd) : R (Option PVal) :=
  match argConv ops c bop.kind, argConv ops c aop.kind with
  | some bconv, some aconv =>
    match bop.value, aop.value with
    | some bv, some av => do
      let b ← bconv bv
      let a ← aconv av
      let r ← binApply ops opcode k a b
      pure (some r)
    | _, _ => .ok none
  | _, _ => .ok none

/-- formula.py 775-805 `do_binop`.  Stacks are lists with the top first. -/
def doBinop (ops : PyOps) (opcode : Nat) : List Opnd → R (List Opnd)
  | bop :: aop :: stk => do
    let (c, k, rank, sym) ← binRule opcode
    let v ← binValue ops opcode c k aop bop
    pure ({ kind := k, value := v, rank := rank, text := binText rank sym aop.rank aop.text bop.rank bop.text } :: stk)
  | _ => .error .assertion

/-- The function of a rule of `unop_rules`. -/
def unApply (ops : PyOps) (opcode : Nat) (v : PVal) : R PVal :=
  if opcode = 0x13 then ops.neg v else if opcode = 0x12 then .ok v else ops.percent v

/-- formula.py 819-820 -/
def unValue (ops : PyOps) (opcode : Nat) : Option PVal → R (Option PVal)
  | none => .ok none
  | some v => do let r ← unApply ops opcode v; pure (some r)

/-- formula.py 807-821 `do_unaryop` (the kind of the result is always oNUM) -/
def doUnaryop (ops : PyOps) (opcode : Nat) : List Opnd → R (List Opnd)
  | aop :: stk => do
    let (rank, s1, s2) ← unRule opcode
    let v ← unValue ops opcode aop.value
    pure ({ kind := .num, value := v, rank := rank, text := unText rank s1 s2 aop.rank aop.text } :: stk)
  | [] => .error .assertion

/-- A value of kind oREF or oREL (always a list of references; anything else is a TypeError here). -/
def refsOf : PVal → R (List RelRef)
  | .refs l => .ok l
  | _ => .error .type

/-- `assert len(value) == 1` and `value[0]` -/
def oneRef (v : PVal) : R RelRef := do
  match ← refsOf v with
  | [r] => pure r
  | _ => .error .assertion

/-- formula.py 885-891, 957-963: both operands absolute. -/
def boxAbs (f : Ref3D → Ref3D → Ref3D) (a b : Option PVal) : R (Option PVal) :=
  match a, b with
  | some a, some b => do
    let x ← oneRef a
    let y ← oneRef b
    pure (some (.refs [{ toRef3D := f x.toRef3D y.toRef3D }]))
  | _, _ => .ok none

/-- formula.py 892-902, 964-974: both operands relative, with the same flags. -/
def boxRel (f : Ref3D → Ref3D → Ref3D) (a b : Option PVal) : R (Option PVal) :=
  match a, b with
  | some a, some b => do
    let x ← oneRef a
    let y ← oneRef b
    if x.relflags = y.relflags then pure (some (.refs [{ toRef3D := f x.toRef3D y.toRef3D, relflags := x.relflags }]))
    else pure none
  | _, _ => .ok none

/-- formula.py 873-904, 953-976: kind and value of a range or intersection.  For an intersection there is a separate test for
oUNK, which gives what the last case gives. -/
def boxOp (f : Ref3D → Ref3D → Ref3D) (aop bop : Opnd) : R (OKind × Option PVal) :=
  if bop.kind = .err ∨ aop.kind = .err then .ok (.err, none)
  else if bop.kind = .ref ∧ aop.kind = .ref then do
    let v ← boxAbs f aop.value bop.value
    pure (.ref, v)
  else if bop.kind = .relref ∧ aop.kind = .relref then do
    let v ← boxRel f aop.value bop.value
    pure (.relref, v)
  else .ok (.ref, none)

/-- formula.py 857-906 (tIsect).  The rank of the result is 0. -/
def doIsect : List Opnd → R (List Opnd)
  | bop :: aop :: stk => do
    let (k, v) ← boxOp boxIsect aop bop
    pure ({ kind := k, value := v, rank := 0, text := binText 80 " ".toList aop.rank aop.text bop.rank bop.text } :: stk)
  | _ => .error .assertion

/-- formula.py 938-978 (tRange) -/
def doRange : List Opnd → R (List Opnd)
  | bop :: aop :: stk => do
    let (k, v) ← boxOp boxRange aop bop
    pure ({ kind := k, value := v, rank := 80, text := binText 80 ":".toList aop.rank aop.text bop.rank bop.text } :: stk)
  | _ => .error .assertion

/-- formula.py 930-933: the references of a union. -/
def unionValue (a b : Option PVal) : R (Option PVal) :=
  match a, b with
  | some a, some b => do
    let x ← refsOf a
    let y ← refsOf b
    pyAssert (decide (1 ≤ x.length))
    pyAssert (decide (y.length = 1))
    pure (some (.refs (x ++ y)))
  | _, _ => .ok none

/-- formula.py 924-935: kind and value of a union. -/
def unionOp (aop bop : Opnd) : R (OKind × Option PVal) :=
  if bop.kind = .err ∨ aop.kind = .err then .ok (.err, none)
  else if (bop.kind = .ref ∨ bop.kind = .relref) ∧ (aop.kind = .ref ∨ aop.kind = .relref) then do
    let v ← unionValue aop.value bop.value
    pure (if aop.kind = .relref ∨ bop.kind = .relref then .relref else .ref, v)
  else .ok (.ref, none)

/-- formula.py 907-937 (tList) -/
def doList : List Opnd → R (List Opnd)
  | bop :: aop :: stk => do
    let (k, v) ← unionOp aop bop
    pure ({ kind := k, value := v, rank := 80, text := binText 80 ",".toList aop.rank aop.text bop.rank bop.text } :: stk)
  | _ => .error .assertion

/-! ## Constants -/

/-- `strg.replace('"', '""')` -/
def doubleDq : PyStr → PyStr
  | [] => []
  | c :: cs => if c = '"' then '"' :: '"' :: doubleDq cs else c :: doubleDq cs

/-- The text of a string constant (formula.py 995). -/
def strgText (s : PyStr) : PyStr := '"' :: doubleDq s ++ ['"']

/-- formula.py 987-993, 1555-1561: the string of a tStr token and the position after it. -/
def tStr (bv : Nat) (dec : Bytes → R PyStr) (data : Bytes) (pos : Int) : R (PyStr × Int) :=
  if bv ≤ 70 then unpackStringUpdatePos dec data (pos + 1) 1 none else unpackUnicodeUpdatePos data (pos + 1) 1 none

/-- formula.py 1022-1036: kind, value and text of a tErr, tBool, tInt or tNum token. -/
def constTok (str : PVal → PyStr) (opcode : Nat) (data : Bytes) (pos : Int) : R (OKind × PVal × PyStr) :=
  if opcode = 0x1C then do
    let v ← unpackB (slice data (pos + 1) (pos + 2))
    let t ← errorText v
    pure (.err, .int v, '"' :: t ++ ['"'])
  else if opcode = 0x1D then do
    let v ← unpackB (slice data (pos + 1) (pos + 2))
    let t ← idx ["FALSE".toList, "TRUE".toList] v
    pure (.bool, .int v, t)
  else if opcode = 0x1E then do
    let v ← unpackH (slice data (pos + 1) (pos + 3))
    pure (.num, .num (.fin v), str (.num (.fin v)))
  else do
    let v ← unpackd (slice data (pos + 1) (pos + 9))
    pure (.num, .num v, str (.num v))

/-- The two fields of a tAttr token. -/
def attrFields (data : Bytes) (pos : Int) : R (Nat × Nat) := do
  let b ← unpackN 3 (slice data (pos + 1) (pos + 4))
  pure (fld b 0 1, fld b 1 2)

/-- `SUM(%s)` -/
def sumText (t : PyStr) : PyStr := "SUM(".toList ++ t ++ ")".toList

/-- formula.py 1007-1012 -/
def attrSum : List Opnd → R (List Opnd)
  | aop :: stk => .ok ({ kind := .num, rank := FUNC_RANK, text := sumText aop.text } :: stk)
  | [] => .error .assertion

/-- formula.py 1002-1018: the stack and the size after a tAttr token. -/
def attrTok (data : Bytes) (pos : Int) (stk : List Opnd) : R (List Opnd × Int) := do
  let (subop, nc) ← attrFields data pos
  if subop = 0x04 then pure (stk, (nc : Int) * 2 + 6)
  else if subop = 0x10 then do
    let stk ← attrSum stk
    pure (stk, 4)
  else pure (stk, 4)

/-! ## Evaluation -/

/-- What the evaluation of one name leaves in its `Name` object (`stack` with the top first). -/
structure NameEval where
  stack : List Opnd
  anyRel : Bool
  anyErr : Bool
  deriving DecidableEq

/-- formula.py 1350-1353: `Name.result` -/
def NameEval.result (e : NameEval) : Option Opnd :=
  match e.stack with
  | [o] => some o
  | _ => none

/-- One entry per name: `none` while `evaluated` is 0. -/
abbrev NameTbl := List (Option NameEval)

/-- What evaluation takes from the book and from outside. -/
structure FEnv where
  ops : PyOps
  bv : Nat
  bk : Book
  dec : Bytes → R PyStr

/-- The variables of `evaluate_name_formula` that change. -/
structure EvSt where
  stack : List Opnd
  anyRel : Bool := false
  anyErr : Bool := false
  tbl : NameTbl

/-- formula.py 849-1038: a token without operand class; `sz` is the size from the table. -/
def evPlain (env : FEnv) (data : Bytes) (pos : Int) (opcode : Nat) (sz : Int) (stk : List Opnd) : R (List Opnd × Int) :=
  if opcode ≤ 0x02 then .error .formula
  else if opcode ≤ 0x0E then do let s ← doBinop env.ops opcode stk; pure (s, sz)
  else if opcode = 0x0F then do let s ← doIsect stk; pure (s, sz)
  else if opcode = 0x10 then do let s ← doList stk; pure (s, sz)
  else if opcode = 0x11 then do let s ← doRange stk; pure (s, sz)
  else if opcode ≤ 0x14 then do let s ← doUnaryop env.ops opcode stk; pure (s, sz)
  else if opcode = 0x15 then .ok (stk, sz)
  else if opcode = 0x16 then .ok ({ kind := .msng, rank := LEAF_RANK, text := [] } :: stk, sz)
  else if opcode = 0x17 then do
    let (s, newpos) ← tStr env.bv env.dec data pos
    pure ({ kind := .strg, value := some (.str s), rank := LEAF_RANK, text := strgText s } :: stk, newpos - pos)
  else if opcode = 0x18 then do
    pyAssert (decide (env.bv ≥ 80))
    .error .formula
  else if opcode = 0x19 then attrTok data pos stk
  else if opcode ≤ 0x1B then do
    pyAssert (decide (env.bv < 50))
    .error .formula
  else do
    let (k, v, t) ← constTok env.ops.str opcode data pos
    pure ({ kind := k, value := some v, rank := LEAF_RANK, text := t } :: stk, sz)

/-- `stack[-k]` for `k ≥ 1` -/
def stackAt (stk : List Opnd) (k : Nat) : R Opnd :=
  match stk[k - 1]? with
  | some o => .ok o
  | none => .error .index

/-- `listsep.join(arg.text for arg in args)` -/
def joinTexts : List PyStr → PyStr
  | [] => []
  | [t] => t
  | t :: ts => t ++ ',' :: joinTexts ts

/-- `"%s(%s)" % (func_name, argtext)` -/
def callText (name : PyStr) (args : List PyStr) : PyStr := name ++ '(' :: joinTexts args ++ [')']

/-- `stack[-n:]` in stack order (top first): all of the stack for `n = 0`. -/
def topArgs {α} (stk : List α) (n : Nat) : List α := if n = 0 then stk else stk.take n

/-- `del stack[-n:]` -/
def dropArgs {α} (stk : List α) (n : Nat) : List α := if n = 0 then [] else stk.drop n

/-- The function number of a tFunc token (formula.py 1046-1047). -/
def funcxAt (bv : Nat) (data : Bytes) (pos : Int) : R Nat :=
  if bv ≥ 40 then unpackH (slice data (pos + 1) (pos + 3)) else unpackB (slice data (pos + 1) (pos + 2))

/-- formula.py 1045-1066 (tFunc) -/
def funcTok (bv : Nat) (data : Bytes) (pos : Int) (stk : List Opnd) : R (List Opnd) := do
  let funcx ← funcxAt bv data pos
  match funcDef funcx with
  | none => pure ({} :: stk)
  | some (name, nargs, _) => do
    pyAssert (decide (stk.length ≥ nargs))
    if nargs = 0 then pure ({ rank := FUNC_RANK, text := callText name [] } :: stk)
    else pure ({ rank := FUNC_RANK, text := callText name ((stk.take nargs).reverse.map Opnd.text) } :: stk.drop nargs)

/-- The number of arguments and the function number of a tFuncVar token (formula.py 1068-1071). -/
def funcVarFields (bv : Nat) (data : Bytes) (pos : Int) : R (Nat × Nat) := do
  let b ← if bv ≥ 40 then unpackN 3 (slice data (pos + 1) (pos + 4)) else unpackN 2 (slice data (pos + 1) (pos + 3))
  pure (fld b 0 1 % 128, (if bv ≥ 40 then fld b 1 2 else fld b 1 1) % 32768)

/-- `testarg.value in (0, 1)`, and which -/
def zeroOne : Option PVal → Option Bool
  | some (.num (.fin q)) => if q = 0 then some false else if q = 1 then some true else none
  | some (.int n) => if n = 0 then some false else if n = 1 then some true else none
  | _ => none

/-- formula.py 1105-1109, 1117-1120: the chosen argument as the result. -/
def chooseArg (res chosen : Opnd) : Opnd :=
  if chosen.kind = .msng then { res with kind := .num, value := some (.int 0) }
  else { res with kind := chosen.kind, value := chosen.value }

/-- formula.py 1091-1111: IF with a constant condition. -/
def evalIf (nargs : Nat) (stk : List Opnd) (res : Opnd) : R Opnd := do
  let test ← stackAt stk nargs
  if ¬ (test.kind = .num ∨ test.kind = .bool) then pure res
  else match zeroOne test.value with
    | none => pure res
    | some t =>
      if nargs = 2 ∧ ¬ t then pure { res with kind := .bool, value := some (.int 0) }
      else do
        let chosen ← stackAt stk (if t then nargs - 1 else nargs - 2)
        pure (chooseArg res chosen)

/-- `1 <= value < nargs`, and `int(value)` if so; None and non-numbers cannot be compared. -/
def chooseIndex (nargs : Nat) : Option PVal → R (Option Nat)
  | some (.num (.fin q)) => .ok (if 1 ≤ q ∧ q < nargs then some (truncQ q).toNat else none)
  | some (.num _) => .ok none
  | some (.int n) => .ok (if 1 ≤ n ∧ n < nargs then some n.toNat else none)
  | _ => .error .type

/-- formula.py 1112-1120: CHOOSE with a constant index. -/
def evalChoose (nargs : Nat) (stk : List Opnd) (res : Opnd) : R Opnd := do
  let test ← stackAt stk nargs
  if test.kind = .num then do
    match ← chooseIndex nargs test.value with
    | none => pure res
    | some i => do
      let chosen ← stackAt stk (nargs - i)
      pure (chooseArg res chosen)
  else pure res

/-- formula.py 1089-1120: IF and CHOOSE are evaluated. -/
def varResult (funcx nargs : Nat) (stk : List Opnd) (res : Opnd) : R Opnd :=
  if funcx = 1 then evalIf nargs stk res else if funcx = 100 then evalChoose nargs stk res else .ok res

/-- formula.py 1067-1122 (tFuncVar) -/
def funcVarTok (bv : Nat) (data : Bytes) (pos : Int) (stk : List Opnd) : R (List Opnd) := do
  let (nargs, funcx) ← funcVarFields bv data pos
  match funcDef funcx with
  | none => pure ({} :: stk)
  | some (name, minargs, maxargs) => do
    pyAssert (decide (minargs ≤ nargs ∧ nargs ≤ maxargs))
    pyAssert (decide (stk.length ≥ nargs))
    let res : Opnd := { rank := FUNC_RANK, text := callText name ((topArgs stk nargs).reverse.map Opnd.text) }
    let res ← varResult funcx nargs stk res
    pure (res :: dropArgs stk nargs)

/-- formula.py 1145-1149, 1324-1328: how a name is written. `_sheet_names[scope]` is Python indexing, so the scopes -2 and -3 count from the
end. -/
def nameShown (b : Book) (o : NameObj) : R PyStr :=
  if o.scope = some (-1) then .ok o.name
  else do
    let s ← match o.scope with
      | some s => idx b.sheetNames s
      | none => .error .type
    pure (s ++ '!' :: o.name)

/-- The position in the list that a Python index refers to. -/
def pyPos {α} (l : List α) (i : Int) : Nat := if i < 0 then (i + l.length).toNat else i.toNat

/-- formula.py 1130-1133, 1309-1312: a name is evaluated unless it has been; `rc` evaluates a name one level deeper. -/
def evaluated (rc : NameTbl → Nat → Int → R NameTbl) (tbl : NameTbl) (i : Nat) (tgt : Int) : R NameTbl :=
  match tbl[i]? with
  | some (some _) => .ok tbl
  | _ => rc tbl i tgt

/-- formula.py 1134-1152, 1313-1331: the operand for a name that has been evaluated. -/
def useName (env : FEnv) (o : NameObj) (e : NameEval) (st : EvSt) : R EvSt :=
  if o.macroFlag ≠ 0 ∨ o.binary ≠ 0 ∨ e.anyErr then do
    let t ← nameShown env.bk o
    pure { st with stack := { rank := LEAF_RANK, text := t } :: st.stack, anyErr := true, anyRel := st.anyRel || e.anyRel }
  else
    match e.stack with
    | [r] => do
      let t ← nameShown env.bk o
      pure { st with stack := { r with rank := LEAF_RANK, text := t } :: st.stack }
    | _ => .error .assertion

/-- formula.py 1127-1152, 1306-1331: the value of another name. -/
def nameRef (env : FEnv) (rc : NameTbl → Nat → Int → R NameTbl) (st : EvSt) (tgt : Int) : R EvSt := do
  let o ← idx env.bk.nameObjs tgt
  let tbl ← evaluated rc st.tbl (pyPos env.bk.nameObjs tgt) tgt
  match tbl[pyPos env.bk.nameObjs tgt]? with
  | some (some e) => useName env o e { st with tbl := tbl }
  | _ => .error .attr

/-- formula.py 1153-1166 (tRef) -/
def evRef (env : FEnv) (data : Bytes) (pos : Int) (optype : Nat) (st : EvSt) : R EvSt := do
  let a ← getCellAddr data (pos + 1) env.bv true none none
  let o : Opnd := if optype = 1 then
      { kind := .relref
        value := some (.refs [{ shtxlo := 0, shtxhi := 1, rowxlo := a.rowx, rowxhi := a.rowx + 1, colxlo := a.colx, colxhi := a.colx + 1
                                relflags := [true, true, a.rowRel, a.rowRel, a.colRel, a.colRel] }]) }
    else {}
  pure { st with stack := o :: st.stack, anyRel := true }

/-- formula.py 1167-1181 (tArea) -/
def evArea (env : FEnv) (data : Bytes) (pos : Int) (optype : Nat) (st : EvSt) : R EvSt := do
  let (a, z) ← getCellRangeAddr data (pos + 1) env.bv true none none
  let o : Opnd := if optype = 1 then
      { kind := .relref
        value := some (.refs [{ shtxlo := 0, shtxhi := 1, rowxlo := a.rowx, rowxhi := z.rowx + 1, colxlo := a.colx, colxhi := z.colx + 1
                                relflags := [true, true, a.rowRel, z.rowRel, a.colRel, z.colRel] }]) }
    else {}
  pure { st with stack := o :: st.stack, anyRel := true }

/-- The sheets of a tRef3d or tArea3d token (formula.py 1202-1212). -/
def sheets3d (bv : Nat) (bk : Book) (data : Bytes) (pos : Int) : R (Int × Int) :=
  if bv ≥ 80 then do
    let refx ← unpackH (slice data (pos + 1) (pos + 3))
    externRange bk refx
  else do
    let b ← unpackN 14 (slice data (pos + 1) (pos + 15))
    externRange57 bk (sgn 16 (fld b 0 2)) (sgn 16 (fld b 10 2)) (sgn 16 (fld b 12 2))

/-- formula.py 1219-1232, 1252-1266: the operand for a reference with sheets; texts of relative references are in R1C1 style in names. -/
def ref3dOpnd (bk : Book) (optype : Nat) (r : RelRef) (isRel : Bool) (browx bcolx : Option Int) (r1c1 : Bool) : R Opnd := do
  let text ← if isRel then
      rangename3drel bk.sheetNames r.shtxlo r.shtxhi r.rowxlo r.rowxhi r.colxlo r.colxhi (r.relflags.getD 0 false) (r.relflags.getD 1 false)
        (r.relflags.getD 2 false) (r.relflags.getD 3 false) (r.relflags.getD 4 false) (r.relflags.getD 5 false) browx bcolx r1c1
    else rangename3d bk.sheetNames r.shtxlo r.shtxhi r.rowxlo r.rowxhi r.colxlo r.colxhi
  pure { kind := if isRel then .relref else .ref
         value := if optype = 1 then some (.refs [r]) else none
         rank := LEAF_RANK, text := text }

/-- The reference from sheets and two addresses; `relflags` are kept only if one of them is set. -/
def mkRef3d (s : Int × Int) (a z : Addr) : RelRef :=
  { shtxlo := s.1, shtxhi := s.2 + 1, rowxlo := a.rowx, rowxhi := z.rowx + 1, colxlo := a.colx, colxhi := z.colx + 1
    relflags := [false, false, a.rowRel, z.rowRel, a.colRel, z.colRel] }

/-- formula.py 1201-1232 (tRef3d) -/
def evRef3d (env : FEnv) (data : Bytes) (pos : Int) (optype : Nat) (st : EvSt) : R EvSt := do
  let a ← getCellAddr data (if env.bv ≥ 80 then pos + 3 else pos + 15) env.bv true none none
  let s ← sheets3d env.bv env.bk data pos
  let isRel := a.rowRel || a.colRel
  let o ← ref3dOpnd env.bk optype (mkRef3d s a a) isRel none none true
  pure { st with stack := o :: st.stack, anyRel := st.anyRel || isRel, anyErr := st.anyErr || decide (s.1 < -1) }

/-- formula.py 1233-1266 (tArea3d) -/
def evArea3d (env : FEnv) (data : Bytes) (pos : Int) (optype : Nat) (st : EvSt) : R EvSt := do
  let (a, z) ← getCellRangeAddr data (if env.bv ≥ 80 then pos + 3 else pos + 15) env.bv true none none
  let s ← sheets3d env.bv env.bk data pos
  let isRel := a.rowRel || a.colRel || z.rowRel || z.colRel
  let o ← ref3dOpnd env.bk optype (mkRef3d s a z) isRel none none true
  pure { st with stack := o :: st.stack, anyRel := st.anyRel || isRel, anyErr := st.anyErr || decide (s.1 < -1) }

/-- formula.py 1270-1283, 1810-1823: the fields of a tNameX token: the reference as stored, as an index, the name, and whether the reference
is dodgy. -/
def nameXFields (bv : Nat) (data : Bytes) (pos : Int) : R (Int × Int × Int × Bool) :=
  if bv ≥ 80 then do
    let b ← unpackN 4 (slice data (pos + 1) (pos + 5))
    pure (fld b 0 2, fld b 0 2, (fld b 2 2 : Int) - 1, false)
  else do
    let b ← unpackN 12 (slice data (pos + 1) (pos + 13))
    let orig := sgn 16 (fld b 0 2)
    pure (orig, if orig > 0 then orig - 1 else if orig < 0 then -orig - 1 else orig, (fld b 10 2 : Int) - 1, decide (orig = 0))

/-- formula.py 1290-1300, 1830-1840: where the name of a tNameX token is. -/
def nameXRange (bv : Nat) (bk : Book) (orig refx : Int) : R (Int × Int) :=
  if bv ≥ 80 then externRange bk refx.toNat
  else if orig > 0 then .ok (-4, -4)
  else do
    let ty ← idx bk.externsheetTypeB57 refx
    pure (if ty = 4 then (-1, -1) else (-666, -666))

/-- `"<<Name #%d in external(?) file #%d>>"` -/
def externNameText (tgt orig : Int) : PyStr :=
  "<<Name #".toList ++ intDec tgt ++ " in external(?) file #".toList ++ intDec orig ++ ">>".toList

/-- formula.py 1267-1331 (tNameX) -/
def evNameX (env : FEnv) (rc : NameTbl → Nat → Int → R NameTbl) (namex : Int) (data : Bytes) (pos : Int) (st : EvSt) : R EvSt := do
  let (orig, refx, tgt, dodgy) ← nameXFields env.bv data pos
  let st := if tgt = namex then { st with anyErr := true } else st
  if dodgy || decide (tgt = namex) then
    pure { st with stack := { rank := LEAF_RANK, text := externNameText tgt orig } :: st.stack }
  else do
    let s ← nameXRange env.bv env.bk orig refx
    if s.1 < -1 then pure { st with stack := { rank := LEAF_RANK, text := externNameText tgt orig } :: st.stack }
    else nameRef env rc st tgt

/-- formula.py 397 `error_opcodes` (as far as an opcode of 5 bits can be one) -/
def errorOpcodes : List Nat := [0x07, 0x08, 0x0A, 0x0B, 0x1C, 0x1D]

/-- formula.py 1043-1338: a token with an operand class. -/
def evClass (env : FEnv) (rc : NameTbl → Nat → Int → R NameTbl) (namex : Int) (data : Bytes) (pos : Int) (opcode optype : Nat) (st : EvSt) :
    R EvSt :=
  if opcode = 0x00 then .ok { st with stack := {} :: st.stack }
  else if opcode = 0x01 then do let s ← funcTok env.bv data pos st.stack; pure { st with stack := s }
  else if opcode = 0x02 then do let s ← funcVarTok env.bv data pos st.stack; pure { st with stack := s }
  else if opcode = 0x03 then do
    let n ← unpackH (slice data (pos + 1) (pos + 3))
    nameRef env rc st ((n : Int) - 1)
  else if opcode = 0x04 then evRef env data pos optype st
  else if opcode = 0x05 then evArea env data pos optype st
  else if opcode = 0x06 ∨ opcode = 0x0C ∨ opcode = 0x0D then .error .formula
  else if opcode = 0x09 then do
    let _ ← unpackH (slice data (pos + 1) (pos + 3))
    pure st
  else if opcode = 0x1A then evRef3d env data pos optype st
  else if opcode = 0x1B then evArea3d env data pos optype st
  else if opcode = 0x19 then evNameX env rc namex data pos st
  else if opcode ∈ errorOpcodes then .ok { st with stack := { kind := .err } :: st.stack, anyErr := true }
  else .ok { st with anyErr := true }

/-- formula.py 832-848, 1039-1042, 1339-1341: one token; `tab` is the table of sizes. -/
def evStep (env : FEnv) (rc : NameTbl → Nat → Int → R NameTbl) (tab : List Int) (namex : Int) (data : Bytes) (pos : Int) (st : EvSt) :
    R (EvSt × Int) := do
  let op ← byteAt data pos
  let opcode := op % 32
  let optype := op / 32 % 4
  let sz := tab.getD (if optype = 0 then opcode else opcode + 32) (-2)
  if sz = -2 then .error .formula
  else if optype = 0 then do
    let (s, sz) ← evPlain env data pos opcode sz st.stack
    if sz ≤ 0 then .error .formula else pure ({ st with stack := s }, pos + sz)
  else do
    let st ← evClass env rc namex data pos opcode optype st
    if sz ≤ 0 then .error .formula else pure (st, pos + sz)

/-- formula.py 831-1341: the loop over the tokens; the first argument bounds the number of steps. -/
def evLoop (env : FEnv) (rc : NameTbl → Nat → Int → R NameTbl) (tab : List Int) (namex : Int) (data : Bytes) (fmlalen : Nat) :
    Nat → EvSt → Int → R EvSt
  | 0, st, pos => if 0 ≤ pos ∧ pos < fmlalen then .error .recursion else .ok st
  | fuel + 1, st, pos =>
    if 0 ≤ pos ∧ pos < fmlalen then do
      let (st, pos) ← evStep env rc tab namex data pos st
      evLoop env rc tab namex data fmlalen fuel st pos
    else .ok st

/-- The body of `evaluate_name_formula` for the name at position `i`. -/
def evBody (env : FEnv) (rc : NameTbl → Nat → Int → R NameTbl) (tbl : NameTbl) (i : Nat) (namex : Int) : R NameTbl :=
  match env.bk.nameObjs[i]? with
  | none => .error .index
  | some o => do
    let tab ← szdict env.bv
    let st ← evLoop env rc tab namex o.rawFormula o.basicFormulaLen o.basicFormulaLen
      { stack := if o.basicFormulaLen = 0 then [{}] else [], tbl := tbl } 0
    pure (st.tbl.set i (some { stack := st.stack, anyRel := st.anyRel, anyErr := st.anyErr }))

/-- formula.py 752-1357 `evaluate_name_formula`; the first argument is 11 minus the level. -/
def evaluateName (env : FEnv) : Nat → NameTbl → Nat → Int → R NameTbl
  | 0, _, _, _ => .error .xlrd
  | k + 1, tbl, i, namex => evBody env (evaluateName env k) tbl i namex

/-- book.py 1043-1045: one name, unless it is a macro or binary data or has been evaluated. -/
def evalTop (env : FEnv) (o : NameObj) (tbl : NameTbl) (i : Nat) : R NameTbl :=
  if o.macroFlag ≠ 0 ∨ o.binary ≠ 0 then .ok tbl else evaluated (evaluateName env 11) tbl i (i : Int)

/-- book.py 1041-1045: the names that are neither macros nor binary data are evaluated in order. -/
def evaluateNames (env : FEnv) : List NameObj → Nat → NameTbl → R NameTbl
  | [], _, tbl => .ok tbl
  | o :: os, i, tbl => do
    let tbl ← evalTop env o tbl i
    evaluateNames env os (i + 1) tbl

/-- The evaluation of all names of a book. -/
def bookNames (env : FEnv) : R NameTbl := evaluateNames env env.bk.nameObjs 0 (env.bk.nameObjs.map fun _ => none)

/-- The environment of the evaluation that `names_epilogue` makes. -/
def nameEnv (ops : PyOps) (env : BookEnv) (b : Book) : FEnv := { ops := ops, bv := env.bv, bk := b, dec := b.dec env }

/-- `BookEnv.evalNames` is the evaluation of book.py 1041-1045 (the results are attributes of the `Name` objects and not in `Book`). -/
def EvaluatesNames (ops : PyOps) (env : BookEnv) : Prop := ∀ b, env.evalNames b = (bookNames (nameEnv ops env b)).map fun _ => ()

/-- book.py 209-213, 243-247: `Name.result` as `cell` and `area2d` use it; `len(None)` is a TypeError. -/
def opndRefs : Option Opnd → R NameResult
  | none => .ok none
  | some o =>
    if o.kind = .ref then
      match o.value with
      | some (.refs l) => .ok (some (l.map RelRef.toRef3D))
      | some (.str _) => .ok none
      | _ => .error .type
    else .ok none

/-! ## Texts of formulas -/

/-- `decompile_formula` works with operands of which value is never used; the integer that tRange pushes when an operand is
an error is `none`. -/
structure DOpnd where
  kind : OKind := .unk
  rank : Nat := 0
  text : PyStr := ['?']
  deriving DecidableEq

/-- An attribute of a stack item; integers have none of them. -/
def ditem : Option DOpnd → R DOpnd
  | some o => .ok o
  | none => .error .attr

/-- formula.py 1360-1365: what the caller gives. `reldelta` is derived from the type of the formula; the messages about tokens
that a type of formula should not have are not modelled.  Without a type (the default, which no caller in xlrd uses) the code fails on any
formula that is not empty; this is not modelled. -/
structure DEnv where
  str : PVal → PyStr
  bv : Nat
  bk : Book
  dec : Bytes → R PyStr
  reldelta : Bool
  browx : Option Int
  bcolx : Option Int
  r1c1 : Bool

/-- formula.py 1383-1398 `do_binop` -/
def dBinop (opcode : Nat) : List (Option DOpnd) → R (List (Option DOpnd))
  | bop :: aop :: stk => do
    let (_, k, rank, sym) ← binRule opcode
    let a ← ditem aop
    let b ← ditem bop
    pure (some { kind := k, rank := rank, text := binText rank sym a.rank a.text b.rank b.text } :: stk)
  | _ => .error .assertion

/-- formula.py 1400-1411 `do_unaryop` -/
def dUnaryop (opcode : Nat) : List (Option DOpnd) → R (List (Option DOpnd))
  | aop :: stk => do
    let (rank, s1, s2) ← unRule opcode
    let a ← ditem aop
    pure (some { kind := .num, rank := rank, text := unText rank s1 s2 a.rank a.text } :: stk)
  | [] => .error .assertion

/-- formula.py 1459-1494 (tIsect) -/
def dIsect : List (Option DOpnd) → R (List (Option DOpnd))
  | bop :: aop :: stk => do
    let a ← ditem aop
    let b ← ditem bop
    pure (some { kind := if b.kind = .err ∨ a.kind = .err then .err
                         else if b.kind = .unk ∨ a.kind = .unk then .ref
                         else if b.kind = .relref ∧ a.kind = .relref then .relref else .ref
                 text := binText 80 " ".toList a.rank a.text b.rank b.text } :: stk)
  | _ => .error .assertion

/-- formula.py 1495-1521 (tList) -/
def dList : List (Option DOpnd) → R (List (Option DOpnd))
  | bop :: aop :: stk => do
    let a ← ditem aop
    let b ← ditem bop
    pure (some { kind := if b.kind = .err ∨ a.kind = .err then .err
                         else if (b.kind = .ref ∨ b.kind = .relref) ∧ (a.kind = .ref ∨ a.kind = .relref) ∧ (a.kind = .relref ∨ b.kind = .relref)
                           then .relref else .ref
                 rank := 80, text := binText 80 ",".toList a.rank a.text b.rank b.text } :: stk)
  | _ => .error .assertion

/-- formula.py 1522-1546 (tRange): the integer oERR is pushed if an operand is an error. -/
def dRange : List (Option DOpnd) → R (List (Option DOpnd))
  | bop :: aop :: stk => do
    let a ← ditem aop
    let b ← ditem bop
    pure ((if b.kind = .err ∨ a.kind = .err then none
           else some { kind := .ref, rank := 80, text := binText 80 ":".toList a.rank a.text b.rank b.text }) :: stk)
  | _ => .error .assertion

/-- formula.py 1443-1453 (tExp) -/
def dExp (bv : Nat) (data : Bytes) (fmlalen : Nat) (pos sz : Int) (stk : List (Option DOpnd)) : R (List (Option DOpnd)) := do
  pyAssert (decide (pos = 0 ∧ (fmlalen : Int) = sz ∧ stk = []))
  let b ← if bv ≥ 30 then unpackN 5 data else unpackN 4 data
  let rowx := fld b 1 2
  let colx := if bv ≥ 30 then fld b 3 2 else fld b 3 1
  pure (some { rank := LEAF_RANK, text := "SHARED FMLA at rowx=".toList ++ natDec rowx ++ " colx=".toList ++ natDec colx } :: stk)

/-- formula.py 1575-1580 -/
def dAttrSum : List (Option DOpnd) → R (List (Option DOpnd))
  | aop :: stk => do
    let a ← ditem aop
    pure (some { kind := .num, rank := FUNC_RANK, text := sumText a.text } :: stk)
  | [] => .error .assertion

/-- formula.py 1570-1586 (tAttr) -/
def dAttr (data : Bytes) (pos : Int) (stk : List (Option DOpnd)) : R (List (Option DOpnd) × Int) := do
  let (subop, nc) ← attrFields data pos
  if subop = 0x04 then pure (stk, (nc : Int) * 2 + 6)
  else if subop = 0x10 then do
    let stk ← dAttrSum stk
    pure (stk, 4)
  else pure (stk, 4)

/-- formula.py 1442-1606: a token without operand class. -/
def dPlain (env : DEnv) (data : Bytes) (fmlalen : Nat) (pos : Int) (opcode : Nat) (sz : Int) (stk : List (Option DOpnd)) :
    R (List (Option DOpnd) × Int) :=
  if opcode ≤ 0x01 then do let s ← dExp env.bv data fmlalen pos sz stk; pure (s, sz)
  else if opcode = 0x02 then .error .formula
  else if opcode ≤ 0x0E then do let s ← dBinop opcode stk; pure (s, sz)
  else if opcode = 0x0F then do let s ← dIsect stk; pure (s, sz)
  else if opcode = 0x10 then do let s ← dList stk; pure (s, sz)
  else if opcode = 0x11 then do let s ← dRange stk; pure (s, sz)
  else if opcode ≤ 0x14 then do let s ← dUnaryop opcode stk; pure (s, sz)
  else if opcode = 0x15 then .ok (stk, sz)
  else if opcode = 0x16 then .ok (some { kind := .msng, rank := LEAF_RANK, text := [] } :: stk, sz)
  else if opcode = 0x17 then do
    let (s, newpos) ← tStr env.bv env.dec data pos
    pure (some { kind := .strg, rank := LEAF_RANK, text := strgText s } :: stk, newpos - pos)
  else if opcode = 0x18 then do
    pyAssert (decide (env.bv ≥ 80))
    .error .formula
  else if opcode = 0x19 then dAttr data pos stk
  else if opcode ≤ 0x1B then do
    pyAssert (decide (env.bv < 50))
    .error .formula
  else do
    let (k, _, t) ← constTok env.str opcode data pos
    pure (some { kind := k, rank := LEAF_RANK, text := t } :: stk, sz)

/-- The texts of arguments, in the order in which they were pushed. -/
def dTexts (l : List (Option DOpnd)) : R (List PyStr) := (l.reverse).mapM fun o => do let o ← ditem o; pure o.text

/-- formula.py 1613-1633 (tFunc) -/
def dFunc (bv : Nat) (data : Bytes) (pos : Int) (stk : List (Option DOpnd)) : R (List (Option DOpnd)) := do
  let funcx ← funcxAt bv data pos
  match funcDef funcx with
  | none => pure (some {} :: stk)
  | some (name, nargs, _) => do
    pyAssert (decide (stk.length ≥ nargs))
    if nargs = 0 then pure (some { rank := FUNC_RANK, text := callText name [] } :: stk)
    else do
      let ts ← dTexts (stk.take nargs)
      pure (some { rank := FUNC_RANK, text := callText name ts } :: stk.drop nargs)

/-- formula.py 1643-1646 -/
def dFuncDef (funcx : Nat) : Option (PyStr × Nat × Nat) := if funcx = 255 then some ("CALL_ADDIN".toList, 1, 30) else funcDef funcx

/-- formula.py 1634-1663 (tFuncVar) -/
def dFuncVar (bv : Nat) (data : Bytes) (pos : Int) (stk : List (Option DOpnd)) : R (List (Option DOpnd)) := do
  let (nargs, funcx) ← funcVarFields bv data pos
  match dFuncDef funcx with
  | none => pure (some {} :: stk)
  | some (name, minargs, maxargs) => do
    pyAssert (decide (minargs ≤ nargs ∧ nargs ≤ maxargs))
    pyAssert (decide (stk.length ≥ nargs))
    let ts ← dTexts (topArgs stk nargs)
    pure (some { rank := FUNC_RANK, text := callText name ts } :: dropArgs stk nargs)

/-- formula.py 1677-1688, 1711-1724 (tRef, tRefN) -/
def dRef (env : DEnv) (data : Bytes) (pos : Int) : R DOpnd := do
  let a ← getCellAddr data (pos + 1) env.bv env.reldelta env.browx env.bcolx
  let t ← cellnamerel a.rowx a.colx a.rowRel a.colRel env.browx env.bcolx env.r1c1
  pure { kind := if a.rowRel || a.colRel then .relref else .ref, rank := LEAF_RANK, text := t }

/-- formula.py 1689-1704, 1725-1744 (tArea, tAreaN) -/
def dArea (env : DEnv) (data : Bytes) (pos : Int) : R DOpnd := do
  let (a, z) ← getCellRangeAddr data (pos + 1) env.bv env.reldelta env.browx env.bcolx
  let t ← rangename2drel a.rowx (z.rowx + 1) a.colx (z.colx + 1) a.rowRel z.rowRel a.colRel z.colRel env.browx env.bcolx env.r1c1
  pure { kind := if a.rowRel || z.rowRel || a.colRel || z.colRel then .relref else .ref, rank := LEAF_RANK, text := t }

/-- formula.py 1745-1775 (tRef3d) -/
def dRef3d (env : DEnv) (data : Bytes) (pos : Int) : R DOpnd := do
  let a ← getCellAddr data (if env.bv ≥ 80 then pos + 3 else pos + 15) env.bv env.reldelta env.browx env.bcolx
  let s ← sheets3d env.bv env.bk data pos
  let o ← ref3dOpnd env.bk 0 (mkRef3d s a a) (a.rowRel || a.colRel) env.browx env.bcolx env.r1c1
  pure { kind := o.kind, rank := o.rank, text := o.text }

/-- formula.py 1776-1806 (tArea3d): the addresses are read without the base cell. -/
def dArea3d (env : DEnv) (data : Bytes) (pos : Int) : R DOpnd := do
  let (a, z) ← getCellRangeAddr data (if env.bv ≥ 80 then pos + 3 else pos + 15) env.bv env.reldelta none none
  let s ← sheets3d env.bv env.bk data pos
  let o ← ref3dOpnd env.bk 0 (mkRef3d s a z) (a.rowRel || a.colRel || z.rowRel || z.colRel) env.browx env.bcolx env.r1c1
  pure { kind := o.kind, rank := o.rank, text := o.text }

/-- formula.py 1807-1860 (tNameX). For a dodgy reference `shx1` has not been assigned, unless an earlier token of the same formula with a sheet
assigned it (BIFF 7 and before; then the code goes on with that value, the model does not). -/
def dNameX (env : DEnv) (data : Bytes) (pos : Int) : R DOpnd := do
  let (orig, refx, tgt, dodgy) ← nameXFields env.bv data pos
  if dodgy then .error .name
  else do
    let s ← nameXRange env.bv env.bk orig refx
    if s.1 = -5 then do
      let n ← idx env.bk.addinFuncNames tgt
      pure { kind := .strg, rank := LEAF_RANK, text := strgText n }
    else if s.1 < -1 then pure { rank := LEAF_RANK, text := externNameText tgt orig }
    else do
      let o ← idx env.bk.nameObjs tgt
      let t ← nameShown env.bk o
      pure { rank := LEAF_RANK, text := t }

/-- formula.py 1664-1676 (tName) -/
def dName (env : DEnv) (data : Bytes) (pos : Int) : R DOpnd := do
  let n ← unpackH (slice data (pos + 1) (pos + 3))
  let o ← idx env.bk.nameObjs ((n : Int) - 1)
  let t ← nameShown env.bk o
  pure { rank := LEAF_RANK, text := t }

/-- formula.py 1611-1867: a token with an operand class. In tMemArea the code calls a function that does not exist. -/
def dClass (env : DEnv) (data : Bytes) (pos : Int) (opcode : Nat) (stk : List (Option DOpnd)) : R (List (Option DOpnd)) :=
  if opcode = 0x00 then .ok (some {} :: stk)
  else if opcode = 0x01 then dFunc env.bv data pos stk
  else if opcode = 0x02 then dFuncVar env.bv data pos stk
  else if opcode = 0x03 then do let o ← dName env data pos; pure (some o :: stk)
  else if opcode = 0x04 ∨ opcode = 0x0C then do let o ← dRef env data pos; pure (some o :: stk)
  else if opcode = 0x05 ∨ opcode = 0x0D then do let o ← dArea env data pos; pure (some o :: stk)
  else if opcode = 0x06 then .error .name
  else if opcode = 0x09 then do
    let _ ← unpackH (slice data (pos + 1) (pos + 3))
    pure stk
  else if opcode = 0x1A then do let o ← dRef3d env data pos; pure (some o :: stk)
  else if opcode = 0x1B then do let o ← dArea3d env data pos; pure (some o :: stk)
  else if opcode = 0x19 then do let o ← dNameX env data pos; pure (some o :: stk)
  else if opcode ∈ errorOpcodes then .ok (some { kind := .err } :: stk)
  else .ok stk

/-- formula.py 1423-1441, 1607-1610, 1868-1870: one token. -/
def dStep (env : DEnv) (tab : List Int) (data : Bytes) (fmlalen : Nat) (pos : Int) (stk : List (Option DOpnd)) :
    R (List (Option DOpnd) × Int) := do
  let op ← byteAt data pos
  let opcode := op % 32
  let optype := op / 32 % 4
  let sz := tab.getD (if optype = 0 then opcode else opcode + 32) (-2)
  if sz = -2 then .error .formula
  else if optype = 0 then do
    let (s, sz) ← dPlain env data fmlalen pos opcode sz stk
    if sz ≤ 0 then .error .formula else pure (s, pos + sz)
  else do
    let s ← dClass env data pos opcode stk
    if sz ≤ 0 then .error .formula else pure (s, pos + sz)

/-- formula.py 1422-1870: the loop over the tokens. -/
def dLoop (env : DEnv) (tab : List Int) (data : Bytes) (fmlalen : Nat) : Nat → List (Option DOpnd) → Int → R (List (Option DOpnd))
  | 0, stk, pos => if 0 ≤ pos ∧ pos < fmlalen then .error .recursion else .ok stk
  | fuel + 1, stk, pos =>
    if 0 ≤ pos ∧ pos < fmlalen then do
      let (stk, pos) ← dStep env tab data fmlalen pos stk
      dLoop env tab data fmlalen fuel stk pos
    else .ok stk

/-- formula.py 1360-1883 `decompile_formula` at level 0: the text, or None. -/
def decompile (env : DEnv) (data : Bytes) (fmlalen : Nat) : R (Option PyStr) := do
  let tab ← szdict env.bv
  let stk ← dLoop env tab data fmlalen fmlalen (if fmlalen = 0 then [some {}] else []) 0
  match stk with
  | [o] => do let o ← ditem o; pure (some o.text)
  | _ => pure none

end Xlrd
