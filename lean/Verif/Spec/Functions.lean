/-!
# The functions of worksheet formulas (C50)

The numbers by which the file format names the functions of Excel, and how many arguments those take that always have the same number of arguments
(a call of such a function does not store the number).  The list is written down from the documentation of the format, not from the table in
xlrd/formula.py.
-/
namespace Xlrd.Spec

/-- The functions, as runs of consecutive numbers: the first number; the names and, if it is fixed, the number of arguments. -/
def functionRuns : List (Nat × List (String × Option Nat)) := [
  (0, [
    ("COUNT", none), ("IF", none), ("ISNA", some 1), ("ISERROR", some 1), ("SUM", none), ("AVERAGE", none), ("MIN", none), ("MAX", none),
    ("ROW", none), ("COLUMN", none), ("NA", some 0), ("NPV", none), ("STDEV", none), ("DOLLAR", none), ("FIXED", none), ("SIN", some 1),
    ("COS", some 1), ("TAN", some 1), ("ATAN", some 1), ("PI", some 0), ("SQRT", some 1), ("EXP", some 1), ("LN", some 1), ("LOG10", some 1),
    ("ABS", some 1), ("INT", some 1), ("SIGN", some 1), ("ROUND", some 2), ("LOOKUP", none), ("INDEX", none), ("REPT", some 2), ("MID", some 3),
    ("LEN", some 1), ("VALUE", some 1), ("TRUE", some 0), ("FALSE", some 0), ("AND", none), ("OR", none), ("NOT", some 1), ("MOD", some 2),
    ("DCOUNT", some 3), ("DSUM", some 3), ("DAVERAGE", some 3), ("DMIN", some 3), ("DMAX", some 3), ("DSTDEV", some 3), ("VAR", none),
    ("DVAR", some 3), ("TEXT", some 2), ("LINEST", none), ("TREND", none), ("LOGEST", none), ("GROWTH", none)]),
  (56, [
    ("PV", none), ("FV", none), ("NPER", none), ("PMT", none), ("RATE", none), ("MIRR", some 3), ("IRR", none), ("RAND", some 0), ("MATCH", none),
    ("DATE", some 3), ("TIME", some 3), ("DAY", some 1), ("MONTH", some 1), ("YEAR", some 1), ("WEEKDAY", none), ("HOUR", some 1),
    ("MINUTE", some 1), ("SECOND", some 1), ("NOW", some 0), ("AREAS", some 1), ("ROWS", some 1), ("COLUMNS", some 1), ("OFFSET", none)]),
  (82, [
    ("SEARCH", none), ("TRANSPOSE", some 1)]),
  (86, [
    ("TYPE", some 1)]),
  (97, [
    ("ATAN2", some 2), ("ASIN", some 1), ("ACOS", some 1), ("CHOOSE", none), ("HLOOKUP", none), ("VLOOKUP", none)]),
  (105, [
    ("ISREF", some 1)]),
  (109, [
    ("LOG", none)]),
  (111, [
    ("CHAR", some 1), ("LOWER", some 1), ("UPPER", some 1), ("PROPER", some 1), ("LEFT", none), ("RIGHT", none), ("EXACT", some 2), ("TRIM", some 1),
    ("REPLACE", some 4), ("SUBSTITUTE", none), ("CODE", some 1)]),
  (124, [
    ("FIND", none), ("CELL", none), ("ISERR", some 1), ("ISTEXT", some 1), ("ISNUMBER", some 1), ("ISBLANK", some 1), ("T", some 1), ("N", some 1)]),
  (140, [
    ("DATEVALUE", some 1), ("TIMEVALUE", some 1), ("SLN", some 3), ("SYD", some 4), ("DDB", none)]),
  (148, [
    ("INDIRECT", none)]),
  (162, [
    ("CLEAN", some 1), ("MDETERM", some 1), ("MINVERSE", some 1), ("MMULT", some 2)]),
  (167, [
    ("IPMT", none), ("PPMT", none), ("COUNTA", none)]),
  (183, [
    ("PRODUCT", none), ("FACT", some 1)]),
  (189, [
    ("DPRODUCT", some 3), ("ISNONTEXT", some 1)]),
  (193, [
    ("STDEVP", none), ("VARP", none), ("DSTDEVP", some 3), ("DVARP", some 3), ("TRUNC", none), ("ISLOGICAL", some 1), ("DCOUNTA", some 3)]),
  (205, [
    ("FINDB", none), ("SEARCHB", none), ("REPLACEB", some 4), ("LEFTB", none), ("RIGHTB", none), ("MIDB", some 3), ("LENB", some 1),
    ("ROUNDUP", some 2), ("ROUNDDOWN", some 2), ("ASC", some 1), ("DBCS", some 1), ("RANK", none)]),
  (219, [
    ("ADDRESS", none), ("DAYS360", none), ("TODAY", some 0), ("VDB", none)]),
  (227, [
    ("MEDIAN", none), ("SUMPRODUCT", none), ("SINH", some 1), ("COSH", some 1), ("TANH", some 1), ("ASINH", some 1), ("ACOSH", some 1),
    ("ATANH", some 1), ("DGET", some 3)]),
  (244, [
    ("INFO", some 1)]),
  (247, [
    ("DB", none)]),
  (252, [
    ("FREQUENCY", some 2)]),
  (261, [
    ("ERROR.TYPE", some 1)]),
  (269, [
    ("AVEDEV", none), ("BETADIST", none), ("GAMMALN", some 1), ("BETAINV", none), ("BINOMDIST", some 4), ("CHIDIST", some 2), ("CHIINV", some 2),
    ("COMBIN", some 2), ("CONFIDENCE", some 3), ("CRITBINOM", some 3), ("EVEN", some 1), ("EXPONDIST", some 3), ("FDIST", some 3), ("FINV", some 3),
    ("FISHER", some 1), ("FISHERINV", some 1), ("FLOOR", some 2), ("GAMMADIST", some 4), ("GAMMAINV", some 3), ("CEILING", some 2),
    ("HYPGEOMDIST", some 4), ("LOGNORMDIST", some 3), ("LOGINV", some 3), ("NEGBINOMDIST", some 3), ("NORMDIST", some 4), ("NORMSDIST", some 1),
    ("NORMINV", some 3), ("NORMSINV", some 1), ("STANDARDIZE", some 3), ("ODD", some 1), ("PERMUT", some 2), ("POISSON", some 3), ("TDIST", some 3),
    ("WEIBULL", some 4), ("SUMXMY2", some 2), ("SUMX2MY2", some 2), ("SUMX2PY2", some 2), ("CHITEST", some 2), ("CORREL", some 2), ("COVAR", some 2),
    ("FORECAST", some 3), ("FTEST", some 2), ("INTERCEPT", some 2), ("PEARSON", some 2), ("RSQ", some 2), ("STEYX", some 2), ("SLOPE", some 2),
    ("TTEST", some 4), ("PROB", none), ("DEVSQ", none), ("GEOMEAN", none), ("HARMEAN", none), ("SUMSQ", none), ("KURT", none), ("SKEW", none),
    ("ZTEST", none), ("LARGE", some 2), ("SMALL", some 2), ("QUARTILE", some 2), ("PERCENTILE", some 2), ("PERCENTRANK", none), ("MODE", none),
    ("TRIMMEAN", some 2), ("TINV", some 2)]),
  (336, [
    ("CONCATENATE", none), ("POWER", some 2)]),
  (342, [
    ("RADIANS", some 1), ("DEGREES", some 1), ("SUBTOTAL", none), ("SUMIF", none), ("COUNTIF", some 2), ("COUNTBLANK", some 1)]),
  (350, [
    ("ISPMT", some 4), ("DATEDIF", some 3), ("DATESTRING", some 1), ("NUMBERSTRING", some 2), ("ROMAN", none)]),
  (358, [
    ("GETPIVOTDATA", none), ("HYPERLINK", none), ("PHONETIC", some 1), ("AVERAGEA", none), ("MAXA", none), ("MINA", none), ("STDEVPA", none),
    ("VARPA", none), ("STDEVA", none), ("VARA", none)])]

/-- The function with number `n` is called `name` and takes `args` arguments (`none`: not always the same number). -/
def FunctionIs (n : Nat) (name : String) (args : Option Nat) : Prop := ∃ run ∈ functionRuns, ∃ k, run.2[k]? = some (name, args) ∧ n = run.1 + k

end Xlrd.Spec
