import Verif.Spec.Globals

/-!
# Tables of the file format: built-in number formats and default colours
-/
namespace Xlrd.Spec

/-! ## Number formats -/

/-- Thousands separated, without or with two decimals. -/
def wholeNumber : String := "#,##0"
def twoDecimals : String := "#,##0.00"

/-- Negative numbers in parentheses; with a minus sign's worth of room after positive ones. -/
def bracketed (currency number : String) : String := currency ++ number ++ "_);(" ++ currency ++ number ++ ")"

/-- The same with negative numbers in red. -/
def redBracketed (currency number : String) : String := currency ++ number ++ "_);[Red](" ++ currency ++ number ++ ")"

/-- Accounting formats: the currency at the left edge, a dash for zero, text as it is. -/
def accounting (currency number room : String) : String :=
  "_(" ++ currency ++ "* " ++ number ++ "_);_(" ++ currency ++ "* (" ++ number ++ ");_(" ++ currency ++ "* \"-\"" ++ room ++ "_);_(@_)"

/-- The built-in formats 0 to 22 and 37 to 49 in the United States version. -/
def builtinFormat (k : Nat) : Option String :=
  if k ≤ 22 then
    (["General", "0", "0.00", wholeNumber, twoDecimals, bracketed "$" wholeNumber, redBracketed "$" wholeNumber, bracketed "$" twoDecimals,
      redBracketed "$" twoDecimals, "0%", "0.00%", "0.00E+00", "# ?/?", "# ??/??", "m/d/yy", "d-mmm-yy", "d-mmm", "mmm-yy", "h:mm AM/PM", "h:mm:ss AM/PM",
      "h:mm", "h:mm:ss", "m/d/yy" ++ " " ++ "h:mm"] : List String)[k]?
  else if 37 ≤ k then
    ([bracketed "" wholeNumber, redBracketed "" wholeNumber, bracketed "" twoDecimals, redBracketed "" twoDecimals,
      accounting "" wholeNumber "", accounting "$" wholeNumber "", accounting "" twoDecimals "??", accounting "$" twoDecimals "??",
      "mm:ss", "[h]:mm:ss", "mm:ss.0", "##0.0E+0", "@"] : List String)[k - 37]?
  else none

/-- `Format.type`: 1 for dates and times, 2 for numbers, 3 for the general format, 4 for text. -/
def builtinType (k : Nat) : Nat := if k = 0 then 3 else if k = 49 then 4 else if (14 ≤ k ∧ k ≤ 22) ∨ (27 ≤ k ∧ k ≤ 36) ∨ (45 ≤ k ∧ k ≤ 47) ∨ (50 ≤ k ∧ k ≤ 58) ∨ 71 ≤ k
  then 1 else 2

/-- The FORMAT records `fmts`, numbered in file order, and nothing else. -/
def NumberedFormats (fmts : List PyStr) (map : Nat → Option Format) : Prop :=
  ∀ k, match fmts[k]? with
    | some s => ∃ f, map k = some f ∧ f.key = k ∧ f.str = some s ∧ (IsDateFormat s → f.ty = 1) ∧ (¬ IsDateFormat s → f.ty = 3)
    | none => map k = none

/-! ## Colours -/

def hexColour (n : Nat) : Rgb := (n / 65536, n / 256 % 256, n % 256)

/-- The 56 colours of Excel 97. -/
def colours97 : List Nat :=
  [0x000000, 0xFFFFFF, 0xFF0000, 0x00FF00, 0x0000FF, 0xFFFF00, 0xFF00FF, 0x00FFFF,
   0x800000, 0x008000, 0x000080, 0x808000, 0x800080, 0x008080, 0xC0C0C0, 0x808080,
   0x9999FF, 0x993366, 0xFFFFCC, 0xCCFFFF, 0x660066, 0xFF8080, 0x0066CC, 0xCCCCFF,
   0x000080, 0xFF00FF, 0xFFFF00, 0x00FFFF, 0x800080, 0x800000, 0x008080, 0x0000FF,
   0x00CCFF, 0xCCFFFF, 0xCCFFCC, 0xFFFF99, 0x99CCFF, 0xFF99CC, 0xCC99FF, 0xFFCC99,
   0x3366FF, 0x33CCCC, 0x99CC00, 0xFFCC00, 0xFF9900, 0xFF6600, 0x666699, 0x969696,
   0x003366, 0x339966, 0x003300, 0x333300, 0x993300, 0x993366, 0x333399, 0x333333]

/-- The default palette: in BIFF5 and BIFF7 colour 39 is a light grey, before BIFF5 there are 16 colours. -/
def standardPalette (v : Nat) : List Rgb :=
  (if v = 80 then colours97 else if 50 ≤ v then colours97.set 39 0xE3E3E3 else colours97.take 16).map hexColour

end Xlrd.Spec
