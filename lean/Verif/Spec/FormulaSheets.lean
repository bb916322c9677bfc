import Verif.Spec.FormulaText
import Verif.Spec.Names3

/-!
# Names of sheets and sizes of tokens in formulas
-/
namespace Xlrd.Spec

/-- A character that can stand in the name of a sheet without quotes around the name: no operator, no mark of punctuation of formulas. -/
def BareInFormula (c : Char) : Prop := symOf c = none ∧ c ≠ '<' ∧ c ≠ '>' ∧ c ≠ '"' ∧ c ≠ '\'' ∧ c ≠ '[' ∧ c ≠ '!'

instance (c : Char) : Decidable (BareInFormula c) := inferInstanceAs (Decidable (_ ∧ _))

/-- The names of sheets that xlrd puts quotes around, and those that need none. -/
def WordName (n : PyStr) : Prop := n ≠ [] ∧ ('\'' ∈ n ∨ ' ' ∈ n ∨ ∀ c ∈ n, BareInFormula c)

instance (n : PyStr) : Decidable (WordName n) := inferInstanceAs (Decidable (_ ∧ _))

/-- A reference with a sheet: the name of the sheet and the cell, each coordinate with whether it is absolute. -/
def readSheetCell (s : PyStr) : Option (PyStr × Nat × Bool × Nat × Bool) :=
  match readSheets s with
  | some ((a, b), t) => if a = b then (readMixed t).map fun c => (a, c) else none
  | none => none

/-- The same in the R1C1 style: the name of the sheet, the row and the column, offsets as offsets. -/
def readSheetRC (s : PyStr) : Option (PyStr × Coord × Coord) :=
  match readSheets s with
  | some ((a, b), t) => if a = b then (readRC t).map fun c => (a, c) else none
  | none => none

/-- How long a token is. -/
inductive TokenSize
  | absent
  | varying
  | bytes (n : Nat)
  deriving DecidableEq

/-- The columns of the table of tokens: BIFF2, BIFF3, BIFF4, BIFF5 and BIFF7, BIFF8. -/
def versionColumn (bv : Nat) : Option Nat :=
  if bv = 20 ∨ bv = 21 then some 0
  else if bv = 30 then some 1
  else if bv = 40 ∨ bv = 45 then some 2
  else if bv = 50 ∨ bv = 70 then some 3
  else if bv = 80 then some 4
  else none

/-- The sizes of the tokens in the documentation of the format, with the type byte, in BIFF2, 3, 4, 5/7 and 8; 0 stands for a token that
the version does not have.  Tokens with an operand class have the code of the reference class.  Tokens 0x03 to 0x16 are operators and
the like, without operand; strings, natural language references and attributes have no fixed size. -/
def tokenSizes : List (Nat × List Nat) :=
  [ (0x01, [4, 5, 5, 5, 5])        -- shared or array formula: row and column of its first cell
  , (0x02, [4, 5, 5, 5, 5])        -- multiple operations: the same
  , (0x1A, [8, 11, 11, 0, 0])      -- start of a reference to a sheet
  , (0x1B, [4, 5, 5, 0, 0])        -- end of it
  , (0x1C, [2, 2, 2, 2, 2])        -- error: a byte
  , (0x1D, [2, 2, 2, 2, 2])        -- truth value: a byte
  , (0x1E, [3, 3, 3, 3, 3])        -- whole number: two bytes
  , (0x1F, [9, 9, 9, 9, 9])        -- number: eight bytes
  , (0x20, [7, 8, 8, 8, 8])        -- array constant: six or seven bytes without a meaning
  , (0x21, [2, 2, 3, 3, 3])        -- function: its number
  , (0x22, [3, 3, 4, 4, 4])        -- function: number of arguments and its number
  , (0x23, [8, 11, 11, 15, 5])     -- name: its number and 5, 8, 8, 12 or 2 bytes without a meaning
  , (0x24, [4, 4, 4, 4, 5])        -- cell: row in two bytes, column in one or two
  , (0x25, [7, 7, 7, 7, 9])        -- area: two of both
  , (0x26, [5, 7, 7, 7, 7])        -- constant reference: 3 or 4 bytes without a meaning and a size
  , (0x27, [5, 7, 7, 7, 7])        -- the same with an error
  , (0x28, [5, 7, 7, 7, 7])        -- the same without memory
  , (0x29, [2, 3, 3, 3, 3])        -- reference that is computed: a size
  , (0x2A, [4, 4, 4, 4, 5])        -- deleted cell
  , (0x2B, [7, 7, 7, 7, 9])        -- deleted area
  , (0x2C, [4, 4, 4, 4, 5])        -- cell in a shared formula
  , (0x2D, [7, 7, 7, 7, 9])        -- area in a shared formula
  , (0x2E, [2, 3, 3, 3, 3])        -- constant reference in a shared formula
  , (0x2F, [2, 3, 3, 3, 3])        -- the same without memory
  , (0x38, [3, 3, 0, 0, 0])        -- macro command: number of arguments and its number
  , (0x39, [0, 0, 0, 25, 7])       -- name in another file or sheet
  , (0x3A, [0, 0, 0, 18, 7])       -- cell with sheets
  , (0x3B, [0, 0, 0, 21, 11])      -- area with sheets
  , (0x3C, [0, 0, 0, 18, 7])       -- deleted cell with sheets
  , (0x3D, [0, 0, 0, 21, 11]) ]    -- deleted area with sheets

def tokenSize (column k : Nat) : TokenSize :=
  if 0x03 ≤ k ∧ k ≤ 0x16 then .bytes 1
  else if k = 0x17 ∨ k = 0x19 ∨ (k = 0x18 ∧ column = 4) then .varying
  else match tokenSizes.find? (·.1 = k) with
    | some (_, l) => if l.getD column 0 = 0 then .absent else .bytes (l.getD column 0)
    | none => .absent

end Xlrd.Spec
