import Verif.Model.Py

/-!
# Reading spreadsheet names

What a reader understands by a column name, a cell name or a range name.
Independent of the code that produces them.
-/
namespace Xlrd.Spec

def isLetter (c : Char) : Bool := decide ('A' ≤ c) && decide (c ≤ 'Z')
def isDig (c : Char) : Bool := decide ('0' ≤ c) && decide (c ≤ '9')

/-- Value of a column name read as a bijective base 26 numeral: A=1, Z=26, AA=27. -/
def lettersVal (s : PyStr) : Nat := s.foldl (fun a c => a * 26 + (c.toNat - 64)) 0

/-- Value of a decimal numeral. -/
def digitsVal (s : PyStr) : Nat := s.foldl (fun a c => a * 10 + (c.toNat - 48)) 0

/-- A column name: non-empty capital letters; the 0-based column it denotes. -/
def readCol (s : PyStr) : Option Nat :=
  if s ≠ [] ∧ s.all isLetter then some (lettersVal s - 1) else none

/-- A row number: non-empty digits, no leading zero; the 0-based row it denotes. -/
def readRow (s : PyStr) : Option Nat :=
  if s ≠ [] ∧ s.all isDig ∧ s.head? ≠ some '0' then some (digitsVal s - 1) else none

/-- `H6` style names, giving (row, column), both 0-based. -/
def readA1 (s : PyStr) : Option (Nat × Nat) := do
  let c ← readCol (s.takeWhile isLetter)
  let r ← readRow (s.dropWhile isLetter)
  pure (r, c)

/-- `$H$6` style names. -/
def readAbs : PyStr → Option (Nat × Nat)
  | '$' :: s => do
    let c ← readCol (s.takeWhile isLetter)
    match s.dropWhile isLetter with
    | '$' :: t => do
      let r ← readRow t
      pure (r, c)
    | _ => none
  | _ => none

/-- `$H$6:$J$20` or `$H$6`, giving (rlo, rhi, clo, chi) with exclusive upper bounds. -/
def readRange (s : PyStr) : Option (Nat × Nat × Nat × Nat) :=
  match s.dropWhile (· ≠ ':') with
  | [] => do
    let (r, c) ← readAbs s
    pure (r, r + 1, c, c + 1)
  | _ :: t => do
    let (r, c) ← readAbs (s.takeWhile (· ≠ ':'))
    let (r', c') ← readAbs t
    pure (r, r' + 1, c, c' + 1)

/-- `R6C8` style names. -/
def readR1C1 : PyStr → Option (Nat × Nat)
  | 'R' :: s => do
    let r ← readRow (s.takeWhile isDig)
    match s.dropWhile isDig with
    | 'C' :: t => do
      let c ← readRow t
      pure (r, c)
    | _ => none
  | _ => none

/-- Remove one level of doubling of quotes; `none` if a quote is not doubled. -/
def undouble : PyStr → Option PyStr
  | [] => some []
  | '\'' :: '\'' :: cs => (undouble cs).map ('\'' :: ·)
  | '\'' :: _ => none
  | c :: cs => (undouble cs).map (c :: ·)

/-- Reading a sheet name in a formula: quoted with doubled quotes, or bare. -/
def readSheetName : PyStr → Option PyStr
  | '\'' :: s =>
    match s.getLast? with
    | some '\'' => undouble s.dropLast
    | _ => none
  | s => some s

end Xlrd.Spec

namespace Xlrd.Spec

/-- One coordinate of a possibly relative reference. -/
inductive Coord
  | abs (n : Nat)   -- 0-based
  | rel (k : Int)   -- offset from the base cell
  deriving DecidableEq, Repr

/-- A signed decimal number without superfluous characters. -/
def readInt : PyStr → Option Int
  | '-' :: s => if s ≠ [] ∧ s.all isDig then some (-(digitsVal s : Int)) else none
  | s => if s ≠ [] ∧ s.all isDig then some (digitsVal s : Int) else none

/-- The part of an R1C1 name after `R` or `C`: nothing, `n` or `[k]`. -/
def readCoord (s : PyStr) : Option Coord :=
  match s with
  | [] => some (.rel 0)
  | '[' :: t =>
    match t.getLast? with
    | some ']' => (readInt t.dropLast).map .rel
    | _ => none
  | _ => (readRow s).map .abs

/-- `R[-3]C5` style names. -/
def readRC : PyStr → Option (Coord × Coord)
  | 'R' :: s => do
    let r ← readCoord (s.takeWhile (· ≠ 'C'))
    match s.dropWhile (· ≠ 'C') with
    | _ :: t => do
      let c ← readCoord t
      pure (r, c)
    | [] => none
  | _ => none

/-- `$H6` style names: (row, row is absolute, column, column is absolute). -/
def readMixed (s : PyStr) : Option (Nat × Bool × Nat × Bool) := do
  let (cabs, s) := match s with
    | '$' :: t => (true, t)
    | _ => (false, s)
  let c ← readCol (s.takeWhile isLetter)
  let (rabs, t) := match s.dropWhile isLetter with
    | '$' :: t => (true, t)
    | t => (false, t)
  let r ← readRow t
  pure (r, rabs, c, cabs)

end Xlrd.Spec
