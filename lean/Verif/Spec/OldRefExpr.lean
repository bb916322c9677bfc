import Verif.Spec.RefExpr

/-!
# Names that refer to cells in BIFF5 and BIFF7 workbooks

As `Verif.Spec.RefExpr`, in the form that BIFF5 and BIFF7 use: a reference holds the numbers of its sheets itself, after a number that says whether
it refers to another workbook.
-/
namespace Xlrd.Spec

/-- The sheets of a reference: the number of an EXTERNSHEET record (negative for this workbook), eight bytes without meaning, and the numbers of the first and
last sheet. -/
structure OldSheets where
  ext : Nat
  unused : Bytes
  first : Nat
  last : Nat

def OldSheets.enc (s : OldSheets) : Bytes := le16 s.ext ++ s.unused ++ le16 s.first ++ le16 s.last

inductive OldRefExpr
  | cell (sh : OldSheets) (row col : Nat)                  -- Sheet!$A$1
  | area (sh : OldSheets) (row1 row2 col1 col2 : Nat)      -- Sheet!$A$1:$B$2
  | name (k : Nat) (unused : Bytes)                        -- the name with number k, counted from 0
  | paren (e : OldRefExpr)
  | mem (size : Nat) (e : OldRefExpr)
  | range (a b : OldRefExpr)
  | isect (a b : OldRefExpr)
  | union (a b : OldRefExpr)

/-- The tokens of an expression. -/
def OldRefExpr.tokens : OldRefExpr → Bytes
  | .cell sh r c => 0x3A :: (sh.enc ++ encAddr 70 (.abs r) (.abs c))
  | .area sh r1 r2 c1 c2 => 0x3B :: (sh.enc ++ encArea 70 (.abs r1) (.abs r2) (.abs c1) (.abs c2))
  | .name k unused => 0x23 :: (le16 (k + 1) ++ unused)
  | .paren e => e.tokens ++ [0x15]
  | .mem size e => 0x29 :: (le16 size ++ e.tokens)
  | .range a b => a.tokens ++ (b.tokens ++ [0x11])
  | .isect a b => a.tokens ++ (b.tokens ++ [0x0F])
  | .union a b => a.tokens ++ (b.tokens ++ [0x10])

/-- The sheets of a reference are the worksheets from number `x` to number `y` of this workbook. -/
def OldLocal (sheets : List SheetRec) (sh : OldSheets) (x y : Nat) : Prop :=
  (sh.ext = 0 ∨ 32768 ≤ sh.ext ∧ sh.ext < 65536) ∧ sh.unused.length = 8 ∧ sh.first ≤ sh.last ∧ sh.last < 32768 ∧
    ∃ s1 s2, sheets[sh.first]? = some s1 ∧ sheets[sh.last]? = some s2 ∧ s1.isWorksheet = true ∧ s2.isWorksheet = true ∧
      x = worksheetNo sheets sh.first ∧ y = worksheetNo sheets sh.last

/-- The formula of name `k` is `e` (and it is an ordinary name). -/
def OldNameFormula (names : List NameObj) (k : Nat) (e : OldRefExpr) : Prop :=
  ∃ o rest, names[k]? = some o ∧ o.macroFlag = 0 ∧ o.binary = 0 ∧ o.rawFormula = e.tokens ++ rest ∧ o.basicFormulaLen = e.tokens.length

/-- The areas that an expression means, with exclusive upper bounds. -/
inductive OldRefVal (loc : OldSheets → Nat → Nat → Prop) (names : List NameObj) : OldRefExpr → List Ref3D → Prop
  | cell (sh : OldSheets) (r c x y : Nat) : loc sh x y → r < 16384 → c < 256 → OldRefVal loc names (.cell sh r c) [⟨x, y + 1, r, r + 1, c, c + 1⟩]
  | area (sh : OldSheets) (r1 r2 c1 c2 x y : Nat) : loc sh x y → r1 < 16384 → r2 < 16384 → c1 < 256 → c2 < 256 →
      OldRefVal loc names (.area sh r1 r2 c1 c2) [⟨x, y + 1, r1, r2 + 1, c1, c2 + 1⟩]
  | name (k : Nat) (unused : Bytes) (e : OldRefExpr) (l : List Ref3D) : k + 1 < 65536 → unused.length = 12 → OldNameFormula names k e →
      OldRefVal loc names e l → OldRefVal loc names (.name k unused) l
  | paren (e : OldRefExpr) (l : List Ref3D) : OldRefVal loc names e l → OldRefVal loc names (.paren e) l
  | mem (size : Nat) (e : OldRefExpr) (l : List Ref3D) : size < 65536 → OldRefVal loc names e l → OldRefVal loc names (.mem size e) l
  | range (a b : OldRefExpr) (x y : Ref3D) : OldRefVal loc names a [x] → OldRefVal loc names b [y] → OldRefVal loc names (.range a b) [hull x y]
  | isect (a b : OldRefExpr) (x y : Ref3D) : OldRefVal loc names a [x] → OldRefVal loc names b [y] → OldRefVal loc names (.isect a b) [meet x y]
  | union (a b : OldRefExpr) (l : List Ref3D) (y : Ref3D) : OldRefVal loc names a l → OldRefVal loc names b [y] → OldRefVal loc names (.union a b) (l ++ [y])

end Xlrd.Spec
