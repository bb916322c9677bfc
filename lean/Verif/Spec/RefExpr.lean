import Verif.Spec.Extern
import Verif.Spec.Formula

/-!
# Names that refer to cells

The formula of a defined name that refers to cells: an expression of absolute references to cells and areas on sheets of this workbook, other
names, and the three operators on references, as BIFF8 stores it, and the areas that it means.
-/
namespace Xlrd.Spec

inductive RefExpr
  | cell (refx row col : Nat)                    -- Sheet!$A$1
  | area (refx row1 row2 col1 col2 : Nat)        -- Sheet!$A$1:$B$2
  | name (k : Nat)                               -- the name with number k, counted from 0
  | paren (e : RefExpr)
  | mem (size : Nat) (e : RefExpr)               -- a token that only says how long the following expression is
  | range (a b : RefExpr)
  | isect (a b : RefExpr)
  | union (a b : RefExpr)

/-- The tokens of an expression. -/
def RefExpr.tokens : RefExpr → Bytes
  | .cell refx r c => 0x3A :: (le16 refx ++ encAddr 80 (.abs r) (.abs c))
  | .area refx r1 r2 c1 c2 => 0x3B :: (le16 refx ++ encArea 80 (.abs r1) (.abs r2) (.abs c1) (.abs c2))
  | .name k => 0x23 :: (le16 (k + 1) ++ [0, 0])
  | .paren e => e.tokens ++ [0x15]
  | .mem size e => 0x29 :: (le16 size ++ e.tokens)
  | .range a b => a.tokens ++ (b.tokens ++ [0x11])
  | .isect a b => a.tokens ++ (b.tokens ++ [0x0F])
  | .union a b => a.tokens ++ (b.tokens ++ [0x10])

/-- The smallest box with both, and what both have in common. -/
def hull (a b : Ref3D) : Ref3D :=
  ⟨min a.shtxlo b.shtxlo, max a.shtxhi b.shtxhi, min a.rowxlo b.rowxlo, max a.rowxhi b.rowxhi, min a.colxlo b.colxlo, max a.colxhi b.colxhi⟩
def meet (a b : Ref3D) : Ref3D :=
  ⟨max a.shtxlo b.shtxlo, min a.shtxhi b.shtxhi, max a.rowxlo b.rowxlo, min a.rowxhi b.rowxhi, max a.colxlo b.colxlo, min a.colxhi b.colxhi⟩

/-- The number of a worksheet among the worksheets. -/
def worksheetNo (sheets : List SheetRec) (i : Nat) : Nat := ((sheets.take i).filter SheetRec.isWorksheet).length

/-- Entry `refx` of the table of references stands for the worksheets from number `x` to number `y` of this workbook. -/
def LocalRef (sups : List SupKind) (sheets : List SheetRec) (refs : List ExtRef) (refx x y : Nat) : Prop :=
  ∃ r s1 s2, refs[refx]? = some r ∧ LastOf sups .ours r.book ∧ sheets[r.first]? = some s1 ∧ sheets[r.last]? = some s2 ∧ r.first ≤ r.last ∧
    r.first < 0xFFFE ∧ s1.isWorksheet = true ∧ s2.isWorksheet = true ∧ x = worksheetNo sheets r.first ∧ y = worksheetNo sheets r.last

/-- The formula of name `k` is `e` (and it is an ordinary name). -/
def NameFormula (names : List NameObj) (k : Nat) (e : RefExpr) : Prop :=
  ∃ o rest, names[k]? = some o ∧ o.macroFlag = 0 ∧ o.binary = 0 ∧ o.rawFormula = e.tokens ++ rest ∧ o.basicFormulaLen = e.tokens.length

/-- The areas that an expression means, with exclusive upper bounds.  A range and an intersection are taken of single areas, and a single area
can be added to a union. -/
inductive RefVal (loc : Nat → Nat → Nat → Prop) (names : List NameObj) : RefExpr → List Ref3D → Prop
  | cell (refx r c x y : Nat) : refx < 65536 → loc refx x y → r < 65536 → c < 256 →
      RefVal loc names (.cell refx r c) [⟨x, y + 1, r, r + 1, c, c + 1⟩]
  | area (refx r1 r2 c1 c2 x y : Nat) : refx < 65536 → loc refx x y → r1 < 65536 → r2 < 65536 → c1 < 256 → c2 < 256 →
      RefVal loc names (.area refx r1 r2 c1 c2) [⟨x, y + 1, r1, r2 + 1, c1, c2 + 1⟩]
  | name (k : Nat) (e : RefExpr) (l : List Ref3D) : k + 1 < 65536 → NameFormula names k e → RefVal loc names e l → RefVal loc names (.name k) l
  | paren (e : RefExpr) (l : List Ref3D) : RefVal loc names e l → RefVal loc names (.paren e) l
  | mem (size : Nat) (e : RefExpr) (l : List Ref3D) : size < 65536 → RefVal loc names e l → RefVal loc names (.mem size e) l
  | range (a b : RefExpr) (x y : Ref3D) : RefVal loc names a [x] → RefVal loc names b [y] → RefVal loc names (.range a b) [hull x y]
  | isect (a b : RefExpr) (x y : Ref3D) : RefVal loc names a [x] → RefVal loc names b [y] → RefVal loc names (.isect a b) [meet x y]
  | union (a b : RefExpr) (l : List Ref3D) (y : Ref3D) : RefVal loc names a l → RefVal loc names b [y] → RefVal loc names (.union a b) (l ++ [y])

end Xlrd.Spec
