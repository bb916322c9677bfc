import Verif.Spec.RefExpr
import Verif.Spec.OldRefExpr

/-!
# Names that refer to cells relative to the cell where they are used

The formula of a defined name of BIFF5 and later versions that refers to cells, some of them by their distance from the cell in which the name is
used, and what it means there: an area that moves with that cell.
-/
namespace Xlrd.Spec

inductive RelExpr
  | here (row col : Coord)                             -- A1, on the sheet where the name is used
  | hereArea (row1 row2 col1 col2 : Coord)             -- A1:B2
  | cell (sh : Bytes) (row col : Coord)                -- Sheet!A1; the bytes tell the sheets
  | area (sh : Bytes) (row1 row2 col1 col2 : Coord)    -- Sheet!A1:B2
  | name (k : Nat) (unused : Bytes)                    -- the name with number k, counted from 0
  | paren (e : RelExpr)
  | mem (size : Nat) (e : RelExpr)                     -- a token that only says how long the following expression is
  | range (a b : RelExpr)
  | isect (a b : RelExpr)
  | union (a b : RelExpr)

/-- The tokens of an expression. -/
def RelExpr.tokens (bv : Nat) : RelExpr → Bytes
  | .here r c => 0x24 :: encAddr bv r c
  | .hereArea r1 r2 c1 c2 => 0x25 :: encArea bv r1 r2 c1 c2
  | .cell sh r c => 0x3A :: (sh ++ encAddr bv r c)
  | .area sh r1 r2 c1 c2 => 0x3B :: (sh ++ encArea bv r1 r2 c1 c2)
  | .name k unused => 0x23 :: (le16 (k + 1) ++ unused)
  | .paren e => e.tokens bv ++ [0x15]
  | .mem size e => 0x29 :: (le16 size ++ e.tokens bv)
  | .range a b => a.tokens bv ++ (b.tokens bv ++ [0x11])
  | .isect a b => a.tokens bv ++ (b.tokens bv ++ [0x0F])
  | .union a b => a.tokens bv ++ (b.tokens bv ++ [0x10])

/-- The formula of name `k` is `e` (and it is an ordinary name). -/
def RelFormula (bv : Nat) (names : List NameObj) (k : Nat) (e : RelExpr) : Prop :=
  ∃ o rest, names[k]? = some o ∧ o.macroFlag = 0 ∧ o.binary = 0 ∧ o.rawFormula = e.tokens bv ++ rest ∧ o.basicFormulaLen = (e.tokens bv).length

/-- An area for every cell in which the name may be used: sheet, row and column.  `moves` tells which of the six bounds (sheets, rows, columns; first
and last) follow the cell. -/
structure MovingArea where
  moves : List Bool
  «at» : Int → Int → Int → Ref3D

/-- The row or column that a coordinate means in row or column `base` (before any wrapping around at the edges of the sheet). -/
def Coord.from (base : Int) : Coord → Int
  | .abs n => n
  | .rel k => base + k

/-- The areas that an expression means, with exclusive upper bounds.  Of two areas a range or an intersection is taken only if the same bounds move. -/
inductive RelVal (bv : Nat) (loc : Bytes → Nat → Nat → Prop) (names : List NameObj) : RelExpr → List MovingArea → Prop
  | here (r c : Coord) : AddrFits bv r c →
      RelVal bv loc names (.here r c) [⟨[true, true, r.isRel, r.isRel, c.isRel, c.isRel],
        fun sht row col => ⟨sht, sht + 1, r.from row, r.from row + 1, c.from col, c.from col + 1⟩⟩]
  | hereArea (r1 r2 c1 c2 : Coord) : AddrFits bv r1 c1 → AddrFits bv r2 c2 →
      RelVal bv loc names (.hereArea r1 r2 c1 c2) [⟨[true, true, r1.isRel, r2.isRel, c1.isRel, c2.isRel],
        fun sht row col => ⟨sht, sht + 1, r1.from row, r2.from row + 1, c1.from col, c2.from col + 1⟩⟩]
  | cell (sh : Bytes) (r c : Coord) (x y : Nat) : loc sh x y → AddrFits bv r c →
      RelVal bv loc names (.cell sh r c) [⟨[false, false, r.isRel, r.isRel, c.isRel, c.isRel],
        fun _ row col => ⟨x, y + 1, r.from row, r.from row + 1, c.from col, c.from col + 1⟩⟩]
  | area (sh : Bytes) (r1 r2 c1 c2 : Coord) (x y : Nat) : loc sh x y → AddrFits bv r1 c1 → AddrFits bv r2 c2 →
      RelVal bv loc names (.area sh r1 r2 c1 c2) [⟨[false, false, r1.isRel, r2.isRel, c1.isRel, c2.isRel],
        fun _ row col => ⟨x, y + 1, r1.from row, r2.from row + 1, c1.from col, c2.from col + 1⟩⟩]
  | name (k : Nat) (unused : Bytes) (e : RelExpr) (l : List MovingArea) : k + 1 < 65536 → unused.length = (if bv ≥ 80 then 2 else 12) →
      RelFormula bv names k e → RelVal bv loc names e l → RelVal bv loc names (.name k unused) l
  | paren (e : RelExpr) (l : List MovingArea) : RelVal bv loc names e l → RelVal bv loc names (.paren e) l
  | mem (size : Nat) (e : RelExpr) (l : List MovingArea) : size < 65536 → RelVal bv loc names e l → RelVal bv loc names (.mem size e) l
  | range (a b : RelExpr) (x y : MovingArea) : RelVal bv loc names a [x] → RelVal bv loc names b [y] → x.moves = y.moves →
      RelVal bv loc names (.range a b) [⟨x.moves, fun sht row col => hull (x.at sht row col) (y.at sht row col)⟩]
  | isect (a b : RelExpr) (x y : MovingArea) : RelVal bv loc names a [x] → RelVal bv loc names b [y] → x.moves = y.moves →
      RelVal bv loc names (.isect a b) [⟨x.moves, fun sht row col => meet (x.at sht row col) (y.at sht row col)⟩]
  | union (a b : RelExpr) (l : List MovingArea) (y : MovingArea) : RelVal bv loc names a l → RelVal bv loc names b [y] →
      RelVal bv loc names (.union a b) (l ++ [y])

/-- The names on which an expression depends are nested at most so deep, they have values, and their own names can be shown (`shown`). -/
inductive RelNest (bv : Nat) (loc : Bytes → Nat → Nat → Prop) (names : List NameObj) (shown : Nat → Prop) : Nat → RelExpr → Prop
  | here (d : Nat) (r c : Coord) : RelNest bv loc names shown d (.here r c)
  | hereArea (d : Nat) (r1 r2 c1 c2 : Coord) : RelNest bv loc names shown d (.hereArea r1 r2 c1 c2)
  | cell (d : Nat) (sh : Bytes) (r c : Coord) : RelNest bv loc names shown d (.cell sh r c)
  | area (d : Nat) (sh : Bytes) (r1 r2 c1 c2 : Coord) : RelNest bv loc names shown d (.area sh r1 r2 c1 c2)
  | name (d k : Nat) (unused : Bytes) (e : RelExpr) (l : List MovingArea) : shown k → RelFormula bv names k e → RelVal bv loc names e l →
      RelNest bv loc names shown d e → RelNest bv loc names shown (d + 1) (.name k unused)
  | paren (d : Nat) (e : RelExpr) : RelNest bv loc names shown d e → RelNest bv loc names shown d (.paren e)
  | mem (d size : Nat) (e : RelExpr) : RelNest bv loc names shown d e → RelNest bv loc names shown d (.mem size e)
  | range (d : Nat) (a b : RelExpr) : RelNest bv loc names shown d a → RelNest bv loc names shown d b → RelNest bv loc names shown d (.range a b)
  | isect (d : Nat) (a b : RelExpr) : RelNest bv loc names shown d a → RelNest bv loc names shown d b → RelNest bv loc names shown d (.isect a b)
  | union (d : Nat) (a b : RelExpr) : RelNest bv loc names shown d a → RelNest bv loc names shown d b → RelNest bv loc names shown d (.union a b)

/-- The formula of name `i` is an expression of references that has a value, or a range or an intersection of two single areas (which has none if they move
in different ways), and names are nested in it at most ten deep. -/
def RelEvaluable (bv : Nat) (loc : Bytes → Nat → Nat → Prop) (names : List NameObj) (shown : Nat → Prop) (i : Nat) : Prop :=
  ∃ x, RelFormula bv names i x ∧ RelNest bv loc names shown 10 x ∧
    ((∃ l, RelVal bv loc names x l) ∨ ∃ a b m n, (x = .range a b ∨ x = .isect a b) ∧ RelVal bv loc names a [m] ∧ RelVal bv loc names b [n])

/-- What a reference given by `Name.result` means in a cell: the bounds with their flag set are counted from it. -/
def resolve (x : RelRef) (sht row col : Int) : Ref3D :=
  let shift (i : Nat) (base : Int) : Int := if x.relflags.getD i false then base else 0
  ⟨x.shtxlo + shift 0 sht, x.shtxhi + shift 1 sht, x.rowxlo + shift 2 row, x.rowxhi + shift 3 row, x.colxlo + shift 4 col, x.colxhi + shift 5 col⟩

/-- The references are to these areas, in whatever cell the name is used. -/
def RefersTo (refs : List RelRef) (l : List MovingArea) : Prop :=
  refs.map RelRef.relflags = l.map MovingArea.moves ∧ ∀ sht row col, (refs.map fun x => resolve x sht row col) = l.map fun m => m.at sht row col

/-- One of the areas depends on the cell. -/
def SomeMove (l : List MovingArea) : Prop := ∃ m ∈ l, true ∈ m.moves

/-- How a reference tells its sheets: from BIFF8 on by an entry of the table of references, before that by itself. -/
def NewSheets (sups : List SupKind) (sheets : List SheetRec) (refs : List ExtRef) (sh : Bytes) (x y : Nat) : Prop :=
  ∃ refx, refx < 65536 ∧ sh = le16 refx ∧ LocalRef sups sheets refs refx x y
def OwnSheets (sheets : List SheetRec) (sh : Bytes) (x y : Nat) : Prop := ∃ o : OldSheets, sh = o.enc ∧ OldLocal sheets o x y

end Xlrd.Spec
