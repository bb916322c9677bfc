import Verif.Model.Formula
import Verif.Spec.Names
import Verif.Spec.Globals

/-!
# Formulas as they are stored and as they are read

Addresses and references in token strings, boxes of cells, and expressions. Independent of the code that decodes them.
-/
namespace Xlrd.Spec

/-! ## Cell addresses -/

/-- One coordinate as a number of `full` values: an absolute one as it is, an offset in two's complement. -/
def Coord.field (full : Nat) : Coord → Nat
  | .abs n => n
  | .rel k => (k % full).toNat

/-- The coordinate can be stored: below `full`, or an offset of the corresponding signed range. -/
def Coord.Fits (full : Nat) : Coord → Prop
  | .abs n => n < full
  | .rel k => -(full / 2 : Nat) ≤ k ∧ k < (full / 2 : Nat)

def Coord.isRel : Coord → Bool
  | .abs _ => false
  | .rel _ => true

/-- The number that a reader works with: the row or column, or the offset. -/
def Coord.num : Coord → Int
  | .abs n => n
  | .rel k => k

/-- The cell that a coordinate means for the formula in row or column `base`, in a sheet of `full` rows or columns that wraps around. -/
def Coord.at (full : Nat) (base : Nat) : Coord → Nat
  | .abs n => n
  | .rel k => ((base + k) % full).toNat

def flag (b : Bool) : Nat := if b then 1 else 0

/-- The number of rows of a sheet. -/
def rowCount (bv : Nat) : Nat := if bv ≥ 80 then 65536 else 16384

/-- A row and a column fit the format. -/
def AddrFits (bv : Nat) (row col : Coord) : Prop := row.Fits (rowCount bv) ∧ col.Fits 256

/-- The row and column fields of a cell address: the two numbers and the flags.  From BIFF8 on the flags are the upper two bits of the
column field, before that of the row field. -/
def rowRaw (bv r : Nat) (rrel crel : Bool) : Nat := if bv ≥ 80 then r else r + 16384 * flag crel + 32768 * flag rrel
def colRaw (bv c : Nat) (rrel crel : Bool) : Nat := if bv ≥ 80 then c + 16384 * flag crel + 32768 * flag rrel else c

/-- The fields for coordinates of which the relative ones are offsets. -/
def rowField (bv : Nat) (row col : Coord) : Nat := rowRaw bv (row.field (rowCount bv)) row.isRel col.isRel
def colField (bv : Nat) (row col : Coord) : Nat := colRaw bv (col.field 256) row.isRel col.isRel

/-- A column field occupies two bytes, before BIFF8 one. -/
def encCol (bv : Nat) (n : Nat) : Bytes := if bv ≥ 80 then le16 n else [UInt8.ofNat n]

/-- A cell address in a token, from numbers and flags, and from coordinates. -/
def encAddrRaw (bv r c : Nat) (rrel crel : Bool) : Bytes := le16 (rowRaw bv r rrel crel) ++ encCol bv (colRaw bv c rrel crel)
def encAddr (bv : Nat) (row col : Coord) : Bytes := le16 (rowField bv row col) ++ encCol bv (colField bv row col)

/-- The addresses of the first and last cell of an area in a token. -/
def encAreaRaw (bv r1 c1 : Nat) (rr1 cr1 : Bool) (r2 c2 : Nat) (rr2 cr2 : Bool) : Bytes :=
  le16 (rowRaw bv r1 rr1 cr1) ++ le16 (rowRaw bv r2 rr2 cr2) ++ encCol bv (colRaw bv c1 rr1 cr1) ++ encCol bv (colRaw bv c2 rr2 cr2)
def encArea (bv : Nat) (row1 row2 col1 col2 : Coord) : Bytes :=
  le16 (rowField bv row1 col1) ++ le16 (rowField bv row2 col2) ++ encCol bv (colField bv row1 col1) ++ encCol bv (colField bv row2 col2)

/-- The address as a reader sees it. -/
def addrOf (row col : Coord) : Addr := { rowx := row.num, colx := col.num, rowRel := row.isRel, colRel := col.isRel }

/-! ## Boxes -/

/-- The cell `(sheet, row, column)` lies in the box. -/
def InBox (p : Int × Int × Int) (r : Ref3D) : Prop :=
  (r.shtxlo ≤ p.1 ∧ p.1 < r.shtxhi) ∧ (r.rowxlo ≤ p.2.1 ∧ p.2.1 < r.rowxhi) ∧ (r.colxlo ≤ p.2.2 ∧ p.2.2 < r.colxhi)

/-- Every cell of the first box lies in the second. -/
def BoxLe (a b : Ref3D) : Prop := ∀ p, InBox p a → InBox p b

/-- The box has a cell. -/
def BoxNonempty (r : Ref3D) : Prop := ∃ p, InBox p r

/-! ## Running token strings -/

/-- A `while` loop: `n` is the number of times the body is run, the last argument the state in which the loop ends or the exception that
leaves it. -/
inductive While {σ : Type} (cond : σ → Prop) (body : σ → R σ) : Nat → σ → R σ → Prop
  | stop {s : σ} (h : ¬ cond s) : While cond body 0 s (.ok s)
  | fail {s : σ} {e : PyErr} (h : cond s) (hb : body s = .error e) : While cond body 1 s (.error e)
  | next {s s' : σ} {r : R σ} {n : Nat} (h : cond s) (hb : body s = .ok s') (hn : While cond body n s' r) : While cond body (n + 1) s r

/-- Name `i` begins with a reference to another name, which does so too, and so on, `n` times. -/
inductive RefChain (names : List NameObj) : Nat → Nat → Prop
  | zero (i : Nat) : RefChain names 0 i
  | succ {n i j : Nat} {o : NameObj} {c : UInt8} {rest : Bytes} (ho : names[i]? = some o) (hc : c = 0x23 ∨ c = 0x43 ∨ c = 0x63) (hj : j + 1 < 65536)
      (hf : o.rawFormula = c :: le16 (j + 1) ++ rest) (hl : 0 < o.basicFormulaLen) (hn : RefChain names n j) (hlt : j < names.length) :
      RefChain names (n + 1) i

end Xlrd.Spec
