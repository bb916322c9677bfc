import Verif.Model.Cells

/-!
# Reference meaning of a sequence of cell writes

An abstract sheet: a finite map from positions to cells, the last write at a position winning.
-/
namespace Xlrd.Spec

/-- A cell: type, value, XF index. -/
structure ACell where
  ty : Nat
  v : Val
  xf : Int
  deriving DecidableEq

/-- An empty cell: type 0, value `''`, no XF index. -/
def ACell.blank : ACell := ⟨0, .text [], -1⟩

/-- The cell a write stores; a missing type is that of the XF index. -/
def stored (typeMap : Int → Option Nat) (w : Write) : ACell :=
  ⟨w.ctype.getD ((typeMap w.xf).getD 0), w.val, w.xf⟩

/-- The last write at a position, if any. -/
def lastAt (ws : List Write) (r c : Nat) : Option Write :=
  ws.reverse.find? fun w => w.row = r ∧ w.col = c

/-- What the sheet must show at a position. -/
def cellAt (typeMap : Int → Option Nat) (ws : List Write) (r c : Nat) : ACell :=
  match lastAt ws r c with
  | some w => stored typeMap w
  | none => ACell.blank

/-- Largest element of a list, 0 if empty. -/
def maxOf : List Nat → Nat
  | [] => 0
  | n :: ns => max n (maxOf ns)

/-- One more than the largest row written or covered by a merged range. -/
def height (ws : List Write) (merged : List CRange) : Nat :=
  max (maxOf (ws.map (·.row + 1))) (maxOf (merged.map (·.rhi)))

/-- One more than the largest column written or covered by a merged range. -/
def width (ws : List Write) (merged : List CRange) : Nat :=
  max (maxOf (ws.map (·.col + 1))) (maxOf (merged.map (·.chi)))

/-- One more than the largest column written in row `r`. -/
def rowWidth (ws : List Write) (r : Nat) : Nat :=
  maxOf ((ws.filter (·.row = r)).map (·.col + 1))

end Xlrd.Spec
