import Verif.Model.Open

/-!
# Types and values of cells (C92)
-/
namespace Xlrd.Spec

/-- The table of cell types in the documentation of `Cell`: empty and blank cells hold the empty string, text cells strings, number and date cells floats, boolean and
error cells whole numbers (here: bytes). -/
def CellOk : Nat → Val → Prop
  | 0, v | 6, v => v = .text []
  | 1, v => ∃ s, v = .text s
  | 2, v | 3, v => ∃ x, v = .num x
  | 4, v | 5, v => ∃ n : Int, v = .int n ∧ 0 ≤ n ∧ n ≤ 255
  | _, _ => False

/-- The same for files before BIFF5, where numbers may have the type of text. -/
def OldCellOk (t : Nat) (v : Val) : Prop := CellOk t v ∨ (t = 1 ∧ ∃ x, v = .num x)

/-- Every cell of the sheet has a type and a value in the relation `P`. -/
structure CellsAre (P : Nat → Val → Prop) (s : Store) : Prop where
  type : ∀ r c t, s.cellType r c = .ok t → ∃ v, s.cellValue r c = .ok v ∧ P t v
  value : ∀ r c v, s.cellValue r c = .ok v → ∃ t, s.cellType r c = .ok t ∧ P t v

/-- Every cell of the sheet has a type and a value that go together. -/
abbrev CellsOk (s : Store) : Prop := CellsAre CellOk s

end Xlrd.Spec
