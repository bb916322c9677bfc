import Verif.Spec.Openable
import Verif.Model.Open
import Verif.Model.Float
import Verif.Spec.SheetItems

/-!
# What a user sees of a worksheet, in terms of the file alone (C67, C55)
-/
namespace Xlrd.Spec

open Classical in
/-- The type of a cell with a number and XF `i`: a date if the format of that XF record is a date format, else a number.  XF 0 is known even if the file has no XF records;
any other XF needs its record. -/
noncomputable def numberType (fmts : List (Nat × PyStr)) (xfs : List XF) (i : Int) : Option Nat :=
  match (if 0 ≤ i then xfs[i.toNat]? else none) with
  | some x => some (if DateKey fmts x.formatKey then XL_CELL_DATE else XL_CELL_NUMBER)
  | none => if i = 0 then some XL_CELL_NUMBER else none

/-- What a sheet shows: it is just large enough for its cells and merged ranges, and each cell is as the last record for its place says. -/
structure SheetShows (sh : LSheet) (fi : Bool) (types : Int → Option Nat) (cells : List Write) (merged : List CRange) : Prop where
  nrows : sh.st.store.nrows = height cells merged
  ncols : sh.st.store.ncols = width cells merged
  inside : ∀ r c : Nat, r < height cells merged → c < width cells merged →
    sh.st.store.cellType r c = .ok (cellAt types cells r c).ty ∧ sh.st.store.cellValue r c = .ok (cellAt types cells r c).v ∧
    (fi = true → sh.st.store.cellXf r c = .ok (cellAt types cells r c).xf)
  outside : ∀ r c : Nat, ¬ (r < height cells merged ∧ c < width cells merged) →
    sh.st.store.cellType r c = .error .index ∧ sh.st.store.cellValue r c = .error .index

/-- The same sheet read without and with formatting information: cells have the same values and types, except that blank cells are empty cells without it, and what only the
larger sheet has are blank and empty cells. -/
structure SameSheet (plain formatted : LSheet) : Prop where
  name : plain.name = formatted.name
  visibility : plain.visibility = formatted.visibility
  nrows : plain.st.store.nrows ≤ formatted.st.store.nrows
  ncols : plain.st.store.ncols ≤ formatted.st.store.ncols
  inside : ∀ r c : Nat, r < plain.st.store.nrows → c < plain.st.store.ncols → plain.st.store.cellValue r c = formatted.st.store.cellValue r c ∧
    (plain.st.store.cellType r c = formatted.st.store.cellType r c ∨
      plain.st.store.cellType r c = .ok XL_CELL_EMPTY ∧ formatted.st.store.cellType r c = .ok XL_CELL_BLANK)
  beyond : ∀ r c : Nat, r < formatted.st.store.nrows → c < formatted.st.store.ncols → ¬ (r < plain.st.store.nrows ∧ c < plain.st.store.ncols) →
    formatted.st.store.cellValue r c = .ok (.text []) ∧ (formatted.st.store.cellType r c = .ok XL_CELL_EMPTY ∨ formatted.st.store.cellType r c = .ok XL_CELL_BLANK)

/-- No cell has both a record for a blank cell and another record. -/
def BlanksAlone (sst : List PyStr) (items : List SheetItem) : Prop :=
  ∀ w ∈ cellsOf fl true sst items, ∀ w' ∈ cellsOf fl true sst items, w.row = w'.row → w.col = w'.col → w.ctype = some XL_CELL_BLANK → w'.ctype = some XL_CELL_BLANK

end Xlrd.Spec
