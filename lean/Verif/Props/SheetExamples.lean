import Verif.Props.SheetAttrs

/-!
# A worksheet that meets the hypotheses of the theorems of `Props/SheetRead.lean` and `Props/SheetAttrs.lean`
-/
set_option linter.unusedSimpArgs false
namespace Xlrd
open Spec

/-- Settings, a DIMENSION record, cells of several kinds, merged cells, view settings, a record without
meaning and an embedded chart. -/
def exLayout : Layout :=
  ⟨[.zoom 3 2, .col ⟨0, 3, 2000, 15, false, false, 0, 2, false, true, 0, []⟩, .defcolwidth 8 []], some ⟨0, 2, 0, 3, []⟩,
   [.row ⟨1, (0, 3), 300, false, (0, 0), 1, false, true, false, true, true, 1, 16, false, true, 0⟩ [],
    .cell (.number 0 0 15 ⟨false, 1023, 2 ^ 51⟩ []), .cell (.labelsst 0 1 15 0), .cell (.boolerr 1 2 15 true 0x2a []),
    .cell (.rk 5 1 16 (.int 7 false) []), .cell (.mulrk 6 2 [(15, .int 1 false), (16, .int (-2) false)]),
    .cell (.mulblank 1 0 [15, 16]), .cell (.formula 4 4 15 (.bool 1 0 (0, 0, 0)) 6 0 []), .merged [(0, 1, 2, 3)],
    .window ⟨List.replicate 12 true, 0, 1, 2, .inl (64, 0, 0, 150), []⟩, .unknown 0x99a [1, 2],
    .embedded 0x809 [0, 0, 0, 0] [(0x1002, [])] []], []⟩

theorem exLayout_ok : exLayout.Ok 80 (exEnv true).dec (exEnv true).sst := by
  refine ⟨?_, ?_, ?_⟩
  · intro i hi
    simp only [exLayout, Layout.items, List.cons_append, List.nil_append, List.mem_cons, List.not_mem_nil, or_false] at hi
    rcases hi with rfl | rfl | rfl | rfl | rfl | rfl | rfl | rfl | rfl | rfl | rfl | rfl | rfl | rfl | rfl
    all_goals simp [SheetItem.Ok, CellRec.Ok, RowRec.Ok, ColRec.Ok, WinRec.Ok, rectsOk, B64.Ok, Rk.Ok, FResult.Ok, specialCodes, exEnv]
  · intro i hi
    simp only [exLayout, List.mem_cons, List.not_mem_nil, or_false] at hi
    rcases hi with rfl | rfl | rfl <;> rfl
  · decide +kernel

/-- The hypotheses of the theorems are met, and the sheet loads with and without formatting information. -/
theorem exLayout_loads (fmt : Bool) : ∃ s, sheetRead (exEnv fmt) (encRecs (exLayout.records 80)) 0 = .ok s := by
  have : ((sheetRead (exEnv fmt) (encRecs (exLayout.records 80)) 0).map fun _ => ()) = .ok () := by
    cases fmt <;> decide +kernel
  cases h : sheetRead (exEnv fmt) (encRecs (exLayout.records 80)) 0 with
  | error e => rw [h] at this; cases this
  | ok s => exact ⟨s, rfl⟩

/-- C31 on this sheet. -/
example : (sheetRead (exEnv true) (encRecs (exLayout.records 80)) 0 >>= fun s => s.store.cellValue 1 2) = .ok (.int 0x2a) := by decide +kernel
example : (sheetRead (exEnv true) (encRecs (exLayout.records 80)) 0 >>= fun s => s.store.cellType 6 3) = .ok XL_CELL_DATE := by decide +kernel
/-- C39 on this sheet. -/
example : (rowsOf exLayout.items).length = 1 ∧ (colsOf exLayout.items).length = 1 ∧ (zoomsOf exLayout.items) = [(3, 2)] := by decide
/-- The condition of C55 holds here. -/
example : ∀ w ∈ cellsOf id true (exEnv true).sst exLayout.items, ∀ w' ∈ cellsOf id true (exEnv true).sst exLayout.items, w.row = w'.row → w.col = w'.col →
      w.ctype = some XL_CELL_BLANK → w'.ctype = some XL_CELL_BLANK := by decide +kernel

end Xlrd
