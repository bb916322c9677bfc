import Verif.Props.FormulaSheets

/-!
# C50: examples of references with sheets, and names that are not quoted
-/
set_option linter.unusedSimpArgs false

namespace Xlrd
open Spec

namespace SheetFormulas

/-- A name, or with another scope than -1 a name of one sheet. -/
def nameOf (k : Nat) (scope : Int) (name : String) : NameObj :=
  { nameIndex := k, optionFlags := 0, hidden := 0, func := 0, vbasic := 0, macroFlag := 0, complex := 0, builtin := 0, funcgroup := 0, binary := 0,
    extnSheetNum := 0, excelSheetIndex := 0, scope := some scope, name := name.toList, rawFormula := [], basicFormulaLen := 0 }

/-- A file with the sheets `Data`, `it's`, `a-b` and `my sheet`, the name `rate` and, for the first and for the last sheet, the name `tax`. -/
def book : Book :=
  { sheetNames := ["Data".toList, "it's".toList, "a-b".toList, "my sheet".toList], allSheetsMap := [0, 1, 2, 3], allSheetsCount := 4, supbookCount := 2,
    supbookTypes := [some 2, some 3], supbookLocalsInx := some 0, externsheetInfo := [(0, 1, 1), (0, 0, 1), (0, 2, 2), (0, 0xFFFE, 0xFFFE), (1, 0, 0)],
    nameObjs := [nameOf 0 (-1) "rate", nameOf 1 0 "tax", nameOf 2 3 "tax"] }

def env : DEnv := { str := fun _ => [], bv := 80, bk := book, dec := fun _ => .ok [], reldelta := false, browx := some 5, bcolx := some 5, r1c1 := false }

/-- The first reference is to the second sheet, the second to the first two sheets. -/
theorem second_sheet : TokenSheets env (le16 0) 1 1 := tokenSheets_new (by decide) (by decide) (by decide)
theorem two_sheets : TokenSheets env (le16 1) 0 1 := tokenSheets_new (by decide) (by decide) (by decide)
theorem third_sheet : TokenSheets env (le16 2) 2 2 := tokenSheets_new (by decide) (by decide) (by decide)

theorem rate_shown : NameShows book 0 "rate".toList := ⟨_, rfl, .inl ⟨rfl, rfl⟩⟩
theorem tax_shown : NameShows book 1 "Data!tax".toList := ⟨_, rfl, .inr ⟨0, _, rfl, rfl, rfl⟩⟩
theorem tax3_shown : NameShows book 2 "my sheet!tax".toList := ⟨_, rfl, .inr ⟨3, _, rfl, rfl, rfl⟩⟩

/-- The hypotheses of the theorems about leaves are met. -/
example : ∃ w, LeafRef env sztab4 (0x5A :: (le16 0 ++ encAddrRaw 80 1 1 false false)) w ∧ readSheetCell w = some ("it's".toList, 1, true, 1, true) :=
  C50_leaf_sheet_cell env sztab4 rfl (by decide) .val (le16 0) 1 second_sheet _ rfl (by decide) 1 1 (by decide) (by decide)

example : ∃ w w', AreaOk env sztab4 (0x3A :: (le16 0 ++ encAddrRaw 80 1 1 true false)) w w' ∧ readSheetCell w = some ("it's".toList, 1, false, 1, true) ∧
    readMixed w' = some (1, false, 1, true) :=
  C50_leaf_sheet_cell_relative env sztab4 rfl (by decide) .ref (le16 0) 1 second_sheet _ rfl (by decide) 1 1 true false (.inl rfl) (by decide) (by decide) 5 5
    rfl rfl rfl rfl

example : ∃ w w', AreaOk env sztab4 (0x3B :: (le16 0 ++ encAreaRaw 80 1 1 false false 4 2 false false)) w w' ∧
    readSheetCell w = some ("it's".toList, 1, true, 1, true) ∧ readMixed w' = some (4, true, 2, true) :=
  (C50_leaf_sheet_area env sztab4 rfl (by decide) .ref (le16 0) 1 second_sheet _ rfl (by decide) 1 1 4 2 (by decide) (by decide) (by decide) (by decide)).1 (by decide)

example : decompile env (0x3B :: (le16 1 ++ encAreaRaw 80 1 1 false false 4 2 false false)) 11 = .ok (some "Data:'it''s'!$B$2:$C$5".toList) ∧
    read3d "Data:'it''s'!$B$2:$C$5".toList = some (("Data".toList, "it's".toList), (1, 5, 1, 3)) := by decide +kernel

example : LeafRef env sztab4 (0x43 :: (le16 1 ++ [0, 0])) "rate".toList :=
  C50_leaf_name env sztab4 rfl .val 0 (by decide) [0, 0] rfl _ rate_shown ⟨by decide, by decide, by decide⟩

example : LeafRef env sztab4 (0x59 :: (le16 3 ++ le16 2 ++ [0, 0])) "Data!tax".toList :=
  C50_leaf_own_name env sztab4 rfl (by decide) .val 3 1 (by decide) (by decide) [0, 0] rfl (-1) (-1) (by decide) (by decide) _ tax_shown ⟨by decide, by decide, by decide⟩

example : decompile env (0x59 :: (le16 4 ++ le16 2 ++ [0, 0])) 7 = .ok (some "<<Name #1 in external(?) file #4>>".toList) := by decide +kernel
example : externRange book 4 = .ok (-4, -4) := by decide

/-- A shared formula, its first cell in row 3, column 258. -/
example : decompile env [0x01, 3, 0, 2, 1] 5 = .ok (some "SHARED FMLA at rowx=3 colx=258".toList) :=
  C50_shared_formula_text env sztab4 rfl 3 258 (by decide) (by decide) _ rfl

example : decompile env (0x2A :: [1, 2, 3, 4] ++ [9]) 5 = .ok (some "?".toList) :=
  C50_deleted_reference env 4 rfl .ref 0x0A (by decide) [1, 2, 3, 4] (by decide) [9]

example : dStep env sztab4 (0x3B :: (le16 0 ++ encAreaRaw 80 1 1 true false 4 2 true false)) 11 0 [] = .error .type :=
  C50_relative_sheet_area_fails env sztab4 .ref (le16 0) rfl 1 1 4 2 true false true false (.inl rfl) (by decide) (by decide) (by decide) (by decide) rfl (by decide)
    rfl _ [] 0 11 [] (by rw [List.append_nil]; rfl)

/-- In the shared formula of F6, the cell one row up in column A. -/
example : ∃ w, LeafRef { env with reldelta := true } sztab4 (0x4C :: encAddr 80 (.rel (-1)) (.abs 0)) w ∧ readMixed w = some (4, false, 0, true) :=
  C50_leaf_shared_cell { env with reldelta := true } sztab4 rfl .val 0x0C (.inr rfl) (.rel (-1)) (.abs 0) 
    ⟨⟨by decide, by decide⟩, (by decide : 0 < 256)⟩ 5 5 rfl rfl rfl rfl

/-- `'it''s'!$B$2*rate+Data!tax`. -/
def formula : Stored :=
  .bin .add (.bin .mul (.leaf (0x5A :: (le16 0 ++ encAddrRaw 80 1 1 false false)) "'it''s'!$B$2".toList) (.leaf (0x43 :: (le16 1 ++ [0, 0])) "rate".toList))
    (.leaf (0x43 :: (le16 2 ++ [0, 0])) "Data!tax".toList)

theorem cell_leaf : LeafOk env sztab4 (0x5A :: (le16 0 ++ encAddrRaw 80 1 1 false false)) "'it''s'!$B$2".toList := by
  obtain ⟨w, hl, _⟩ := C50_leaf_sheet_cell env sztab4 rfl (by decide) .val (le16 0) 1 second_sheet _ rfl (by decide) 1 1 (by decide) (by decide)
  have hl' : LeafRef env sztab4 (0x5A :: (le16 0 ++ encAddrRaw 80 1 1 false false)) w := hl
  obtain ⟨k, hrun⟩ := hl'.1.2.2 (0x5A :: (le16 0 ++ encAddrRaw 80 1 1 false false)) [] 0 7 [] (by simp)
  have hdec : decompile env (0x5A :: (le16 0 ++ encAddrRaw 80 1 1 false false)) 7 = .ok (some w) := by
    unfold decompile
    rw [show szdict env.bv = .ok sztab4 from rfl]
    simp only [bind, Except.bind]
    rw [if_neg (by decide), dLoop, if_pos (by decide)]
    simp only [Nat.cast_zero] at hrun
    rw [hrun]
    simp only [bind, Except.bind]
    rw [show (0 : Int) + ((0x5A :: (le16 0 ++ encAddrRaw 80 1 1 false false) : Bytes).length : Int) = 7 from rfl, dLoop, if_neg (by decide)]
    rfl
  have hd2 : decompile env (0x5A :: (le16 0 ++ encAddrRaw 80 1 1 false false)) 7 = .ok (some "'it''s'!$B$2".toList) := by decide +kernel
  rw [hd2] at hdec
  cases hdec
  exact hl'.1

/-- The hypotheses of `C50_text_partial` are met by a formula with a sheet and with names. -/
example : ∃ text, decompile env (formula.enc 80) (formula.enc 80).length = .ok (some text) ∧ ∀ e, FormulaDenotes text e ↔ e = formula.tree := by
  have h := C50_text_partial env sztab4 rfl formula (by
    simp only [formula, Stored.Ok, Stored.tree]
    exact ⟨⟨cell_leaf, (C50_leaf_name env sztab4 rfl .val 0 (by decide) [0, 0] rfl _ rate_shown ⟨by decide, by decide, by decide⟩).1, by simp, by simp⟩,
      (C50_leaf_name env sztab4 rfl .val 1 (by decide) [0, 0] rfl _ tax_shown ⟨by decide, by decide, by decide⟩).1, by simp, by simp⟩)
    (by simp [formula, Stored.tree]) (by simp [formula, Stored.tree, Tree.LeftGrouped, Op2.prec]) []
  rwa [List.append_nil] at h

end SheetFormulas

open SheetFormulas

/-- **C50** (names of sheets that are not quoted).  A reference to cell B2 of the sheet `a-b` is shown as `a-b!$B$2`, which is a difference. -/
theorem C50_sheet_name_as_difference : ∃ bytes, TokenSheets env (le16 2) 2 2 ∧ book.sheetNames[2]? = some "a-b".toList ∧
    bytes = 0x5A :: (le16 2 ++ encAddrRaw 80 1 1 false false) ∧ decompile env bytes 7 = .ok (some "a-b!$B$2".toList) ∧
    FormulaDenotes "a-b!$B$2".toList (.bin .sub (.leaf "a".toList) (.leaf "b!$B$2".toList)) := by
  refine ⟨_, third_sheet, rfl, rfl, by decide +kernel, [.word "a".toList, .op .sub, .word "b!$B$2".toList], by decide, ?_⟩
  exact .tighter (by decide) (.binary (o := .sub) (l := [.word "a".toList]) (r := [.word "b!$B$2".toList]) (.tighter (by decide) (.word _)) (.tighter (by decide) (.word _)))

/-- **C50** (names of one sheet).  The name `tax` of the sheet `my sheet` is shown as `my sheet!tax`, which is an intersection. -/
theorem C50_local_name_not_quoted : NameShows book 2 "my sheet!tax".toList ∧
    decompile env (0x43 :: (le16 3 ++ [0, 0])) 5 = .ok (some "my sheet!tax".toList) ∧
    FormulaDenotes "my sheet!tax".toList (.isect (.leaf "my".toList) (.leaf "sheet!tax".toList)) := by
  refine ⟨tax3_shown, by decide +kernel, [.word "my".toList, .space, .word "sheet!tax".toList], by decide, ?_⟩
  exact .tighter (by decide) (.isect (l := [.word "my".toList]) (r := [.word "sheet!tax".toList]) (.tighter (by decide) (.word _)) (.tighter (by decide) (.word _)))

end Xlrd
