import Verif.Props.OpensExprExamples
import Verif.Props.RelNamesExamples

/-!
# Workbooks with relative names that open

The names of `Props/RelNamesExamples.lean` are evaluated without an exception, also the one that has no value, so the workbooks open (C80).
-/
set_option linter.unusedSimpArgs false
namespace Xlrd
open Spec

namespace OpenRelSample
open Sample hiding env items ok sheets sheetData sheetRec
open ExprSample (sums pyCalc)
open OpenExprSample (can pyCan)
open RelSample (left around more mixed column)

theorem shown (k : Nat) (h : k < 4) : PlacedName [sheetA, sheetB, sheetC] RelSample.names k := by
  match k, h with
  | 0, _ => exact ⟨_, rfl, Or.inl rfl⟩
  | 1, _ => exact ⟨_, rfl, Or.inl rfl⟩
  | 2, _ => exact ⟨_, rfl, Or.inl rfl⟩
  | 3, _ => exact ⟨_, rfl, Or.inl rfl⟩

theorem nest0 (d : Nat) : RelNest 80 RelSample.loc RelSample.names (PlacedName [sheetA, sheetB, sheetC] RelSample.names) (d + 1) (.name 0 [0, 0]) :=
  .name d 0 _ _ _ (shown 0 (by decide)) (RelSample.formula 0 "left" _ rfl) RelSample.val0 (.here d _ _)

theorem evaluable : NamesComputable sums can IsFunc (supbooks RelSample.items) [sheetA, sheetB, sheetC] NameSample.refs RelSample.names := by
  refine ⟨fun _ => none, fun _ => 0, fun _ => Nat.zero_le 10, fun i x h => (by cases h), fun i o h => Or.inr (Or.inr (Or.inr (Or.inr ?_)))⟩
  match i, h with
  | 0, _ => exact ⟨_, RelSample.formula 0 "left" _ rfl, .here 10 _ _, .inl ⟨_, RelSample.val0⟩⟩
  | 1, _ => exact ⟨_, RelSample.formula 1 "around" _ rfl, .range 10 _ _ (nest0 9) (.here 10 _ _), .inl ⟨_, RelSample.val1⟩⟩
  | 2, _ =>
    exact ⟨_, RelSample.formula 2 "more" _ rfl,
      .union 10 _ _ (.paren 10 _ (.name 9 1 _ _ _ (shown 1 (by decide)) (RelSample.formula 1 "around" _ rfl) RelSample.val1 (.range 9 _ _ (nest0 8) (.here 9 _ _))))
        (.area 10 _ _ _ _ _), .inl ⟨_, RelSample.val2⟩⟩
  | 3, _ => exact ⟨_, RelSample.formula 3 "mixed" _ rfl, .range 10 _ _ (nest0 9) (.cell 10 _ _ _), .inr ⟨_, _, _, _, .inl rfl, RelSample.val3, RelSample.val4⟩⟩
  | 4, _ => exact ⟨_, RelSample.formula 4 "column" _ rfl, .area 10 _ _ _ _ _, .inl ⟨_, RelSample.val5⟩⟩
  | n + 5, h => simp [RelSample.names] at h

theorem openable : Openable 80 outside.override outside.codec RelSample.items RelSample.names where
  usable := fun q _ => OpenSample.usable 80 _
  collected := RelSample.namesOk
  scopes := fun h => absurd h (by decide)
  readable := by
    refine readable_of fun i it h => ?_
    match i, h with
    | 0, h => cases h; exact .boundsheet _ sheetA (Sample.sheetRec _ sheetA "A" rfl (by decide) (by decide) (by decide) (by decide +kernel) (by decide +kernel))
    | 1, h => cases h; exact .boundsheet _ sheetB (Sample.sheetRec _ sheetB "B" rfl (by decide) (by decide) (by decide) (by decide +kernel) (by decide +kernel))
    | 2, h => cases h; exact .boundsheet _ sheetC (Sample.sheetRec _ sheetC "C" rfl (by decide) (by decide) (by decide) (by decide +kernel) (by decide +kernel))
    | 3, h => cases h; exact .supbook _ (.addins [])
    | 4, h => cases h; exact .supbook _ (.ours 3 [])
    | 5, h =>
      cases h
      exact .extern8 _ _ (by decide) (RelSample.ok.plain (.extern NameSample.externData []) (by simp [RelSample.items]))
    | 6, h => cases h; exact .name _ _ (RelSample.namedRec _ "left" left (by decide +kernel) (by decide +kernel) (by decide +kernel) (by decide +kernel))
    | 7, h => cases h; exact .name _ _ (RelSample.namedRec _ "around" around (by decide +kernel) (by decide +kernel) (by decide +kernel) (by decide +kernel))
    | 8, h => cases h; exact .name _ _ (RelSample.namedRec _ "more" more (by decide +kernel) (by decide +kernel) (by decide +kernel) (by decide +kernel))
    | 9, h => cases h; exact .name _ _ (RelSample.namedRec _ "mixed" mixed (by decide +kernel) (by decide +kernel) (by decide +kernel) (by decide +kernel))
    | 10, h => cases h; exact .name _ _ (RelSample.namedRec _ "column" column (by decide +kernel) (by decide +kernel) (by decide +kernel) (by decide +kernel))
    | n + 11, h => simp [RelSample.items] at h

/-- The globals of the BIFF8 workbook are read. -/
example : ∃ b p, parseGlobals ExprSample.env ([9, 9] ++ encGlobals RelSample.items [] ++ [7]) newBook (([9, 9] : Bytes).length : Int) = .ok (b, p) :=
  C80_globals_partial ExprSample.ops ExprSample.env (by decide) ExprSample.env_evaluates [9, 9] [7] [] (by decide) RelSample.items RelSample.ok _
    RelSample.sheets RelSample.names openable (.inr ⟨sums, can, pyCalc, pyCan, Or.inl ⟨rfl, _, RelSample.externs, evaluable⟩⟩)

/-! ### BIFF7 -/

theorem oldEvaluable (dec : Bytes → R PyStr) : OldNamesComputable sums can IsFunc 70 dec [sheetA, sheetB, sheetC] [] OldRelSample.names := by
  have h0 : OldPlacedName [sheetA, sheetB, sheetC] [] OldRelSample.names 0 := ⟨_, _, rfl, .book, by decide⟩
  refine ⟨fun _ => none, fun _ => none, fun _ => 0, fun _ => Nat.zero_le 10, fun i x h => (by cases h), fun i o h => Or.inr (Or.inr (Or.inr (Or.inr ?_)))⟩
  match i, h with
  | 0, _ => exact ⟨_, OldRelSample.formula 0 "left" _ rfl, .cell 10 _ _ _, .inl ⟨_, OldRelSample.val0⟩⟩
  | 1, _ =>
    exact ⟨_, OldRelSample.formula 1 "around" _ rfl,
      .range 10 _ _ (.name 9 0 _ _ _ h0 (OldRelSample.formula 0 "left" _ rfl) OldRelSample.val0 (.cell 9 _ _ _)) (.cell 10 _ _ _), .inl ⟨_, OldRelSample.val1⟩⟩
  | n + 2, h => simp [OldRelSample.names] at h

theorem oldOpenable : Openable 70 outside.override outside.codec OldRelSample.items OldRelSample.names where
  usable := fun q _ => OpenSample.usable 70 _
  collected := OldRelSample.namesOk
  scopes := by
    intro _ o ho
    simp only [OldRelSample.names, List.mem_cons, List.mem_nil_iff, or_false] at ho
    rcases ho with rfl | rfl <;> exact Or.inl rfl
  readable := by
    refine readable_of fun i it h => ?_
    match i, h with
    | 0, h => cases h; exact .codepage 1252 [] (by decide)
    | 1, h => cases h; exact .boundsheet _ sheetA (OldExprSample.sheetRec (OldRelSample.items.take 1) sheetA "A" (by decide +kernel) (by decide) (by decide) (by decide) (by decide +kernel))
    | 2, h => cases h; exact .boundsheet _ sheetB (OldExprSample.sheetRec (OldRelSample.items.take 2) sheetB "B" (by decide +kernel) (by decide) (by decide) (by decide) (by decide +kernel))
    | 3, h => cases h; exact .boundsheet _ sheetC (OldExprSample.sheetRec (OldRelSample.items.take 3) sheetC "C" (by decide +kernel) (by decide) (by decide) (by decide) (by decide +kernel))
    | 4, h => cases h; exact .name _ _ (OldRelSample.namedRec (OldRelSample.items.take 4) "left" OldRelSample.left (by decide +kernel) (by decide +kernel) (by decide +kernel))
    | 5, h => cases h; exact .name _ _ (OldRelSample.namedRec (OldRelSample.items.take 5) "around" OldRelSample.around (by decide +kernel) (by decide +kernel) (by decide +kernel))
    | n + 6, h => simp [OldRelSample.items] at h

theorem oldExternNames : ExternNames (textAt OldExprSample.env) OldRelSample.items [] := by
  have h1 := ExternNames.nil (dec := textAt OldExprSample.env) |>.skip (it := .one 0x42 [0xe4, 0x04]) (by simp)
  have h2 := h1.skip (it := .one 0x85 (OldNameSample.sheetData sheetA "A")) (by simp)
  have h3 := h2.skip (it := .one 0x85 (OldNameSample.sheetData sheetB "B")) (by simp)
  have h4 := h3.skip (it := .one 0x85 (OldNameSample.sheetData sheetC "C")) (by simp)
  have h5 := h4.skip (it := .one 0x18 (OldRelSample.namedData "left" OldRelSample.left)) (by simp)
  exact h5.skip (it := .one 0x18 (OldRelSample.namedData "around" OldRelSample.around)) (by simp)

/-- The globals of the BIFF7 workbook are read. -/
example : ∃ b p, parseGlobals OldExprSample.env ([9, 9] ++ encGlobals OldRelSample.items [] ++ [7]) newBook (([9, 9] : Bytes).length : Int) = .ok (b, p) :=
  C80_globals_partial ExprSample.ops OldExprSample.env (by decide) (fun _ => rfl) [9, 9] [7] [] (by decide) OldRelSample.items OldRelSample.ok _
    OldRelSample.sheets OldRelSample.names oldOpenable (.inr ⟨sums, can, pyCalc, pyCan, Or.inr ⟨by decide, _, oldExternNames, oldEvaluable _⟩⟩)

end OpenRelSample
end Xlrd
