import Verif.Props.OpensExamples
import Verif.Props.NameExprOldExamples

/-!
# Workbooks with computed names that open

The names of `Props/NameExprExamples.lean` and `Props/NameExprOldExamples.lean` are computed without an exception, so the workbooks open (C80).
-/
set_option linter.unusedSimpArgs false
namespace Xlrd
open Spec

namespace OpenExprSample
open Sample hiding env items ok sheets sheetData sheetRec
open ExprSample (sums pyCalc five yes which fs)

/-- What `ExprSample.ops` can do. -/
def can : Can where
  arith := fun o x y => o = .add ∧ ∃ q r, x = .float (.fin q) ∧ y = .float (.fin r)
  compare := fun o v w => o = .eq ∧ ∃ q r, v = .num (.float (.fin q)) ∧ w = .num (.float (.fin r))
  parse := fun _ => False

theorem pyCan : PyCan ExprSample.ops can where
  arith := by
    rintro o x y _ ⟨rfl, q, r, rfl, rfl⟩
    exact ⟨by simp, _, rfl⟩
  cat := fun s t => ⟨_, rfl⟩
  compare := by
    rintro o v w p q _ h1 h2 ⟨rfl, a, b, rfl, rfl⟩
    cases h1; cases h2
    exact ⟨_, rfl⟩
  parse := by rintro s ⟨⟩
  negate := fun n => ⟨_, rfl⟩
  percent := fun n => ⟨_, rfl⟩

theorem ifArity (lo hi : Nat) (h : IsFunc 1 lo hi) : lo ≤ 3 ∧ 3 ≤ hi := by
  obtain ⟨s, h⟩ := h
  have h0 : funcDef 1 = some ("IF".toList, 2, 3) := by decide +kernel
  rw [h0] at h
  cases h
  decide

theorem chooseArity (lo hi : Nat) (h : IsFunc 100 lo hi) : lo ≤ 3 ∧ 3 ≤ hi := by
  obtain ⟨s, h⟩ := h
  have h0 : funcDef 100 = some ("CHOOSE".toList, 2, 30) := by decide +kernel
  rw [h0] at h
  cases h
  decide

variable {loc : Nat → Nat → Nat → Prop} {use : Nat → Prop}

theorem fiveVal {v : Value} (h : HasVal sums loc fs five v) : ∃ q, v = .num (.float (.fin q)) := by
  unfold five at h
  cases h with
  | arith _ _ _ v w x y _ ha hb hx hy =>
    cases ha; cases hb; cases hx; cases hy
    exact ⟨_, rfl⟩
  | compare _ _ _ _ _ ho => cases ho

theorem safe0 : Safe sums can loc fs IsFunc use five := by
  refine .bin .add _ _ (.int 2) (.int 3) ?_
  intro v w hv hw _ _
  cases hv; cases hw
  refine ⟨fun _ => ⟨(by rintro s (h | h) <;> cases h), ?_⟩, fun h => (by cases h)⟩
  intro x y hx hy
  cases hx; cases hy
  exact ⟨rfl, _, _, rfl, rfl⟩

theorem safe1 (h0 : use 0) : Safe sums can loc fs IsFunc use yes := by
  refine .varying .val 1 _ ?_ ifArity (fun h => by cases h)
  intro a h
  simp only [List.mem_cons, List.mem_nil_iff, or_false] at h
  rcases h with rfl | rfl | rfl
  · refine .quiet _ _ _ (.bin .eq _ _ (.name .val 0 h0) (.int 5) ?_)
    intro v w hv hw _ _
    cases hw
    cases hv with
    | name _ _ x _ hx hv =>
      cases hx
      obtain ⟨q, rfl⟩ := fiveVal hv
      exact ⟨(fun h => by cases h), fun _ => ⟨rfl, _, _, rfl, rfl⟩⟩
  · exact .text _
  · exact .missing

theorem safe2 (h0 : use 0) : Safe sums can loc fs IsFunc use which := by
  refine .varying .val 100 _ ?_ chooseArity (fun _ c hc => Or.inr ?_)
  · intro a h
    simp only [List.mem_cons, List.mem_nil_iff, or_false] at h
    rcases h with rfl | rfl | rfl
    · exact .int 2
    · exact .name .val 0 h0
    · exact .cell .ref 1 4 2
  · cases hc
    exact ⟨_, .int 2⟩

/-- The first name is at level 0, the others use it. -/
def level (i : Nat) : Nat := min i 1

theorem computable : NamesComputable sums can IsFunc (supbooks ExprSample.items) [sheetA, sheetB, sheetC] NameSample.refs ExprSample.names := by
  have placed : PlacedName [sheetA, sheetB, sheetC] ExprSample.names 0 := ⟨_, rfl, Or.inl rfl⟩
  refine ⟨fs, level, fun i => Nat.le_trans (Nat.min_le_right i 1) (by decide), fun i x h => ⟨ExprSample.stored i x h, ?_⟩,
    fun i o h => Or.inr (Or.inr (Or.inr (Or.inl ?_)))⟩
  · match i, h with
    | 0, h => cases h; exact ⟨ExprSample.fine0, safe0⟩
    | 1, h => cases h; exact ⟨ExprSample.fine1, safe1 ⟨by decide, placed⟩⟩
    | 2, h => cases h; exact ⟨ExprSample.fine2, safe2 ⟨by decide, placed⟩⟩
    | n + 3, h => cases h
  · match i, h with
    | 0, _ => exact ⟨_, rfl⟩
    | 1, _ => exact ⟨_, rfl⟩
    | 2, _ => exact ⟨_, rfl⟩
    | n + 3, h => simp [ExprSample.names] at h

theorem openable : Openable 80 outside.override outside.codec ExprSample.items ExprSample.names where
  usable := fun q _ => OpenSample.usable 80 _
  collected := ExprSample.namesOk
  scopes := fun h => absurd h (by decide)
  readable := by
    refine readable_of fun i it h => ?_
    match i, h with
    | 0, h => cases h; exact .boundsheet _ sheetA (Sample.sheetRec _ sheetA "A" rfl (by decide) (by decide) (by decide) (by decide +kernel) (by decide +kernel))
    | 1, h => cases h; exact .boundsheet _ sheetB (Sample.sheetRec _ sheetB "B" rfl (by decide) (by decide) (by decide) (by decide +kernel) (by decide +kernel))
    | 2, h => cases h; exact .boundsheet _ sheetC (Sample.sheetRec _ sheetC "C" rfl (by decide) (by decide) (by decide) (by decide +kernel) (by decide +kernel))
    | 3, h => cases h; exact .supbook _ (.addins [])
    | 4, h => cases h; exact .supbook _ (.ours 3 [])
    | 5, h =>
      cases h
      exact .extern8 _ _ (by decide) (ExprSample.ok.plain (.extern NameSample.externData []) (by simp [ExprSample.items]))
    | 6, h => cases h; exact .name _ _ (ExprSample.namedRec _ "first" ExprSample.fiveData (by decide +kernel) (by decide +kernel) (by decide +kernel) (by decide +kernel))
    | 7, h => cases h; exact .name _ _ (ExprSample.namedRec _ "second" ExprSample.yesData (by decide +kernel) (by decide +kernel) (by decide +kernel) (by decide +kernel))
    | 8, h => cases h; exact .name _ _ (ExprSample.namedRec _ "third" ExprSample.whichData (by decide +kernel) (by decide +kernel) (by decide +kernel) (by decide +kernel))
    | n + 9, h => simp [ExprSample.items] at h

/-- The globals of the BIFF8 workbook are read. -/
example : ∃ b p, parseGlobals ExprSample.env ([9, 9] ++ encGlobals ExprSample.items [] ++ [7]) newBook (([9, 9] : Bytes).length : Int) = .ok (b, p) :=
  C80_globals_partial ExprSample.ops ExprSample.env (by decide) ExprSample.env_evaluates [9, 9] [7] [] (by decide) ExprSample.items ExprSample.ok _
    ExprSample.sheets ExprSample.names openable (.inr ⟨sums, can, pyCalc, pyCan, Or.inl ⟨rfl, _, ExprSample.externs, computable⟩⟩)

/-! ### BIFF7 -/

theorem oldComputable (dec : Bytes → R PyStr) (hd : dec = (OldExprSample.fenv newBook).dec) :
    OldNamesComputable sums can IsFunc 70 dec [sheetA, sheetB, sheetC] [] OldExprSample.names := by
  have placed : OldPlacedName [sheetA, sheetB, sheetC] [] OldExprSample.names 0 := ⟨_, _, rfl, .book, by decide⟩
  refine ⟨OldExprSample.place, fs, level, fun i => Nat.le_trans (Nat.min_le_right i 1) (by decide), fun i x h => ⟨hd ▸ OldExprSample.stored newBook i x h, ?_⟩,
    fun i o h => Or.inr (Or.inr (Or.inr (Or.inl ?_)))⟩
  · match i, h with
    | 0, h => cases h; exact ⟨OldExprSample.fine0, safe0⟩
    | 1, h => cases h; exact ⟨OldExprSample.fine1, safe1 ⟨by decide, placed⟩⟩
    | 2, h => cases h; exact ⟨OldExprSample.fine2, safe2 ⟨by decide, placed⟩⟩
    | n + 3, h => cases h
  · match i, h with
    | 0, _ => exact ⟨_, rfl⟩
    | 1, _ => exact ⟨_, rfl⟩
    | 2, _ => exact ⟨_, rfl⟩
    | n + 3, h => simp [OldExprSample.names] at h

theorem oldOpenable : Openable 70 outside.override outside.codec OldExprSample.items OldExprSample.names where
  usable := fun q _ => OpenSample.usable 70 _
  collected := OldExprSample.namesOk
  scopes := by
    intro _ o ho
    simp only [OldExprSample.names, List.mem_cons, List.mem_nil_iff, or_false] at ho
    rcases ho with rfl | rfl | rfl <;> exact Or.inl rfl
  readable := by
    refine readable_of fun i it h => ?_
    match i, h with
    | 0, h => cases h; exact .codepage 1252 [] (by decide)
    | 1, h => cases h; exact .boundsheet _ sheetA (OldExprSample.sheetRec (OldExprSample.items.take 1) sheetA "A" (by decide +kernel) (by decide) (by decide) (by decide) (by decide +kernel))
    | 2, h => cases h; exact .boundsheet _ sheetB (OldExprSample.sheetRec (OldExprSample.items.take 2) sheetB "B" (by decide +kernel) (by decide) (by decide) (by decide) (by decide +kernel))
    | 3, h => cases h; exact .boundsheet _ sheetC (OldExprSample.sheetRec (OldExprSample.items.take 3) sheetC "C" (by decide +kernel) (by decide) (by decide) (by decide) (by decide +kernel))
    | 4, h => cases h; exact .name _ _ (OldExprSample.namedRec (OldExprSample.items.take 4) "first" OldExprSample.fiveData (by decide +kernel) (by decide +kernel) (by decide +kernel))
    | 5, h => cases h; exact .name _ _ (OldExprSample.namedRec (OldExprSample.items.take 5) "second" OldExprSample.yesData (by decide +kernel) (by decide +kernel) (by decide +kernel))
    | 6, h => cases h; exact .name _ _ (OldExprSample.namedRec (OldExprSample.items.take 6) "third" OldExprSample.whichData (by decide +kernel) (by decide +kernel) (by decide +kernel))
    | n + 7, h => simp [OldExprSample.items] at h

theorem oldExternNames : ExternNames (textAt OldExprSample.env) OldExprSample.items [] := by
  have h1 := ExternNames.nil (dec := textAt OldExprSample.env) |>.skip (it := .one 0x42 [0xe4, 0x04]) (by simp)
  have h2 := h1.skip (it := .one 0x85 (OldNameSample.sheetData sheetA "A")) (by simp)
  have h3 := h2.skip (it := .one 0x85 (OldNameSample.sheetData sheetB "B")) (by simp)
  have h4 := h3.skip (it := .one 0x85 (OldNameSample.sheetData sheetC "C")) (by simp)
  have h5 := h4.skip (it := .one 0x18 (OldExprSample.namedData "first" OldExprSample.fiveData)) (by simp)
  have h6 := h5.skip (it := .one 0x18 (OldExprSample.namedData "second" OldExprSample.yesData)) (by simp)
  exact h6.skip (it := .one 0x18 (OldExprSample.namedData "third" OldExprSample.whichData)) (by simp)

/-- The globals of the BIFF7 workbook are read. -/
example : ∃ b p, parseGlobals OldExprSample.env ([9, 9] ++ encGlobals OldExprSample.items [] ++ [7]) newBook (([9, 9] : Bytes).length : Int) = .ok (b, p) :=
  C80_globals_partial ExprSample.ops OldExprSample.env (by decide) (fun _ => rfl) [9, 9] [7] [] (by decide) OldExprSample.items OldExprSample.ok _
    OldExprSample.sheets OldExprSample.names oldOpenable (.inr ⟨sums, can, pyCalc, pyCan, Or.inr ⟨by decide, _, oldExternNames, oldComputable _ rfl⟩⟩)

end OpenExprSample
end Xlrd
