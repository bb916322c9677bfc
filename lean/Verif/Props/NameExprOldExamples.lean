import Verif.Props.NameExprOld
import Verif.Props.NameExprExamples
import Verif.Props.NameValuesOldExamples

/-!
# A sample BIFF7 workbook with names that have values

The names of `Props/NameExprExamples.lean` as BIFF7 stores them.  The workbook meets the hypotheses of `C78_old_name_value_partial`.
-/
namespace Xlrd
open Spec

namespace OldExprSample
open Sample hiding env items ok sheets sheetData sheetRec
open OldNameSample (raw sheetData unused12 onC locC)
open ExprSample (sums pyCalc five yes which fs)

def env : BookEnv := { Sample.outside.bookEnv 70 10 with
  evalNames := fun b => (bookNames { ops := ExprSample.ops, bv := 70, bk := b, dec := b.dec (Sample.outside.bookEnv 70 10) }).map fun _ => () }

def fiveData : Bytes := [0x1E, 2, 0, 0x1E, 3, 0, 0x03]
def yesData : Bytes := 0x43 :: (le16 1 ++ unused12) ++ [0x1E, 5, 0, 0x0B, 0x19, 2, 9, 0, 0x17, 3, 0x79, 0x65, 0x73, 0x16, 0x42, 3, 1, 0]
def whichData : Bytes := [0x1E, 2, 0] ++ (0x43 :: (le16 1 ++ unused12)) ++ (0x3A :: (onC.enc ++ [4, 0, 2])) ++ [0x42, 3, 100, 0]

def named (n : String) (x : Bytes) : NameObj :=
  { nameIndex := 0, optionFlags := 0, hidden := 0, func := 0, vbasic := 0, macroFlag := 0, complex := 0, builtin := 0, funcgroup := 0,
    binary := 0, extnSheetNum := 0, excelSheetIndex := 0, scope := none, name := n.toList, rawFormula := x, basicFormulaLen := x.length }
def namedData (n : String) (x : Bytes) : Bytes :=
  le16 0 ++ [0, UInt8.ofNat (raw n).length] ++ le16 x.length ++ le16 0 ++ le16 0 ++ [0, 0, 0, 0] ++ raw n ++ x

def items : List GItem :=
  [.one 0x42 [0xe4, 0x04], .one 0x85 (sheetData sheetA "A"), .one 0x85 (sheetData sheetB "B"), .one 0x85 (sheetData sheetC "C"),
   .one 0x18 (namedData "first" fiveData), .one 0x18 (namedData "second" yesData), .one 0x18 (namedData "third" whichData)]

def names : List NameObj := [named "first" fiveData, named "second" yesData, named "third" whichData]

theorem ok : GlobalsOk 70 items where
  sized := by unfold GItem.Sized; decide +kernel
  plain := by
    intro it h
    simp only [items, List.mem_cons, List.mem_nil_iff, or_false] at h
    rcases h with rfl | rfl | rfl | rfl | rfl | rfl | rfl <;> simp [GItem.Plain, ExternComplete]
  stray := by simp [items, NoStrayContinue]

theorem sheetRec (pre : List GItem) (s : SheetRec) (n : String) (h1 : textAt env pre (raw n) = .ok s.name) (h2 : s.offset < 2 ^ 31) (h3 : s.visibility < 256)
    (h4 : s.ty < 256) (h5 : (raw n).length < 256) : BoundsheetRecord 70 (textAt env pre) s (sheetData s n) :=
  ⟨_, [], .older (raw n) (by decide) h1 h5, h2, h3, h4, rfl⟩

theorem sheets : Sheets 70 (textAt env) items [sheetA, sheetB, sheetC] := by
  have h0 : Sheets 70 (textAt env) [] [] := .nil
  have h1 := h0.skip (sel := (· = 0x85)) (it := .one 0x42 [0xe4, 0x04]) (by rintro c d ⟨⟩; simp)
  have h2 := h1.take rfl (sheetRec _ sheetA "A" (by decide +kernel) (by decide) (by decide) (by decide) (by decide +kernel))
  have h3 := h2.take rfl (sheetRec _ sheetB "B" (by decide +kernel) (by decide) (by decide) (by decide) (by decide +kernel))
  have h4 := h3.take rfl (sheetRec _ sheetC "C" (by decide +kernel) (by decide) (by decide) (by decide) (by decide +kernel))
  have h5 := h4.skip (it := .one 0x18 (namedData "first" fiveData)) (by rintro c d ⟨⟩; simp)
  have h6 := h5.skip (it := .one 0x18 (namedData "second" yesData)) (by rintro c d ⟨⟩; simp)
  exact h6.skip (it := .one 0x18 (namedData "third" whichData)) (by rintro c d ⟨⟩; simp)

theorem namedRec (pre : List GItem) (n : String) (x : Bytes) (h1 : (raw n).length < 256) (h2 : x.length < 65536)
    (h3 : textAt env pre (raw n) = .ok n.toList) : NameRecord 70 (textAt env pre) (named n x) (namedData n x) :=
  ⟨0, 0, (raw n).length, [0, 0, 0, 0], n.toList, raw n, by simp [FieldsFit, nameFlags, named], by simp [packFields, nameFlags, named],
    by simp [named], h1, h2, by simp [named], by simp [named], rfl, .older (raw n) (by decide) h3,
    by simp [NameShown, named], rfl⟩

theorem namesOk : Names 70 (textAt env) items names := by
  have h0 : Names 70 (textAt env) [] [] := .nil
  have h1 := h0.skip (sel := (· = 0x18)) (it := .one 0x42 [0xe4, 0x04]) (by rintro c d ⟨⟩; simp)
  have h2 := h1.skip (it := .one 0x85 (sheetData sheetA "A")) (by rintro c d ⟨⟩; simp)
  have h3 := h2.skip (it := .one 0x85 (sheetData sheetB "B")) (by rintro c d ⟨⟩; simp)
  have h4 := h3.skip (it := .one 0x85 (sheetData sheetC "C")) (by rintro c d ⟨⟩; simp)
  have h5 := h4.take rfl (namedRec _ "first" fiveData (by decide +kernel) (by decide +kernel) (by decide +kernel))
  have h6 := h5.take rfl (namedRec _ "second" yesData (by decide +kernel) (by decide +kernel) (by decide +kernel))
  exact h6.take rfl (namedRec _ "third" whichData (by decide +kernel) (by decide +kernel) (by decide +kernel))

/-- What the names are evaluated with; texts are in Latin-1. -/
def fenv (b : Book) : FEnv := { ops := ExprSample.ops, bv := 70, bk := b, dec := fun t => .ok (latin1Decode t) }

theorem load : ∃ b p tbl, parseGlobals env ([9, 9] ++ encGlobals items [] ++ [7]) newBook (([9, 9] : Bytes).length : Int) = .ok (b, p) ∧ bookNames (fenv b) = .ok tbl := by
  have : ((parseGlobals env ([9, 9] ++ encGlobals items [] ++ [7]) newBook (([9, 9] : Bytes).length : Int)).bind fun r => bookNames (fenv r.1)).toOption.isSome = true := by
    decide +kernel
  cases h : parseGlobals env ([9, 9] ++ encGlobals items [] ++ [7]) newBook (([9, 9] : Bytes).length : Int) with
  | error e => rw [h] at this; cases this
  | ok r =>
    rw [h] at this
    change (bookNames (fenv r.1)).toOption.isSome = true at this
    cases h2 : bookNames (fenv r.1) with
    | error e => rw [h2] at this; cases this
    | ok tbl => exact ⟨r.1, r.2, tbl, rfl, h2⟩

/-- References with number 1 are to sheet C. -/
def place : Nat → Option OldSheets
  | 1 => some onC
  | _ => none

abbrev loc := OldPlace place [sheetA, sheetB, sheetC]
theorem ref1 : loc 1 1 1 := ⟨onC, rfl, locC⟩

theorem stored (b : Book) : ∀ k x, fs k = some x → OldStoredAs (fenv b).dec place names k x := by
  intro k x h
  have hn : OldTokens (fenv b).dec place (.name .val 0) (0x43 :: (le16 1 ++ unused12)) := .name .val 0 unused12 rfl
  match k, h with
  | 0, h =>
    cases h
    exact ⟨_, fiveData, [], rfl, rfl, rfl, .bin .add _ _ _ _ (.int 2) (.int 3), rfl, rfl⟩
  | 1, h =>
    cases h
    refine ⟨_, yesData, [], rfl, rfl, rfl, ?_, rfl, rfl⟩
    have h2 : OldTokens (fenv b).dec place (.text (txt "yes")) [0x17, 3, 0x79, 0x65, 0x73] := .text (txt "yes") [0x79, 0x65, 0x73] (by decide) rfl
    exact .varying .val 1 _ _ (.cons (.quiet [] [.hint 2 9] _ _ (.bin .eq _ _ _ _ hn (.int 5))) (.cons h2 (.cons .missing .nil)))
  | 2, h =>
    cases h
    refine ⟨_, whichData, [], rfl, rfl, rfl, ?_, rfl, rfl⟩
    exact .varying .val 100 _ _ (.cons (.int 2) (.cons hn (.cons (.cell .ref 1 4 2 onC rfl (by decide)) .nil)))

theorem val0 : HasVal sums loc fs five (.num (.float (.fin (2 + 3)))) :=
  .arith .add _ _ _ _ _ _ rfl (.int 2) (.int 3) rfl rfl
theorem val1 : HasVal sums loc fs yes (.text "yes".toList) := by
  have h : HasVal sums loc fs (.bin .eq (.name .val 0) (.int 5)) (.bool (sums.compare .eq (.num (.float (.fin (2 + 3)))) (.num (.float (.fin (5 : Nat)))))) :=
    .compare .eq _ _ _ _ rfl (.name .val 0 five _ rfl val0) (.int 5) rfl rfl
  exact .ifTrue .val _ _ _ _ _ (.quiet [] _ _ _ h) (by simp [Value.truth, sums]; norm_num) (.text (txt "yes"))
theorem val2 : HasVal sums loc fs which (.areas [⟨1, 2, 4, 5, 2, 3⟩]) :=
  .choose .val _ _ _ _ 2 _ (.int 2) (by simp [Number.whole]) rfl (.cell 1 4 2 1 1 ref1)

theorem fine0 : Fine sums loc fs IsFunc five := .bin .add _ _ (.int 2 (by decide)) (.int 3 (by decide))
theorem fine1 : Fine sums loc fs IsFunc yes := by
  refine .varying .val 1 2 3 _ (by decide) ⟨"IF".toList, by decide +kernel⟩ (by simp) (by simp) ?_
  intro a h
  simp only [List.mem_cons, List.mem_nil_iff, or_false] at h
  rcases h with rfl | rfl | rfl
  · exact .quiet _ _ _ (by simp) (by simp [Quiet.Ok]) (.bin .eq _ _ (.name .val 0 five (by decide) rfl fine0) (.int 5 (by decide)))
  · exact .text _ (txt_ok _ (by decide +kernel)) (by decide +kernel)
  · exact .missing
theorem fine2 : Fine sums loc fs IsFunc which := by
  refine .varying .val 100 2 30 _ (by decide) ⟨"CHOOSE".toList, by decide +kernel⟩ (by simp) (by simp) ?_
  intro a h
  simp only [List.mem_cons, List.mem_nil_iff, or_false] at h
  rcases h with rfl | rfl | rfl
  · exact .int 2 (by decide)
  · exact .name .val 0 five (by decide) rfl fine0
  · exact .cell .ref 1 4 2 1 1 (by decide) ref1 (by decide) (by decide)

/-- The names have been evaluated: the second one is the text "yes", the third one is a cell of C. -/
example : ∃ b tbl, bookNames (fenv b) = .ok tbl ∧
    (∃ e o, tbl[1]? = some (some e) ∧ e.result = some o ∧ o.kind = .strg ∧ o.value = some (.str "yes".toList)) ∧
    ∃ e o, tbl[2]? = some (some e) ∧ e.result = some o ∧ Means o [⟨1, 2, 4, 5, 2, 3⟩] := by
  obtain ⟨b, p, tbl, h, ht⟩ := load
  refine ⟨b, tbl, ht, ?_, ?_⟩
  · obtain ⟨e, o, h1, h2, h3, _⟩ := C78_old_name_value_partial env (.inr rfl) [9, 9] [7] [] (by decide) items ok _ sheets names namesOk b p h
      (fenv b) rfl ⟨rfl, rfl, rfl, rfl, rfl, rfl⟩ sums pyCalc tbl ht place fs (stored b) 1 yes rfl fine1
    exact ⟨e, o, h1, h2, h3 _ val1⟩
  · obtain ⟨e, o, h1, h2, h3, _⟩ := C78_old_name_value_partial env (.inr rfl) [9, 9] [7] [] (by decide) items ok _ sheets names namesOk b p h
      (fenv b) rfl ⟨rfl, rfl, rfl, rfl, rfl, rfl⟩ sums pyCalc tbl ht place fs (stored b) 2 which rfl fine2
    exact ⟨e, o, h1, h2, h3 _ val2⟩

end OldExprSample
end Xlrd
