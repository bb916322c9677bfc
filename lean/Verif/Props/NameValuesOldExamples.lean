import Verif.Props.NameValuesOld
import Verif.Props.NameValuesExamples
import Verif.Props.OldScopes

/-!
# A sample BIFF7 workbook with names that refer to cells

As `Props/NameValuesExamples.lean`, with the references of BIFF7.  It meets the hypotheses of the theorems of C70 about BIFF5 and BIFF7.
-/
namespace Xlrd
open Spec

namespace OldNameSample
open Sample hiding env items ok sheets

def env : BookEnv := { Sample.outside.bookEnv 70 10 with
  evalNames := fun b => (bookNames { ops := NameSample.ops, bv := 70, bk := b, dec := b.dec (Sample.outside.bookEnv 70 10) }).map fun _ => () }

theorem env_evaluates : EvaluatesNames NameSample.ops env := fun _ => rfl

def unused : Bytes := [1, 2, 3, 4, 5, 6, 7, 8]
def unused12 : Bytes := [1, 2, 3, 4, 5, 6, 7, 8, 9, 10, 11, 12]
def onC : OldSheets := ⟨65535, unused, 2, 2⟩
def onAC : OldSheets := ⟨65534, unused, 0, 2⟩

def rate : OldRefExpr := .cell onC 4 2
def block : OldRefExpr := .range (.name 0 unused12) (.cell onC 9 5)
def both : OldRefExpr := .union (.paren (.name 1 unused12)) (.area onAC 1 2 3 4)

def named (n : String) (ext : Nat) (x : OldRefExpr) : NameObj :=
  { nameIndex := 0, optionFlags := 0, hidden := 0, func := 0, vbasic := 0, macroFlag := 0, complex := 0, builtin := 0, funcgroup := 0,
    binary := 0, extnSheetNum := ext, excelSheetIndex := 0, scope := none, name := n.toList, rawFormula := x.tokens, basicFormulaLen := x.tokens.length }
def raw (n : String) : Bytes := n.toList.map fun c => UInt8.ofNat c.toNat
def namedData (n : String) (ext : Nat) (x : OldRefExpr) : Bytes :=
  le16 0 ++ [0, UInt8.ofNat (raw n).length] ++ le16 x.tokens.length ++ le16 ext ++ le16 0 ++ [0, 0, 0, 0] ++ raw n ++ x.tokens
def sheetData (s : SheetRec) (n : String) : Bytes :=
  le32 s.offset ++ [UInt8.ofNat s.visibility, UInt8.ofNat s.ty] ++ (encLen 1 (raw n).length ++ raw n) ++ []

def items : List GItem :=
  [.one 0x42 [0xe4, 0x04], .one 0x85 (sheetData sheetA "A"), .one 0x85 (sheetData sheetB "B"), .one 0x85 (sheetData sheetC "C"),
   .extern [2, 1, 0x3A, 0x41] [], .extern [1, 3, 0x43] [], .one 0x18 (namedData "rate" 0 rate), .one 0x18 (namedData "block" 2 block), .one 0x18 (namedData "both" 0 both)]

def names : List NameObj := [named "rate" 0 rate, named "block" 2 block, named "both" 0 both]

theorem ok : GlobalsOk 70 items where
  sized := by unfold GItem.Sized; decide +kernel
  plain := by
    intro it h
    simp only [items, List.mem_cons, List.mem_nil_iff, or_false] at h
    rcases h with rfl | rfl | rfl | rfl | rfl | rfl | rfl | rfl | rfl <;> simp [GItem.Plain, ExternComplete]
  stray := by simp [items, NoStrayContinue]

theorem sheetRec (pre : List GItem) (s : SheetRec) (n : String) (h1 : textAt env pre (raw n) = .ok s.name) (h2 : s.offset < 2 ^ 31) (h3 : s.visibility < 256)
    (h4 : s.ty < 256) (h5 : (raw n).length < 256) : BoundsheetRecord 70 (textAt env pre) s (sheetData s n) :=
  ⟨_, [], .older (raw n) (by decide) h1 h5, h2, h3, h4, rfl⟩

theorem sheets : Sheets 70 (textAt env) items [sheetA, sheetB, sheetC] := by
  have h0 : Sheets 70 (textAt env) [] [] := .nil
  have h1 := h0.skip (sel := (· = 0x85)) (it := .one 0x42 [0xe4, 0x04]) (by rintro c d ⟨⟩; simp)
  have h2 := h1.take rfl (sheetRec _ sheetA "A" (by decide +kernel) (by decide) (by decide) (by decide) (by decide +kernel))
  have h3 := h2.take rfl (sheetRec _ sheetB "B" (by decide +kernel) (by decide) (by decide) (by decide) (by decide +kernel))
  have h4 := h3.take rfl (sheetRec _ sheetC "C" (by decide +kernel) (by decide) (by decide) (by decide) (by decide +kernel))
  have h4 := h4.skip (it := .extern [2, 1, 0x3A, 0x41] []) (by rintro c d ⟨⟩)
  have h4 := h4.skip (it := .extern [1, 3, 0x43] []) (by rintro c d ⟨⟩)
  have h5 := h4.skip (it := .one 0x18 (namedData "rate" 0 rate)) (by rintro c d ⟨⟩; simp)
  have h6 := h5.skip (it := .one 0x18 (namedData "block" 2 block)) (by rintro c d ⟨⟩; simp)
  exact h6.skip (it := .one 0x18 (namedData "both" 0 both)) (by rintro c d ⟨⟩; simp)

theorem namedRec (pre : List GItem) (n : String) (ext : Nat) (x : OldRefExpr) (h0 : ext < 65536) (h1 : (raw n).length < 256) (h2 : x.tokens.length < 65536)
    (h3 : textAt env pre (raw n) = .ok n.toList) : NameRecord 70 (textAt env pre) (named n ext x) (namedData n ext x) :=
  ⟨0, 0, (raw n).length, [0, 0, 0, 0], n.toList, raw n, by simp [FieldsFit, nameFlags, named], by simp [packFields, nameFlags, named],
    by simp [named], h1, h2, h0, by simp [named], rfl, .older (raw n) (by decide) h3,
    by simp [NameShown, named], rfl⟩

theorem namesOk : Names 70 (textAt env) items names := by
  have h0 : Names 70 (textAt env) [] [] := .nil
  have h1 := h0.skip (sel := (· = 0x18)) (it := .one 0x42 [0xe4, 0x04]) (by rintro c d ⟨⟩; simp)
  have h2 := h1.skip (it := .one 0x85 (sheetData sheetA "A")) (by rintro c d ⟨⟩; simp)
  have h3 := h2.skip (it := .one 0x85 (sheetData sheetB "B")) (by rintro c d ⟨⟩; simp)
  have h4 := h3.skip (it := .one 0x85 (sheetData sheetC "C")) (by rintro c d ⟨⟩; simp)
  have h4 := h4.skip (it := .extern [2, 1, 0x3A, 0x41] []) (by rintro c d ⟨⟩)
  have h4 := h4.skip (it := .extern [1, 3, 0x43] []) (by rintro c d ⟨⟩)
  have h5 := h4.take rfl (namedRec _ "rate" 0 rate (by decide) (by decide +kernel) (by decide +kernel) (by decide +kernel))
  have h6 := h5.take rfl (namedRec _ "block" 2 block (by decide) (by decide +kernel) (by decide +kernel) (by decide +kernel))
  exact h6.take rfl (namedRec _ "both" 0 both (by decide) (by decide +kernel) (by decide +kernel) (by decide +kernel))

theorem externNames : ExternNames (textAt env) items [none, some ['C']] := by
  have h1 := ExternNames.nil (dec := textAt env) |>.skip (it := .one 0x42 [0xe4, 0x04]) (by simp)
  have h2 := h1.skip (it := .one 0x85 (sheetData sheetA "A")) (by simp)
  have h3 := h2.skip (it := .one 0x85 (sheetData sheetB "B")) (by simp)
  have h4 := h3.skip (it := .one 0x85 (sheetData sheetC "C")) (by simp)
  have h5 := h4.other (n := 2) (ty := 1) (rest := [0x3A, 0x41]) (more := []) (by decide)
  have h6 := h5.sheet (n := 1) (rest := [0x43]) (more := []) (s := ['C']) rfl
  have h7 := h6.skip (it := .one 0x18 (namedData "rate" 0 rate)) (by simp)
  have h8 := h7.skip (it := .one 0x18 (namedData "block" 2 block)) (by simp)
  exact h8.skip (it := .one 0x18 (namedData "both" 0 both)) (by simp)

theorem load : ∃ b p, parseGlobals env ([9, 9] ++ encGlobals items [] ++ [7]) newBook (([9, 9] : Bytes).length : Int) = .ok (b, p) := by
  cases h : parseGlobals env ([9, 9] ++ encGlobals items [] ++ [7]) newBook (([9, 9] : Bytes).length : Int) with
  | ok r => exact ⟨r.1, r.2, rfl⟩
  | error e =>
    have : (parseGlobals env ([9, 9] ++ encGlobals items [] ++ [7]) newBook (([9, 9] : Bytes).length : Int)).toOption.isSome = true := by decide +kernel
    rw [h] at this; cases this

theorem locC : OldLocal [sheetA, sheetB, sheetC] onC 1 1 :=
  ⟨by decide, rfl, by decide, by decide, sheetC, sheetC, rfl, rfl, rfl, rfl, by decide, by decide⟩
theorem locAC : OldLocal [sheetA, sheetB, sheetC] onAC 0 1 :=
  ⟨by decide, rfl, by decide, by decide, sheetA, sheetC, rfl, rfl, rfl, rfl, by decide, by decide⟩

theorem formula (i : Nat) (n : String) (ext : Nat) (x : OldRefExpr) (h : names[i]? = some (named n ext x)) : OldNameFormula names i x :=
  ⟨_, [], h, rfl, rfl, (List.append_nil _).symm, rfl⟩

theorem val0 : OldRefVal (OldLocal [sheetA, sheetB, sheetC]) names rate [⟨1, 2, 4, 5, 2, 3⟩] :=
  .cell onC 4 2 1 1 locC (by decide) (by decide)
theorem val1 : OldRefVal (OldLocal [sheetA, sheetB, sheetC]) names block [⟨1, 2, 4, 10, 2, 6⟩] :=
  .range _ _ ⟨1, 2, 4, 5, 2, 3⟩ ⟨1, 2, 9, 10, 5, 6⟩ (.name 0 _ _ _ (by decide) rfl (formula 0 "rate" 0 _ rfl) val0) (.cell onC 9 5 1 1 locC (by decide) (by decide))
theorem val2 : OldRefVal (OldLocal [sheetA, sheetB, sheetC]) names both [⟨1, 2, 4, 10, 2, 6⟩, ⟨0, 2, 1, 3, 3, 5⟩] :=
  .union _ _ _ _ (.paren _ _ (.name 1 _ _ _ (by decide) rfl (formula 1 "block" 2 _ rfl) val1)) (.area onAC 1 2 3 4 0 1 locAC (by decide) (by decide) (by decide) (by decide))

/-- The names have been evaluated, the third one is the union of an area of C and an area of A and C, and `cell` of the first one goes to C. -/
example : ∃ b0 tbl e, bookNames (nameEnv NameSample.ops env b0) = .ok tbl ∧ tbl[2]? = some (some e) ∧
    opndRefs e.result = .ok (some [⟨1, 2, 4, 10, 2, 6⟩, ⟨0, 2, 1, 3, 3, 5⟩]) ∧ ∀ oenv lib,
      (∃ e res, tbl[0]? = some (some e) ∧ opndRefs e.result = .ok res ∧
        (nameCell oenv lib res).1 = (sheetByIndex oenv lib (1 : Nat)).1.map fun sh => (sh, ((4 : Nat) : Int), ((2 : Nat) : Int))) ∧
      ∃ e res, tbl[1]? = some (some e) ∧ opndRefs e.result = .ok res ∧
        ∀ sh, (sheetByIndex oenv lib (1 : Nat)).1 = .ok sh →
          (nameArea2d oenv lib res false).1 = .ok (sh, ((4 : Nat) : Int), ((10 : Nat) : Int), ((2 : Nat) : Int), ((6 : Nat) : Int)) := by
  obtain ⟨b, p, h⟩ := load
  obtain ⟨b0, tbl, hb, ht⟩ := C70_names_evaluated NameSample.ops env env_evaluates [9, 9] [7] [] (by decide) items ok b p h
  obtain ⟨e, _, h1, _, _, _, h2⟩ := C70_old_name_areas env (.inr rfl) [9, 9] [7] [] (by decide) items ok _ sheets names namesOk b p h
    (nameEnv NameSample.ops env b0) rfl hb tbl ht 2 _ _ (formula 2 "both" 0 _ rfl) val2
  refine ⟨b0, tbl, e, ht, h1, h2, fun oenv lib => ⟨?_, ?_⟩⟩
  · exact C70_old_cell env (.inr rfl) [9, 9] [7] [] (by decide) items ok _ sheets names namesOk b p h
      (nameEnv NameSample.ops env b0) rfl hb tbl ht 0 _ (formula 0 "rate" 0 _ rfl) 1 4 2 val0 oenv lib
  · obtain ⟨e, res, h3, h4, h5⟩ := C70_old_area2d env (.inr rfl) [9, 9] [7] [] (by decide) items ok _ sheets names namesOk b p h
      (nameEnv NameSample.ops env b0) rfl hb tbl ht 1 _ (formula 1 "block" 2 _ rfl) 1 4 10 2 6 val1 oenv lib
    exact ⟨e, res, h3, h4, h5.2⟩

theorem scopeC : OldScope [sheetA, sheetB, sheetC] [none, some ['C']] 2 1 := by
  refine .sheet 1 1 ['C'] rfl (by decide +kernel) fun j hj => ?_
  rw [List.getElem?_eq_none (Nat.le_trans (show _ ≤ 2 by decide +kernel) (by omega))]
  simp

/-- The second name belongs to sheet C, the others to the workbook. -/
example : ∃ b p s, parseGlobals env ([9, 9] ++ encGlobals items [] ++ [7]) newBook (([9, 9] : Bytes).length : Int) = .ok (b, p) ∧
    b.nameObjs[1]? = some { named "block" 2 block with nameIndex := 1, scope := some s } ∧ s = 1 := by
  obtain ⟨b, p, h⟩ := load
  obtain ⟨s, h1, h2⟩ := C44_old_scopes env (by decide) (by decide) [9, 9] [7] [] (by decide) items ok names namesOk _ sheets _ externNames b p h 1 _ rfl
  exact ⟨b, p, s, h, h1, OldScope.one h2 scopeC⟩

end OldNameSample
end Xlrd
