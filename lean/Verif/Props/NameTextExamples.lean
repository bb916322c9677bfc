import Verif.Props.NameText
import Verif.Props.FormulaSheetsExamples
import Verif.Props.NameExprExamples

/-!
# C89: names with texts, and formulas of which the text is lost
-/
set_option linter.unusedSimpArgs false

namespace Xlrd
open Spec

/-- A token of a file without add-ins that does not call function 255. -/
theorem ownFunction_of (env : FEnv) (data : Bytes) (pos : Int) (ha : env.bk.supbookAddinsInx = none)
    (hc : (match byteAt data pos, funcVarFields env.bv data pos with
      | .ok op, .ok f => decide (op % 32 = 2) && decide (op / 32 % 4 ≠ 0) && decide (f.2 = 255)
      | _, _ => false) = false) : OwnFunction env data pos := by
  constructor
  · intro op n hb h2 h3 hf
    rw [hb, hf] at hc
    simp [h2, h3] at hc
  · intro op f s _ _ _ _ hs
    exact nameXRange_no5 ha hs

namespace NameTextSample
open SheetFormulas ExprSample

/-- The names of `SheetFormulas.book` with formulas: `rate` is 5, the name `tax` of the first sheet is 3, and `total` is `'it''s'!$B$2*rate+Data!tax`. -/
def nameWith (k : Nat) (scope : Int) (name : String) (x : Bytes) : NameObj := { nameOf k scope name with rawFormula := x, basicFormulaLen := x.length }

def bytes : Bytes := [0x5A, 0, 0, 1, 0, 1, 0, 0x43, 1, 0, 0, 0, 0x05, 0x43, 2, 0, 0, 0, 0x03]

theorem bytes_eq : bytes = formula.enc 80 := by simp only [formula, Stored.enc]; decide +kernel

def names : List NameObj := [nameWith 0 (-1) "rate" [0x1E, 5, 0], nameWith 1 0 "tax" [0x1E, 3, 0], nameWith 2 (-1) "total" bytes]

def fenv : FEnv := { ops := ops, bv := 80, bk := { book with nameObjs := names }, dec := fun _ => .ok [] }

def texts : DEnv := fenv.texts false

theorem sheet2 : TokenSheets texts (le16 0) 1 1 := tokenSheets_new (by decide) (by decide) (by decide)
theorem rate_shown : NameShows texts.bk 0 "rate".toList := ⟨_, rfl, .inl ⟨rfl, rfl⟩⟩
theorem tax_shown : NameShows texts.bk 1 "Data!tax".toList := ⟨_, rfl, .inr ⟨0, _, rfl, rfl, rfl⟩⟩

theorem cell_leaf : LeafOk texts sztab4 (0x5A :: (le16 0 ++ encAddrRaw 80 1 1 false false)) "'it''s'!$B$2".toList := by
  obtain ⟨w, hl, _⟩ := C50_leaf_sheet_cell texts sztab4 rfl (by decide) .val (le16 0) 1 sheet2 _ rfl (by decide) 1 1 (by decide) (by decide)
  have hl' : LeafRef texts sztab4 (0x5A :: (le16 0 ++ encAddrRaw 80 1 1 false false)) w := hl
  obtain ⟨k, hrun⟩ := hl'.1.2.2 (0x5A :: (le16 0 ++ encAddrRaw 80 1 1 false false)) [] 0 7 [] (by simp)
  have hdec : decompile texts (0x5A :: (le16 0 ++ encAddrRaw 80 1 1 false false)) 7 = .ok (some w) := by
    unfold decompile
    rw [show szdict texts.bv = .ok sztab4 from rfl]
    simp only [bind, Except.bind]
    rw [if_neg (by decide), dLoop, if_pos (by decide)]
    simp only [Nat.cast_zero] at hrun
    rw [hrun]
    simp only [bind, Except.bind]
    rw [show (0 : Int) + ((0x5A :: (le16 0 ++ encAddrRaw 80 1 1 false false) : Bytes).length : Int) = 7 from rfl, dLoop, if_neg (by decide)]
    rfl
  have hd2 : decompile texts (0x5A :: (le16 0 ++ encAddrRaw 80 1 1 false false)) 7 = .ok (some "'it''s'!$B$2".toList) := by decide +kernel
  rw [hd2] at hdec
  cases hdec
  exact hl'.1

theorem formula_ok : Stored.Ok texts sztab4 formula := by
  simp only [formula, Stored.Ok, Stored.tree]
  exact ⟨⟨cell_leaf, (C50_leaf_name texts sztab4 rfl .val 0 (by decide) [0, 0] rfl _ rate_shown ⟨by decide, by decide, by decide⟩).1, by simp, by simp⟩,
    (C50_leaf_name texts sztab4 rfl .val 1 (by decide) [0, 0] rfl _ tax_shown ⟨by decide, by decide, by decide⟩).1, by simp, by simp⟩

/-- The names can be evaluated; `total` has no relative references and no errors. -/
theorem evaluated : ∃ tbl e x, bookNames fenv = .ok tbl ∧ tbl[2]? = some (some e) ∧ e.anyRel = false ∧ e.anyErr = false ∧ e.result = some x ∧
    x.text = "'it''s'!$B$2*rate+Data!tax".toList := by
  have h : (match bookNames fenv with
      | .ok tbl => (match tbl[2]? with
        | some (some e) => (match e.result with
          | some x => !e.anyRel && !e.anyErr && x.text == "'it''s'!$B$2*rate+Data!tax".toList
          | none => false)
        | _ => false)
      | .error _ => false) = true := by decide +kernel
  split at h
  · rename_i tbl htbl
    split at h
    · rename_i e he
      split at h
      · rename_i x hx
        simp only [Bool.and_eq_true, Bool.not_eq_true', beq_iff_eq] at h
        exact ⟨tbl, e, x, htbl, he, h.1.1, h.1.2, hx, h.2⟩
      · cases h
    · cases h
  · cases h

/-- The tokens are at the positions 0, 7, 12, 13 and 18. -/
theorem tokens_at : formulaTokens texts bytes bytes.length = [0, 7, 12, 13, 18] := by decide +kernel

theorem no_calls : OwnFunctions fenv false bytes bytes.length := by
  intro pos hp
  rw [show fenv.texts false = texts from rfl, tokens_at] at hp
  refine ownFunction_of fenv _ _ rfl ?_
  have h : ∀ k ∈ ([0, 7, 12, 13, 18] : List Int), (match byteAt bytes k, funcVarFields 80 bytes k with
      | .ok op, .ok f => decide (op % 32 = 2) && decide (op / 32 % 4 ≠ 0) && decide (f.2 = 255)
      | _, _ => false) = false := by decide +kernel
  exact h pos hp

/-- The hypotheses of the theorems are met: the text of `total` denotes the stored expression. -/
example : ∃ tbl e x, bookNames fenv = .ok tbl ∧ tbl[2]? = some (some e) ∧ e.result = some x ∧ ∀ t, FormulaDenotes x.text t ↔ t = formula.tree := by
  obtain ⟨tbl, e, _, h1, h2, h3, h4, _⟩ := evaluated
  obtain ⟨e', he, hx⟩ := C89_result_text_partial fenv sztab4 rfl tbl h1 2 _ rfl rfl rfl false formula formula_ok (by simp [formula, Stored.tree])
    (by simp [formula, Stored.tree, Tree.LeftGrouped, Op2.prec]) [] (by rw [List.append_nil]; exact bytes_eq) (by rw [show fenv.bv = 80 from rfl, ← bytes_eq]; rfl) no_calls
  rw [h2] at he
  cases he
  obtain ⟨x, hx1, hx2⟩ := hx (.inr h3) h4
  exact ⟨tbl, e, x, h1, h2, hx1, hx2⟩

end NameTextSample

open ExprSample

/-- **C89** (references without a sheet).  The name that is the cell at which it is used, `=RC` or `=A1` in A1, has the text `?`, whatever Python's arithmetic is. -/
theorem C89_relative_lost (o : PyOps) : ∃ e x, bookNames (oneName o [0x44, 0, 0, 0, 0xC0]) = .ok [some e] ∧ e.result = some x ∧ x.text = "?".toList ∧
    decompile ((oneName o []).texts true) [0x44, 0, 0, 0, 0xC0] 5 = .ok (some "RC".toList) := ⟨_, _, rfl, rfl, rfl, rfl⟩

/-- **C89** (functions of add-ins and macros).  The name `=f(7)`, where `f` is a name of a function: the operands stay on the stack, and the name has no result. -/
theorem C89_macro_lost (o : PyOps) : ∃ e0 e,
    bookNames (FEnv.mk o 80 { newBook with nameObjs := [{ named "f" [0x1E, 1, 0] with scope := some (-1) }, named "n" [0x23, 1, 0, 0, 0, 0x1E, 7, 0, 0x42, 2, 255, 0]] } (fun _ => .ok [])) = .ok [some e0, some e] ∧
    e.result = none ∧ e.anyErr = false ∧ e.anyRel = false := ⟨_, _, rfl, rfl, rfl, rfl⟩

end Xlrd
