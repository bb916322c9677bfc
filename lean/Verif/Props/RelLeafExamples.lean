import Verif.Props.RelLeaf
import Verif.Props.RelNameTextExamples

/-!
# C50 and C89: an expression with a relative reference as the formula of a name
-/
set_option linter.unusedSimpArgs false

namespace Xlrd
open Spec

namespace RelLeafSample
open SheetFormulas ExprSample NameTextSample

/-- The cell above and to the right on the second sheet, times `rate`. -/
def raised : Stored :=
  .bin .mul (.area (0x5A :: (le16 0 ++ encAddr 80 (.rel (-1)) (.rel 1))) "'it''s'!R[-1]C[1]".toList "R[-1]C[1]".toList) (.leaf (0x43 :: (le16 1 ++ [0, 0])) "rate".toList)

def rbytes : Bytes := [0x5A, 0, 0, 0xFF, 0xFF, 1, 0xC0, 0x43, 1, 0, 0, 0, 0x05]

theorem rbytes_eq : rbytes = raised.enc 80 := by simp only [raised, Stored.enc]; decide +kernel

def genv : FEnv :=
  { ops := ops, bv := 80, dec := fun _ => .ok [], bk := { book with nameObjs := [nameWith 0 (-1) "rate" [0x1E, 5, 0], nameWith 1 (-1) "raised" rbytes] } }

def gtexts : DEnv := genv.texts true

theorem gsheet : TokenSheets gtexts (le16 0) 1 1 := tokenSheets_new (by decide) (by decide) (by decide)
theorem grate : NameShows gtexts.bk 0 "rate".toList := ⟨_, rfl, .inl ⟨rfl, rfl⟩⟩

/-- The hypotheses of the theorem about leaves are met. -/
theorem up_right : ∃ w w', AreaOk gtexts sztab4 (0x5A :: (le16 0 ++ encAddr 80 (.rel (-1)) (.rel 1))) w w' ∧
    readSheetRC w = some ("it's".toList, .rel (-1), .rel 1) ∧ readRC w' = some (.rel (-1), .rel 1) :=
  C50_leaf_offset_cell gtexts sztab4 rfl (by decide) .val (le16 0) 1 gsheet _ rfl (by decide) (.rel (-1)) (.rel 1) ⟨⟨by decide, by decide⟩, ⟨by decide, by decide⟩⟩
    (.inl rfl) rfl rfl rfl rfl

example : ∃ w w', AreaOk gtexts sztab4 (0x3B :: (le16 0 ++ encArea 80 (.rel (-1)) (.abs 9) (.rel 1) (.abs 3))) w w' ∧
    readSheetRC w = some ("it's".toList, .rel (-1), .rel 1) ∧ readRC w' = some (.abs 9, .abs 3) :=
  C50_leaf_offset_area gtexts sztab4 rfl (by decide) .ref (le16 0) 1 gsheet _ rfl (by decide) (.rel (-1)) (.abs 9) (.rel 1) (.abs 3)
    ⟨⟨by decide, by decide⟩, ⟨by decide, by decide⟩⟩ ⟨(by decide : 9 < 65536), (by decide : 3 < 256)⟩ (.inl rfl) rfl rfl rfl rfl


/-- The words of the token are those of the text. -/
theorem up_right_words : AreaOk gtexts sztab4 (0x5A :: (le16 0 ++ encAddr 80 (.rel (-1)) (.rel 1))) "'it''s'!R[-1]C[1]".toList "R[-1]C[1]".toList := by
  have h : AreaOk gtexts sztab4 (0x5A :: (le16 0 ++ encAddr 80 (.rel (-1)) (.rel 1))) (quoteName "it's".toList ++ '!' :: rcText (.rel (-1)) (.rel 1))
      (rcText (.rel (-1)) (.rel 1)) :=
    (leaf_offset_cell gtexts sztab4 rfl (by decide) .val (le16 0) 1 gsheet _ rfl (by decide) (.rel (-1)) (.rel 1) ⟨⟨by decide, by decide⟩, ⟨by decide, by decide⟩⟩
      (.inl rfl) rfl rfl rfl rfl)
  have e1 : quoteName "it's".toList ++ '!' :: rcText (.rel (-1)) (.rel 1) = "'it''s'!R[-1]C[1]".toList := by decide +kernel
  have e2 : rcText (.rel (-1)) (.rel 1) = "R[-1]C[1]".toList := by decide +kernel
  rw [e1, e2] at h
  exact h

theorem raised_ok : Stored.Ok gtexts sztab4 raised := by
  simp only [raised, Stored.Ok, Stored.tree]
  exact ⟨up_right_words, (C50_leaf_name gtexts sztab4 rfl .val 0 (by decide) [0, 0] rfl _ grate ⟨by decide, by decide, by decide⟩).1, by simp, by simp⟩

theorem raised_tokens : formulaTokens gtexts rbytes rbytes.length = [0, 7, 12] := by decide +kernel

theorem raised_calls : OwnFunctions genv true rbytes rbytes.length := by
  intro pos hp
  rw [show genv.texts true = gtexts from rfl, raised_tokens] at hp
  refine ownFunction_of genv _ _ rfl ?_
  have h : ∀ k ∈ ([0, 7, 12] : List Int), (match byteAt rbytes k, funcVarFields 80 rbytes k with
      | .ok op, .ok f => decide (op % 32 = 2) && decide (op / 32 % 4 ≠ 0) && decide (f.2 = 255)
      | _, _ => false) = false := by decide +kernel
  exact h pos hp

theorem raised_sheets : WithSheets genv true rbytes rbytes.length := by
  intro pos hp op hop _
  rw [show genv.texts true = gtexts from rfl, raised_tokens] at hp
  have h : ∀ k ∈ ([0, 7, 12] : List Int), (match byteAt rbytes k with
      | .ok op => decide (op % 32 ≠ 0x04 ∧ op % 32 ≠ 0x05 ∨ op / 32 % 4 = 0)
      | _ => true) = true := by decide +kernel
  have := h pos hp
  rw [hop] at this
  simp only [decide_eq_true_eq] at this
  tauto

theorem raised_evaluated : ∃ tbl e x, bookNames genv = .ok tbl ∧ tbl[1]? = some (some e) ∧ e.anyRel = true ∧ e.anyErr = false ∧ e.result = some x ∧
    x.text = "'it''s'!R[-1]C[1]:R[-1]C[1]*rate".toList := by
  have h : (match bookNames genv with
      | .ok tbl => (match tbl[1]? with
        | some (some e) => (match e.result with
          | some x => e.anyRel && !e.anyErr && x.text == "'it''s'!R[-1]C[1]:R[-1]C[1]*rate".toList
          | none => false)
        | _ => false)
      | .error _ => false) = true := by decide +kernel
  split at h
  · rename_i tbl htbl
    split at h
    · rename_i e he
      split at h
      · rename_i x hx
        simp only [Bool.and_eq_true, Bool.not_eq_true', beq_iff_eq] at h
        exact ⟨tbl, e, x, htbl, he, h.1.1, h.1.2, hx, h.2⟩
      · cases h
    · cases h
  · cases h

/-- The hypotheses of `C89_result_text_partial` are met by a name with a relative reference: its text denotes the stored expression. -/
example : ∃ tbl e x, bookNames genv = .ok tbl ∧ tbl[1]? = some (some e) ∧ e.anyRel = true ∧ e.result = some x ∧ ∀ t, FormulaDenotes x.text t ↔ t = raised.tree := by
  obtain ⟨tbl, e, _, h1, h2, h3, h4, _⟩ := raised_evaluated
  obtain ⟨e', he, hx⟩ := C89_result_text_partial genv sztab4 rfl tbl h1 1 _ rfl rfl rfl true raised raised_ok (by simp [raised, Stored.tree])
    (by simp [raised, Stored.tree, Tree.LeftGrouped, Op2.prec]) [] (by rw [List.append_nil]; exact rbytes_eq) (by rw [show genv.bv = 80 from rfl, ← rbytes_eq]; rfl)
    raised_calls
  rw [h2] at he
  cases he
  obtain ⟨x, hx1, hx2⟩ := hx (.inl ⟨rfl, raised_sheets⟩) h4
  exact ⟨tbl, e, x, h1, h2, h3, hx1, hx2⟩

end RelLeafSample

end Xlrd
