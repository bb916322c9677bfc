import Verif.Props.OpensOld
import Verif.Props.OldFileExamples

/-!
# A BIFF4 file that opens, and one that does not
-/
set_option linter.unusedSimpArgs false
namespace Xlrd
open Spec
namespace SampleOld

theorem openable : OldOpenable 40 env.override env.codec file.book where
  usable := fun q _ => Or.inl ⟨_, rfl⟩
  readable := by
    rw [items]
    have key : ∀ (i : Nat) it, file.book[i]? = some it →
        OldReadable 40 (fun q => env.codec (textEncoding 40 env.override (lastCodepage q))) file.book (file.book.take i) it := by
      intro i it h
      rw [items] at h
      match i, h with
      | 0, h => cases h; exact .format _ _ (fmtRecord _ "0" rfl (by decide))
      | 1, h => cases h; exact .format _ _ (fmtRecord _ "d/m/y" rfl (by decide))
      | 2, h =>
        cases h
        exact .xf _ xf0 (.biff4 40 (.inl rfl) 0 [] (by unfold FieldsFit; decide) (by unfold IsOrientation; decide) (by unfold NoBiff8Attributes; decide))
      | 3, h =>
        cases h
        exact .xf _ xf1 (.biff4 40 (.inl rfl) 0 [] (by unfold FieldsFit; decide) (by unfold IsOrientation; decide) (by unfold NoBiff8Attributes; decide))
      | 4, h => cases h; exact .other _ _ (by decide) (.datemode 1 [] (.inr rfl))
    rintro pre it post e
    rw [← items] at e ⊢
    have h1 := key pre.length it (by rw [e]; simp)
    rw [show file.book.take pre.length = pre by rw [e]; simp] at h1
    exact h1

theorem fits : CellsFit 16384 env.fi (xfRecords 40 file.book) (cellsOf fl env.fi [] file.layout.items) (mergedRanges env.fi file.layout.items) :=
  ⟨by decide +kernel, by decide +kernel, by decide +kernel, by decide +kernel⟩

/-- The file opens. -/
example : ∃ l, openXls env mem = some (.ok l) := (C81_opens_iff env 40 mem file (workbook _) openable).mpr fits

/-- The same file with a cell in row 16384 (counted from 0). -/
def low : OldFile := { file with body := [.cell (.number 16384 1 1 ⟨false, 1023, 0⟩ [])] }
def lowMem : Bytes := encRec 0x0409 bof ++ encRecs (low.records 40) ++ [3]

theorem low_workbook (dec : List GItem → Bytes → R PyStr) : OldWorkbook 40 dec lowMem low where
  version := .inr rfl
  bytes := ⟨0x0409, bof, [3], .biff4 0x10 0 [7, 7] (by decide) (by decide) (by decide), rfl⟩
  ok := {
    codes := (workbook dec).ok.codes
    settings := (workbook dec).ok.settings
    items := by
      intro y h
      have : y = .zoom 1 2 ∨ y = .cell (.number 16384 1 1 ⟨false, 1023, 0⟩ []) := by simpa [OldFile.settings, file, low] using h
      rcases this with rfl | rfl
      · exact ⟨by simp [SheetItem.Ok], by rintro c d h; cases h⟩
      · exact ⟨by simp [SheetItem.Ok, CellRec.Ok, B64.Ok], by rintro c d h; cases h⟩
    styles := (workbook dec).ok.styles
    short := by decide +kernel }

/-- It does not open. -/
example : ¬ ∃ l, openXls env lowMem = some (.ok l) := by
  rw [C81_opens_iff env 40 lowMem low (low_workbook _) openable]
  intro h
  have := h.place ⟨16384, 1, _, _, _⟩ (List.mem_singleton.mpr rfl)
  exact absurd this.1 (by decide)

end SampleOld
end Xlrd
