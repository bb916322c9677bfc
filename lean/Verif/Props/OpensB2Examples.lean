import Verif.Props.OpensB2
import Verif.Props.Biff2Examples

/-!
# Files of Excel 2 that open, and some that do not
-/
set_option linter.unusedSimpArgs false
namespace Xlrd
open Spec
namespace SampleB2

theorem openable_of {items : List GItem} (key : ∀ (i : Nat) it, items[i]? = some it →
    OldReadable 21 (fun q => env.codec (textEncoding 21 env.override (lastCodepage q))) items (items.take i) it) : OldOpenable 21 env.override env.codec items where
  usable := fun q _ => Or.inl ⟨_, rfl⟩
  readable := by
    rintro pre it post e
    have h1 := key pre.length it (by rw [e]; simp)
    rw [show items.take pre.length = pre by rw [e]; simp] at h1
    exact h1

theorem openable1 : OldOpenable 21 env.override env.codec file1.book := by
  refine openable_of fun i it h => ?_
  rw [items1] at h
  match i, h with
  | 0, h => cases h; exact .format _ _ (fmtRecord _ "0" rfl (by decide))
  | 1, h => cases h; exact .format _ _ (fmtRecord _ "d/m/y" rfl (by decide))
  | 2, h => cases h; exact .xf _ xf0 (.biff2 0 (by unfold FieldsFit; decide) (by unfold Biff2Attributes NoBiff8Attributes; decide))
  | 3, h => cases h; exact .xf _ xf1 (.biff2 0 (by unfold FieldsFit; decide) (by unfold Biff2Attributes NoBiff8Attributes; decide))
  | 4, h => cases h; exact .other _ _ (by decide) (.datemode 1 [] (.inr rfl))

theorem openable2 : OldOpenable 21 env.override env.codec file2.book := by
  refine openable_of fun i it h => ?_
  rw [items2] at h
  match i, h with
  | 0, h => cases h; exact .format _ _ (fmtRecord _ "0" rfl (by decide))
  | 1, h => cases h; exact .format _ _ (fmtRecord _ "d/m/y" rfl (by decide))
  | 2, h => cases h; exact .other _ _ (by decide) (.datemode 1 [] (.inr rfl))

/-- The file of Excel 2.1 opens. -/
example : ∃ l, openXls env mem1 = some (.ok l) :=
  (C83_opens_iff env mem1 file1 (workbook1 _) openable1 (by decide)).mpr
    ⟨by unfold IxfeGiven; decide +kernel, ⟨by decide +kernel, by decide +kernel, by decide +kernel, by decide +kernel⟩⟩

/-- The file of Excel 2.0 opens. -/
example : ∃ l, openXls env mem2 = some (.ok l) :=
  (C83_opens_without_xfs_iff env mem2 file2 (workbook2 _) openable2 (by decide)).mpr
    ⟨by unfold NoXfNumbers; decide +kernel, ⟨by decide +kernel, by decide +kernel, by decide +kernel, by decide +kernel⟩⟩

/-- The number 63 without an IXFE record. -/
def lostFile : B2File := { file1 with body := [.number 1 0 ⟨63, 0, 0⟩ ⟨false, 1023, 0⟩] }
def lostMem : Bytes := encRec 0x0009 bof ++ encRecs lostFile.records ++ [3]

theorem lost_workbook (dec : List GItem → Bytes → R PyStr) : B2Workbook dec lostMem lostFile where
  bytes := ⟨0x0009, bof, [3], .biff2 0x10 0 [7, 7] (by decide) (by decide), rfl⟩
  ok := {
    codes := (workbook1 dec).ok.codes
    efonts := (workbook1 dec).ok.efonts
    free := (workbook1 dec).ok.free
    items := by
      intro y h
      simp only [B2File.items, B2File.headItems, lostFile, file1, List.filterMap_cons, List.filterMap_nil, List.mem_append, List.mem_cons, List.not_mem_nil, or_false] at h
      rcases h with rfl | rfl
      · exact ⟨rfl, by simp [SheetItem.Ok], by rintro c d h; cases h⟩
      all_goals simp [B2Item.Ok, B64.Ok, RowXf.Ok]
    short := by decide +kernel }

/-- It does not open. -/
example : ¬ ∃ l, openXls env lostMem = some (.ok l) := by
  rw [C83_opens_iff env lostMem lostFile (lost_workbook _) openable1 (by decide)]
  rintro ⟨h, _⟩
  revert h
  unfold IxfeGiven
  decide +kernel

/-- A cell that refers to an XF record in a file without any. -/
def dangFile : B2File := { file2 with body := [.integer 0 1 ⟨1, 0, 0⟩ 7] }
def dangMem : Bytes := encRec 0x0009 bof ++ encRecs dangFile.records ++ [3]

theorem dang_workbook (dec : List GItem → Bytes → R PyStr) : B2Workbook dec dangMem dangFile where
  bytes := ⟨0x0009, bof, [3], .biff2 0x10 0 [7, 7] (by decide) (by decide), rfl⟩
  ok := {
    codes := (workbook2 dec).ok.codes
    efonts := (workbook2 dec).ok.efonts
    free := (workbook2 dec).ok.free
    items := by
      intro y h
      have : y = .integer 0 1 ⟨1, 0, 0⟩ 7 := by simpa [B2File.items, B2File.headItems, dangFile, file2] using h
      subst this
      simp [B2Item.Ok, B64.Ok, RowXf.Ok]
    short := by decide +kernel }

/-- It does not open. -/
example : ¬ ∃ l, openXls env dangMem = some (.ok l) := by
  rw [C83_opens_without_xfs_iff env dangMem dangFile (dang_workbook _) openable2 (by decide)]
  rintro ⟨h, _⟩
  revert h
  unfold NoXfNumbers
  decide +kernel

end SampleB2
end Xlrd
