import Verif.Props.Whole
import Verif.Props.OpensAllExamples

/-!
# A whole file (C67, C55)

The workbook of `Props/OpensAllExamples.lean` as a file, with a blank cell in the third row.
-/
set_option linter.unusedSimpArgs false
namespace Xlrd
open Spec

namespace WholeSample
open OpenAllSample (items openable strings)

def env : OpenEnv := OpenAllSample.env
def layout : Layout :=
  ⟨[], none, [.cell (.number 0 0 0 ⟨false, 1023, 0⟩ []), .cell (.labelsst 1 0 0 0), .cell (.blank 2 3 0 [])], []⟩
def file : Bytes :=
  let g := encRec 0x0809 SampleFile.bof ++ encGlobals items []
  g ++ List.replicate (100 - g.length) 0 ++ encRec 0x0809 SampleFile.sheetBof ++ encRecs (layout.records 80)

theorem stream (dec : List GItem → Bytes → R PyStr) : WorkbookStream 80 dec file 0 items [SampleFile.sheetZ, SampleFile.sheetY] where
  bytes := ⟨[], 0x0809, SampleFile.bof, [], file.drop (encRec 0x0809 SampleFile.bof ++ encGlobals items []).length, rfl, .biff8 5 [1, 2, 3, 4] (by decide) (by decide), by decide,
    by decide +kernel⟩
  ok := (OpenAllSample.stream dec (xf := 0) (by decide +kernel)).ok
  sheets := (OpenAllSample.stream dec (xf := 0) (by decide +kernel)).sheets

theorem layoutOk (dec : Bytes → R PyStr) : layout.Ok 80 dec (Sample.sharedStrings.map SStr.text) := by
  refine ⟨?_, ?_, ?_⟩
  · intro i hi
    simp only [layout, Layout.items, List.nil_append, List.mem_cons, List.not_mem_nil, or_false] at hi
    rcases hi with rfl | rfl | rfl <;> simp [SheetItem.Ok, CellRec.Ok, B64.Ok, Sample.sharedStrings]
  · intro i hi; simp [layout] at hi
  · exact (by decide +kernel : ∀ q ∈ layout.records 80, q.2.length < 65536)

theorem layouts (dec : Bytes → R PyStr) :
    SheetLayouts 80 dec file 0 [SampleFile.sheetZ, SampleFile.sheetY] (Sample.sharedStrings.map SStr.text) fun _ => layout := by
  intro k s hk
  match k, hk with
  | 0, hk =>
    cases hk
    exact ⟨⟨80, 0x0809, SampleFile.sheetBof, [], .biff8 0x10 [] (by decide) (by decide), by decide +kernel⟩, layoutOk _⟩
  | k + 1, hk => simp [worksheet, SampleFile.sheetZ, SampleFile.sheetY, SheetRec.isWorksheet] at hk

theorem isFile : WorkbookFile env.lower env.depth file file := .plain _ (by decide +kernel) (by decide +kernel)

theorem noRecords {α : Type} {p : Nat → Prop} {q : List GItem → Bytes → α → Prop} (h1 : ¬ p 0x42) (h2 : ¬ p 0x85) : Collected p q items [] := by
  refine Collected.skip (pre := [_, _, _]) (Collected.skip (pre := [_, _]) (Collected.skip (pre := [_]) (Collected.skip (pre := []) .nil ?_) ?_) ?_) ?_
  · rintro c d h; cases h; exact h1
  · rintro c d h; cases h; exact h2
  · rintro c d h; cases h; exact h2
  · rintro c d h; cases h

/-- It opens, with one sheet, which shows its cells. -/
example : ∃ l, openXls { env with fi := true } file = some (.ok l) ∧ l.book.sheetNames = ["Z".toList] ∧
    ∃ sh, (sheetByIndex { env with fi := true } l 0).1 = .ok sh ∧ sh.st.store.nrows = 3 ∧ sh.st.store.ncols = 4 ∧
      sh.st.store.cellValue 1 0 = .ok (.text "ab€".toList) ∧ sh.st.store.cellType 2 3 = .ok XL_CELL_BLANK := by
  obtain ⟨l, h1, h2, h3⟩ := C67_file_partial NameSample.ops { env with fi := true } rfl 80 (by decide) file file isFile (by decide +kernel) (fun _ _ => rfl) items _ (stream _) []
    openable (.inl (Or.inl (by simp))) [] (noRecords (by decide) (by decide)) [] (noRecords (by decide) (by decide)) _ strings _ (layouts _) rfl
    (fun _ _ _ => ⟨by decide +kernel, by decide +kernel, by decide +kernel, by decide +kernel⟩)
  refine ⟨l, h1, h2, ?_⟩
  obtain ⟨sh, r, _, _, s⟩ := h3 0 _ rfl
  refine ⟨sh, r, s.nrows.trans (by decide +kernel), s.ncols.trans (by decide +kernel), (s.inside 1 0 (by decide +kernel) (by decide +kernel)).2.1.trans ?_,
    (s.inside 2 3 (by decide +kernel) (by decide +kernel)).1.trans ?_⟩
  · rfl
  · rfl

/-- Opened on demand, too, it has its sheet. -/
example : ∃ l, openXls { env with onDemand := true } file = some (.ok l) ∧ ∃ sh, (sheetByIndex { env with onDemand := true } l 0).1 = .ok sh := by
  obtain ⟨l, h1, _, h3⟩ := C67_file_on_demand_partial NameSample.ops { env with onDemand := true } rfl 80 (by decide) file file isFile (by decide +kernel) (fun _ _ => rfl) items _
    (stream _) [] openable (.inl (Or.inl (by simp))) [] (noRecords (by decide) (by decide)) [] (noRecords (by decide) (by decide)) _ strings _ (layouts _) rfl
  exact ⟨l, h1, (h3 0 _ rfl).1.mpr ⟨by decide +kernel, by decide +kernel, by decide +kernel, by decide +kernel⟩⟩

theorem blanksAlone : BlanksAlone (Sample.sharedStrings.map SStr.text) layout.items := by
  have : ∀ w ∈ (cellsOf fl true (Sample.sharedStrings.map SStr.text) layout.items).map (fun w => (w.row, w.col, w.ctype)),
      ∀ w' ∈ (cellsOf fl true (Sample.sharedStrings.map SStr.text) layout.items).map (fun w => (w.row, w.col, w.ctype)),
      w.1 = w'.1 → w.2.1 = w'.2.1 → w.2.2 = some XL_CELL_BLANK → w'.2.2 = some XL_CELL_BLANK := by decide +kernel
  intro w hw w' hw'
  exact this _ (List.mem_map_of_mem hw) _ (List.mem_map_of_mem hw')

/-- Without formatting information, it opens and shows the same but for the blank cell. -/
example (l1 : Lib) (h1 : openXls { env with fi := true } file = some (.ok l1)) : ∃ l0, openXls { env with fi := false } file = some (.ok l0) ∧
    ∃ sh0 sh1, (sheetByIndex { env with fi := false } l0 0).1 = .ok sh0 ∧ (sheetByIndex { env with fi := true } l1 0).1 = .ok sh1 ∧ SameSheet sh0 sh1 := by
  obtain ⟨l0, h2, _, h3⟩ := C55_file_partial NameSample.ops env rfl 80 (by decide) file file isFile (by decide +kernel) (fun _ _ => rfl) items _ (stream _) []
    openable (.inl (Or.inl (by simp))) [] (noRecords (by decide) (by decide)) [] (noRecords (by decide) (by decide)) _ strings _ (layouts _) rfl
    (fun _ _ _ => blanksAlone) l1 h1
  exact ⟨l0, h2, h3 0 _ rfl⟩

end WholeSample
end Xlrd
