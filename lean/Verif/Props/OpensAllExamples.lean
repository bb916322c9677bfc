import Verif.Props.OpensAll
import Verif.Props.OpensExamples

/-!
# Workbooks that open, or do not, with all their sheets (C80)

A workbook with a worksheet, a chart sheet and shared strings; the worksheet has a number, a shared string and a truth value.  It opens.  If
the number has XF 5, which is not in the file, it does not.
-/
set_option linter.unusedSimpArgs false
namespace Xlrd
open Spec

namespace OpenAllSample
open OpenSample hiding env mem

def items : List GItem := wholeItems ++ [.sst Sample.sstData [Sample.sstMore]] ++ []
def layout (xf : Nat) : Layout :=
  ⟨[], none, [.cell (.number 0 0 xf ⟨false, 1023, 0⟩ []), .cell (.labelsst 1 0 0 0), .cell (.boolerr 1 2 0 false 1 [])], []⟩
def env : OpenEnv := { fileEnv with onDemand := false }

def mem (xf : Nat) : Bytes :=
  let g := [9, 9] ++ encRec 0x0809 SampleFile.bof ++ encGlobals items []
  g ++ List.replicate (102 - g.length) 0 ++ encRec 0x0809 SampleFile.sheetBof ++ encRecs ((layout xf).records 80)

theorem legal : ∀ s ∈ Sample.sharedStrings, s.Legal ∧ s.Handled := by
  intro s hs
  simp only [Sample.sharedStrings, List.mem_singleton] at hs
  subst hs
  exact ⟨⟨by decide +kernel, by decide +kernel, by unfold Flags; decide +kernel, by unfold Fits; decide +kernel, by unfold Fits; decide +kernel,
    by decide +kernel, by decide +kernel, by decide +kernel, by decide +kernel, by decide +kernel, by decide +kernel, by decide +kernel⟩,
    ⟨[['a'], ['b', '€']], by decide +kernel⟩, Or.inl rfl⟩

theorem strings : SharedStrings items Sample.sharedStrings :=
  .table wholeItems [] _ _ 1 _ (by simp) legal (by decide) (by decide +kernel)

theorem stream (dec : List GItem → Bytes → R PyStr) {xf : Nat} (hx : mem xf = [9, 9] ++ encRec 0x0809 SampleFile.bof ++ encGlobals items [] ++
    (mem xf).drop ([9, 9] ++ encRec 0x0809 SampleFile.bof ++ encGlobals items []).length) :
    WorkbookStream 80 dec (mem xf) 2 items [SampleFile.sheetZ, SampleFile.sheetY] where
  bytes := ⟨[9, 9], 0x0809, SampleFile.bof, [], _, rfl, .biff8 5 [1, 2, 3, 4] (by decide) (by decide), by decide, hx⟩
  ok := {
    sized := by unfold GItem.Sized; decide +kernel
    plain := by
      intro it h
      rw [items, List.append_nil] at h
      rcases List.mem_append.mp h with h | h
      · exact (wholeStream dec).ok.plain it h
      · simp only [List.mem_singleton] at h; subst h; simp [GItem.Plain]
    stray := by simp [items, wholeItems, SampleFile.items, NoStrayContinue] }
  sheets := by
    rw [items, List.append_nil]
    exact Collected.skip (wholeStream dec).sheets (by rintro c d h; cases h)

theorem openable : Openable 80 env.override env.codec items [] where
  usable := fun q _ => Or.inl ⟨_, rfl⟩
  collected := by
    rw [items, List.append_nil]
    exact Collected.skip wholeOpenable.collected (by rintro c d h; cases h)
  scopes := fun h => absurd h (by decide)
  readable := readable_of fun i it h => by
    by_cases hi : i < 3
    · have h' : SampleFile.items[i]? = some it := by
        unfold items wholeItems at h
        rw [List.append_nil, List.getElem?_append_left (by simp [SampleFile.items]; omega), List.getElem?_take, if_pos hi] at h
        exact h
      exact plainItem _ i it h' _ _
    · have h3 : i = 3 := by
        have := (List.getElem?_eq_some_iff.mp h).1
        have e : items.length = 4 := by decide +kernel
        omega
      subst h3
      cases h
      exact .sst 1 Sample.sharedStrings _ _ legal (by decide) (by decide +kernel)

theorem layoutOk (dec : Bytes → R PyStr) {xf : Nat} (hx : xf < 6) : (layout xf).Ok 80 dec (Sample.sharedStrings.map SStr.text) := by
  refine ⟨?_, ?_, ?_⟩
  · intro i hi
    simp only [layout, Layout.items, List.nil_append, List.mem_cons, List.not_mem_nil, or_false] at hi
    rcases hi with rfl | rfl | rfl <;> simp [SheetItem.Ok, CellRec.Ok, B64.Ok, Sample.sharedStrings]
    omega
  · intro i hi; simp [layout] at hi
  · exact (by decide +kernel : ∀ xf < 6, ∀ q ∈ (layout xf).records 80, q.2.length < 65536) xf hx

theorem layouts {xf : Nat} (hx : xf < 6) :
    SheetLayouts 80 (env.codec (textEncoding 80 env.override (lastCodepage items))) (mem xf) 2 [SampleFile.sheetZ, SampleFile.sheetY]
      (Sample.sharedStrings.map SStr.text) fun _ => layout xf := by
  intro k s hk
  match k, hk with
  | 0, hk =>
    cases hk
    exact ⟨⟨80, 0x0809, SampleFile.sheetBof, [], .biff8 0x10 [] (by decide) (by decide),
      (by decide +kernel : ∀ xf < 6, (mem xf).drop (2 + SampleFile.sheetZ.offset) = encRec 0x0809 SampleFile.sheetBof ++ (encRecs ((layout xf).records 80) ++ [])) xf hx⟩,
      layoutOk _ hx⟩
  | k + 1, hk => simp [worksheet, SampleFile.sheetZ, SampleFile.sheetY, SheetRec.isWorksheet] at hk

theorem opens_iff {xf : Nat} (hx : xf < 6) : (∃ l, openStream env (mem xf) 2 = .ok l) ↔
    ∀ k s, worksheet [SampleFile.sheetZ, SampleFile.sheetY] k = some s → SheetFits 80 env.fi items (Sample.sharedStrings.map SStr.text) (layout xf) :=
  C80_opens_iff_partial NameSample.ops env 80 (by decide) (mem xf) 2 (fun _ => rfl) items _
    (stream _ ((by decide +kernel : ∀ xf < 6, mem xf = [9, 9] ++ encRec 0x0809 SampleFile.bof ++ encGlobals items [] ++
      (mem xf).drop ([9, 9] ++ encRec 0x0809 SampleFile.bof ++ encGlobals items []).length) xf hx)) [] openable (.inl (Or.inl (by simp)))
    _ strings _ (layouts hx) rfl

/-- It opens. -/
example : ∃ l, openStream env (mem 0) 2 = .ok l :=
  (opens_iff (by decide)).mpr fun _ _ _ => ⟨by decide +kernel, by decide +kernel, by decide +kernel, by decide +kernel⟩

/-- It does not open: there is no XF 5. -/
example : ¬ ∃ l, openStream env (mem 5) 2 = .ok l := fun h => by
  have := ((opens_iff (by decide)).mp h 0 _ rfl).xf _ (List.mem_cons_self ..) rfl
  exact absurd this (by decide +kernel)

end OpenAllSample

end Xlrd
