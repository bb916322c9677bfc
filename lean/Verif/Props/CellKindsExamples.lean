import Verif.Props.CellKinds
import Verif.Props.OldCellKinds
import Verif.Props.DateCellsExamples
import Verif.Props.Repr

/-!
# Types and values of cells: files (C92)
-/
set_option linter.unusedSimpArgs false
namespace Xlrd
open Spec

namespace SampleKinds

/-- A file of BIFF4 with one number in a cell whose XF refers to a format that is not there. -/
def file : OldFile := { SampleColours.file with head := [.book 0x443 (SampleOld.xfData { patternColourIndex := 12, cellLocked := 1 })] }
def mem : Bytes := encRec 0x0409 SampleOld.bof ++ encRecs (file.records 40)

/-- The value is a float. -/
def isNum : R Val → Bool
  | .ok (.num _) => true
  | _ => false

/-- The type of the first cell, and whether its value is a float. -/
def shown (l : Lib) : Nat × List (Option (Option Nat × Bool)) :=
  (l.bv, l.sheetList.map fun x => x.map fun sh => ((sh.st.store.cellType 0 0).toOption, isNum (sh.st.store.cellValue 0 0)))

end SampleKinds

open SampleKinds in
/-- **C92** does not hold for files before BIFF5.  If an XF refers to a format that the file does not describe, and there is no format number 0 either, then the
DIMENSION record makes the type of its numbers that of text: the value of a text cell is a float. -/
theorem C92_number_as_text : ∃ env file l sh x, openStream env file 0 = .ok l ∧ l.bv = 40 ∧ l.sheetList = [some sh] ∧
    sh.st.store.cellType 0 0 = .ok XL_CELL_TEXT ∧ sh.st.store.cellValue 0 0 = .ok (.num x) ∧ ¬ CellsOk sh.st.store := by
  have h : (openStream SampleColours.env mem 0).toOption.map shown = some (40, [some (some XL_CELL_TEXT, true)]) := by decide +kernel
  cases ho : openStream SampleColours.env mem 0 with
  | error e => rw [ho] at h; cases h
  | ok l =>
    rw [ho] at h
    obtain ⟨h1, h2⟩ := Prod.mk.inj (Option.some.inj h)
    rcases hl : l.sheetList with _ | ⟨x, xs⟩
    · rw [hl] at h2; cases h2
    · rw [hl] at h2
      simp only [List.map_cons, List.cons.injEq, List.map_eq_nil_iff] at h2
      obtain ⟨hx, rfl⟩ := h2
      cases x with
      | none => cases hx
      | some sh =>
        obtain ⟨ht, hv⟩ := Prod.mk.inj (Option.some.inj hx)
        have e1 : sh.st.store.cellType 0 0 = .ok XL_CELL_TEXT := by
          cases hc : sh.st.store.cellType 0 0 with
          | error e => rw [hc] at ht; cases ht
          | ok t => rw [hc] at ht; rw [Option.some.inj ht]
        obtain ⟨y, e2⟩ : ∃ y, sh.st.store.cellValue 0 0 = .ok (.num y) := by
          rcases hc : sh.st.store.cellValue 0 0 with e | v
          · rw [hc] at hv; cases hv
          · rw [hc] at hv
            cases v with
            | num y => exact ⟨y, rfl⟩
            | _ => cases hv
        refine ⟨SampleColours.env, mem, l, sh, y, ho, h1, hl, e1, e2, fun hc => ?_⟩
        obtain ⟨v, e3, s, rfl⟩ := hc.type 0 0 _ e1
        rw [e2] at e3
        cases e3

/-- **C92** with C91: every cell of a sheet whose types and values go together has a `repr`. -/
theorem C92_cells_have_repr (rv : Val → PyStr) {s : Store} (h : CellsOk s) {r c : Int} {v : Val} (hv : s.cellValue r c = .ok v) (xf : Option Nat) :
    ∃ t, s.cellType r c = .ok t ∧ ∃ x, cellRepr rv ⟨t, v, xf⟩ = .ok x := by
  obtain ⟨t, ht, hk⟩ := h.value r c v hv
  refine ⟨t, ht, C91_cell_repr_exists rv _ ?_⟩
  show t < 7
  by_contra hn
  obtain ⟨k, rfl⟩ : ∃ k, t = k + 7 := ⟨t - 7, by omega⟩
  exact hk

open DateSample in
/-- The sheet with two dates. -/
example : ∃ l sh, openStream (SampleFile.env false) mem (0 : Nat) = .ok l ∧ (sheetByIndex (SampleFile.env false) l (0 : Nat)).1 = .ok sh ∧ CellsOk sh.st.store := by
  obtain ⟨l, sh, h1, h2⟩ := opens
  exact ⟨l, sh, h1, h2, C92_cells_partial _ mem _ 80 12 l (by decide +kernel) (by decide) h1 [] _ sh h2⟩

/-- The sheet of BIFF4 with a number of the type of text. -/
example : ∃ l sh, openStream SampleColours.env SampleKinds.mem 0 = .ok l ∧ (sheetByIndex SampleColours.env l 0).1 = .ok sh ∧ CellsAre OldCellOk sh.st.store := by
  have h : (openStream SampleColours.env SampleKinds.mem 0).toOption.any (fun l => (sheetByIndex SampleColours.env l 0).1.isOk) = true := by decide +kernel
  cases ho : openStream SampleColours.env SampleKinds.mem 0 with
  | error e => rw [ho] at h; cases h
  | ok l =>
    rw [ho] at h
    have h : (sheetByIndex SampleColours.env l 0).1.isOk = true := h
    cases hs : (sheetByIndex SampleColours.env l 0).1 with
    | error e => rw [hs] at h; cases h
    | ok sh =>
      obtain ⟨p, hp⟩ : ∃ p, firstBof SampleKinds.mem 0 = .ok (40, p) := ⟨10, by decide +kernel⟩
      exact ⟨l, sh, rfl, hs, C92_old_cells_partial _ _ _ 40 p l hp (by decide) ho [] _ sh hs⟩

end Xlrd
