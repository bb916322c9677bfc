import Verif.Props.Countries
import Verif.Props.WorkbookExamples

/-!
# Files with and without COUNTRY records in their sheets (C41)
-/
set_option linter.unusedSimpArgs false
namespace Xlrd
open Spec
namespace SampleCountries
open SampleFile

def sheetA : SheetRec := ⟨100, 0, 0, "A".toList⟩
def sheetB : SheetRec := ⟨150, 0, 0, "B".toList⟩

/-- The bytes of a file with two sheets, each with one COUNTRY record. -/
def memOf (globals : List GItem) (a b : Bytes) : Bytes :=
  let g := encRec 0x0809 bof ++ encGlobals (globals ++ [.one 0x85 (data sheetA "A"), .one 0x85 (data sheetB "B")]) []
  let z := g ++ List.replicate (100 - g.length) 0 ++ encRec 0x0809 sheetBof ++ encRec 0x8c a ++ encRec 0xa []
  z ++ List.replicate (150 - z.length) 0 ++ encRec 0x0809 sheetBof ++ encRec 0x8c b ++ encRec 0xa []

/-- No countries in the globals, and different ones in the sheets. -/
def clash : Bytes := memOf [.one 0x42 [0xb0, 4]] [1, 0, 44, 0] [1, 0, 49, 0]
/-- Countries in the globals, and the same ones in one sheet. -/
def named : Bytes := memOf [.one 0x42 [0xb0, 4], .one 0x8c [1, 0, 44, 0]] [1, 0, 44, 0] [1, 0, 49, 0]

end SampleCountries

open SampleFile SampleCountries in
/-- C41 does not hold in general: the first COUNTRY record that is read sets the countries of the book, and another one that differs is an
AssertionError.  In this file each of the two sheets can be had, but not both, and which of them depends on the order in which they are asked for; opening the
file with all its sheets fails. -/
theorem C41_conflicting_countries : ∃ (mem : Bytes) (l : Lib), openStream (env true) mem 0 = .ok l ∧
    (∃ sh, (sheetByIndex (env true) l 0).1 = .ok sh) ∧ (∃ sh, (sheetByIndex (env true) l 1).1 = .ok sh) ∧
    (sheetByIndex (env true) (sheetByIndex (env true) l 0).2 1).1 = .error .assertion ∧
    (sheetByIndex (env true) (sheetByIndex (env true) l 1).2 0).1 = .error .assertion ∧
    (∃ e, openStream (env false) mem 0 = .error e) ∧
    (libCalls (env true) l [.byIndex 0, .byIndex 1]).1 ≠ ((l.file (env true)).calls Life.fresh [.byIndex 0, .byIndex 1]).1 := by
  cases hl : openStream (env true) clash 0 with
  | error e =>
    have : (openStream (env true) clash 0).toOption.isSome = true := by decide +kernel
    rw [hl] at this; cases this
  | ok l =>
    have h0 : (match openStream (env true) clash 0 with
      | .ok l => ((sheetByIndex (env true) l 0).1.toOption.isSome && (sheetByIndex (env true) l 1).1.toOption.isSome &&
          (match (sheetByIndex (env true) (sheetByIndex (env true) l 0).2 1).1 with | .error .assertion => true | _ => false) &&
          (match (sheetByIndex (env true) (sheetByIndex (env true) l 1).2 0).1 with | .error .assertion => true | _ => false)) && l.sheetList.length = 2
      | .error _ => false) = true := by decide +kernel
    rw [hl] at h0
    simp only [Bool.and_eq_true, decide_eq_true_eq] at h0
    obtain ⟨⟨⟨⟨h1, h2⟩, h3⟩, h4⟩, _⟩ := h0
    have ok_of : ∀ {x : R LSheet}, x.toOption.isSome = true → ∃ sh, x = .ok sh := by
      intro x hx; cases x with | ok sh => exact ⟨sh, rfl⟩ | error e => cases hx
    have err_of : ∀ {x : R LSheet}, (match x with | .error .assertion => true | _ => false) = true → x = .error .assertion := by
      intro x hx; cases x with | ok sh => cases hx | error e => cases e <;> first | rfl | cases hx
    refine ⟨clash, l, hl, ok_of h1, ok_of h2, err_of h3, err_of h4, ?_, ?_⟩
    · have : (openStream (env false) clash 0).toOption.isSome = false := by decide +kernel
      cases hf : openStream (env false) clash 0 with
      | error e => exact ⟨e, rfl⟩
      | ok l => rw [hf] at this; cases this
    · intro hc
      have hr : (match openStream (env true) clash 0 with
        | .ok l => (match (libCalls (env true) l [.byIndex 0, .byIndex 1]).1, ((l.file (env true)).calls Life.fresh [.byIndex 0, .byIndex 1]).1 with
            | [_, .sheet (.error _)], [_, .sheet (.ok _)] => true
            | _, _ => false)
        | .error _ => false) = true := by decide +kernel
      rw [hl] at hr
      simp only at hr
      rw [hc] at hr
      generalize ((l.file (env true)).calls Life.fresh [.byIndex 0, .byIndex 1]).1 = rs at hr
      revert hr
      match rs with
      | [] => intro h; cases h
      | [_] => intro h; cases h
      | [_, .sheet (.error _)] => intro h; cases h
      | [_, .sheet (.ok _)] => intro h; cases h
      | [_, .flag _] => intro h; cases h
      | [_, .done _] => intro h; cases h
      | [_, .all _] => intro h; cases h
      | [_, .names _] => intro h; cases h
      | _ :: _ :: _ :: _ => intro h; simp at h

namespace SampleCountries
open SampleFile

/-- With countries in the globals the theorems apply: the second sheet, which contradicts them, can never be had, and the first one always. -/
theorem named_keeps : SheetsKeepCountries (env true) named 0 := by
  refine C41_named_countries (env true) named 0 80 12 (by decide +kernel) (by decide) ?_
  intro l hl
  have : (match openStream (env true) named 0 with | .ok l => decide (l.book.countries ≠ (0, 0)) | .error _ => false) = true := by decide +kernel
  have hl' : openStream (env true) named 0 = .ok l := hl
  rw [hl'] at this
  simpa using this

example : ∃ l, openStream (env true) named 0 = .ok l ∧ ∀ cs, (libCalls (env true) l cs).1 = ((l.file (env true)).calls Life.fresh cs).1 := by
  cases hl : openStream (env true) named 0 with
  | error e =>
    have : (openStream (env true) named 0).toOption.isSome = true := by decide +kernel
    rw [hl] at this; cases this
  | ok l => exact ⟨l, rfl, fun cs => C41_on_demand_partial (env true) named 0 80 12 l (by decide +kernel) (by decide) named_keeps rfl hl cs⟩

/-- The file of `Verif.Props.WorkbookExamples` has no COUNTRY records. -/
theorem sample_keeps : SheetsKeepCountries (env true) mem 2 := by
  intro l hl k
  have hl' : openStream (env true) mem 2 = .ok l := hl
  have h0 : (match openStream (env true) mem 2 with
    | .ok l => decide (l.sheetList.length = 2 ∧ (sheetByIndex (env true) l (0 : Nat)).2.book.countries = l.book.countries ∧
        (sheetByIndex (env true) l (1 : Nat)).2.book.countries = l.book.countries)
    | .error _ => false) = true := by decide +kernel
  rw [hl'] at h0
  simp only [decide_eq_true_eq] at h0
  obtain ⟨h1, h2, h3⟩ := h0
  match k with
  | 0 => exact h2
  | 1 => exact h3
  | k + 2 =>
    unfold sheetByIndex
    rw [idx_nat_ge _ _ (by omega)]

example : ∃ l, openStream (env true) mem 2 = .ok l ∧ ∀ cs, (libCalls (env true) l cs).1 = ((l.file (env true)).calls Life.fresh cs).1 := by
  obtain ⟨l, hl⟩ := opens
  exact ⟨l, hl, fun cs => C41_on_demand_partial (env true) mem 2 80 14 l (by decide +kernel) (by decide) sample_keeps rfl hl cs⟩

end SampleCountries

end Xlrd
