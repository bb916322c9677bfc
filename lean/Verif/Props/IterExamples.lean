import Verif.Props.IterCountries
import Verif.Props.CountriesExamples

/-!
# Samples for C82
-/
set_option linter.unusedSimpArgs false
namespace Xlrd
open Spec

namespace SampleIter
open SampleFile

def isItem (n : String) (i : Int) : Out → Bool
  | .item (.ok sh) => sh.name = n.toList ∧ sh.number = i
  | _ => false
def isRaise (e : PyErr) : Out → Bool
  | .item (.error e') => e' = e
  | _ => false
def isStop : Out → Bool
  | .stop => true
  | _ => false

def outs (env : OpenEnv) (mem : Bytes) (base : Int) (st : List Step) : List Out :=
  match openStream env mem base with
  | .ok l => bookSteps env l (fun _ => .fresh) st
  | .error _ => []

/-- Two iterators over a book opened on demand whose second sheet cannot be read, with calls in between: the first sheet has the number it was first asked for with. -/
example : ((outs (env true) mem 2 [.next 0, .call (.unload (.index 0)), .call (.byIndex (-2)), .next 1, .next 0, .next 0, .next 1, .next 1]).zip
    [isItem "Z" 0, fun _ => true, fun _ => true, isItem "Z" (-2), isRaise .xlrd, isStop, isRaise .xlrd, isStop]).map (fun x => x.2 x.1) = List.replicate 8 true := by
  decide +kernel

example : ∃ l, openStream (env true) mem 2 = .ok l ∧ ∀ (st : List Step), NoRelease st → ∀ (q j : Nat), st[q]? = some (.next j) →
    ∃ o, (bookSteps (env true) l (fun _ => .fresh) st)[q]? = some o ∧ o.Alike ((l.file (env true)).element (requests j (st.take q))) := by
  obtain ⟨l, hl⟩ := opens
  exact ⟨l, hl, fun st hst q j hq => C82_on_demand_steady (env true) mem 2 80 14 l (by decide +kernel) (by decide) SampleCountries.sample_keeps rfl hl st hst q j hq⟩

/-- The hypotheses of `C82_on_demand` are met by the file in which each of the two sheets can be read, but not both. -/
example : ∃ l, openStream (env true) SampleCountries.clash 0 = .ok l ∧ l.book.sheetNames.length = 2 ∧
    (∃ o, (bookSteps (env true) l (fun _ => .fresh) [.next 0, .next 0])[0]? = some o ∧ ReadAs (env true) l 0 o) := by
  cases hl : openStream (env true) SampleCountries.clash 0 with
  | error e =>
    have : (openStream (env true) SampleCountries.clash 0).toOption.isSome = true := by decide +kernel
    rw [hl] at this; cases this
  | ok l =>
    have hn : (match openStream (env true) SampleCountries.clash 0 with
      | .ok l => decide (l.book.sheetNames.length = 2)
      | .error _ => false) = true := by decide +kernel
    rw [hl] at hn
    simp only [decide_eq_true_eq] at hn
    obtain ⟨o, ho, hx⟩ := C82_on_demand (env true) SampleCountries.clash 0 80 12 l (by decide +kernel) (by decide) rfl hl [.next 0, .next 0] (by simp [NoRelease]) 0 0 rfl
    refine ⟨l, rfl, hn, o, ho, ?_⟩
    rw [if_pos ⟨by rw [hn]; decide, fun q' hq' => absurd hq' (by omega)⟩] at hx
    exact hx

example : ((outs (env true) SampleCountries.clash 0 [.next 0, .next 1, .next 0, .next 0, .next 1]).zip
    [isItem "A" 0, isItem "A" 0, isRaise .assertion, isStop, isRaise .assertion]).map (fun x => x.2 x.1) = List.replicate 5 true := by
  decide +kernel

/-- A workbook with two sheets that can be read. -/
def two : Bytes := SampleCountries.memOf [.one 0x42 [0xb0, 4]] [1, 0, 44, 0] [1, 0, 44, 0]

example : ∃ l, openStream (env false) two 0 = .ok l ∧ ∃ shs : List LSheet, shs.length = 2 ∧ (bookSheets (env false) l).1 = .ok (shs.map some) ∧
    ∀ (st : List Step), NoUnload st → ∀ (q j : Nat), st[q]? = some (.next j) →
      (bookSteps (env false) l (fun _ => .fresh) st)[q]? = some (sheetOrStop shs[requests j (st.take q)]?) := by
  cases hl : openStream (env false) two 0 with
  | error e =>
    have : (openStream (env false) two 0).toOption.isSome = true := by decide +kernel
    rw [hl] at this; cases this
  | ok l =>
    obtain ⟨shs, h1, h2⟩ := C82_iteration (env false) two 0 80 12 l (by decide +kernel) (.inl rfl) hl
    refine ⟨l, rfl, shs, ?_, h1, h2⟩
    have : (match openStream (env false) two 0 with
      | .ok l => (match (bookSheets (env false) l).1 with | .ok x => decide (x.length = 2) | .error _ => false)
      | .error _ => false) = true := by decide +kernel
    rw [hl] at this
    simp only [h1, List.length_map, decide_eq_true_eq] at this
    exact this

/-- A loop within a loop. -/
example : ((outs (env false) two 0 [.next 0, .next 1, .call .release, .next 1, .next 1, .next 0, .next 2, .next 0, .next 0]).zip
    [isItem "A" 0, isItem "A" 0, fun _ => true, isItem "B" 1, isStop, isItem "B" 1, isItem "A" 0, isStop, isStop]).map (fun x => x.2 x.1) = List.replicate 9 true := by
  decide +kernel

/-- Once a sheet has been unloaded it cannot be had from an iterator either. -/
example : ((outs (env false) two 0 [.next 0, .call (.unload (.index 1)), .next 0, .next 0]).zip
    [isItem "A" 0, fun _ => true, isRaise .xlrd, isStop]).map (fun x => x.2 x.1) = List.replicate 4 true := by
  decide +kernel

end SampleIter

/-- Subscripts. -/
example : ∃ sh : SheetView, loadCells ⟨true, false, 65536, 256, fun _ => some 2⟩ exampleWrites [] = .ok sh.store ∧ sh.fmtInfo = true ∧ 2 < sh.store.nrows :=
  ⟨⟨_, true, 80, fun _ => none, fun _ => none, none, none, []⟩, rfl, rfl, by decide⟩

end Xlrd
