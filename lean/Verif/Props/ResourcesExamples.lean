import Verif.Props.Resources
import Verif.Props.CountriesExamples

/-!
# Files for C88

A file on disk that opens on demand and cannot be opened with all its sheets, next to two other open files.
-/
set_option linter.unusedSimpArgs false
namespace Xlrd
open Spec
namespace SampleHandles
open SampleFile SampleCountries

def disk : Disk := ⟨.ok (), .ok (), .ok (), .ok (), clash⟩
def before : World := ⟨5, [2, 3], []⟩
def zips : Bytes → R (List PyStr) := fun _ => .ok ["xl/workbook.xml".toList]
def opened (demand : Bool) (useMmap : Bool) := openHandles zips id (env demand) (some disk) (some disk) .absent useMmap true before

theorem works : DiskWorks disk := ⟨rfl, rfl, rfl, rfl⟩
theorem sound : Sound before := by intro h hh; simp [before] at hh ⊢; omega
theorem notZip : NotZip (some disk) := by
  intro d hd
  injection hd with hd; subst hd
  have : ZIP_SIGNATURE.isPrefixOf clash = false := by decide +kernel
  intro h
  rw [← List.isPrefixOf_iff_prefix] at h
  rw [show disk.data = clash from rfl, this] at h; cases h

theorem demanded : ∃ l k w', opened true true = some (.ok l, some k, w') ∧ k = ⟨.mapping 7, .mapping 7, false⟩ ∧ w'.live = [7, 2, 3] := by
  have h : (opened true true).map (fun x => (x.1.toOption.isSome, x.2.1, x.2.2.live)) = some (true, some ⟨.mapping 7, .mapping 7, false⟩, [7, 2, 3]) := by decide +kernel
  cases ho : opened true true with
  | none => rw [ho] at h; cases h
  | some x =>
    obtain ⟨r, k, w'⟩ := x
    rw [ho] at h
    simp only [Option.map, Option.some.injEq, Prod.mk.injEq] at h
    obtain ⟨h1, h2, h3⟩ := h
    cases r with
    | error e => cases h1
    | ok l => exact ⟨l, _, w', by rw [h2], rfl, h3⟩

theorem refused : ∃ e k w', opened false true = some (.error e, k, w') := by
  have h : (opened false true).map (fun x => x.1.toOption.isSome) = some false := by decide +kernel
  cases ho : opened false true with
  | none => rw [ho] at h; cases h
  | some x =>
    obtain ⟨r, k, w'⟩ := x
    rw [ho] at h
    cases r with
    | error e => exact ⟨e, k, w', rfl⟩
    | ok l => simp [Option.map, Except.toOption] at h

/-- The hypotheses of `C88_nothing_left_open_partial`: the file cannot be opened with all its sheets; the mapping has been closed again. -/
example : ∃ e k w', opened false true = some (.error e, k, w') ∧ w'.live = [2, 3] := by
  obtain ⟨e, k, w', h⟩ := refused
  exact ⟨e, k, w', h, C88_nothing_left_open_partial zips id (env false) (some disk) (some disk) .absent true true before w' _ k sound (by intro h b e; cases e)
    (Or.inl notZip) h (Or.inr ⟨e, rfl⟩)⟩

/-- The hypotheses of `C88_with_block_partial` and `C88_open_while_needed_partial`: the file is mapped while sheets can be asked for, and closed after the block. -/
example : ∃ l k w', opened true true = some (.ok l, some k, w') ∧ w'.live = [7, 2, 3] ∧
    (exitWith (handleCalls k w' [.byIndex 0, .byIndex 1, .sheets]).1 (handleCalls k w' [.byIndex 0, .byIndex 1, .sheets]).2).2.live = [2, 3] := by
  obtain ⟨l, k, w', h, hk, hl⟩ := demanded
  obtain ⟨k', e, h1⟩ := C88_with_block_partial zips id (env true) (some disk) (some disk) .absent true true before w' l (some k) sound (by intro h b e; cases e)
    (Or.inl notZip) h [.byIndex 0, .byIndex 1, .sheets]
  injection e with e; subst e
  exact ⟨l, k, w', h, hl, h1⟩

/-- The hypotheses of `C88_same_result`. -/
example : (openHandles zips id (env true) none none (.bytes clash) false false before).map Prod.fst = (opened true true).map Prod.fst := by
  obtain ⟨h1, h2, _⟩ := C88_same_result zips id (env true) disk works (by decide +kernel) true false true false before before 0 none
  exact h2.trans h1.symm

/-- The hypotheses of `C88_zip_left_open`. -/
example : ∃ w', openHandles zips id (env false) (some { disk with data := [0x50, 0x4B, 3, 4, 7] }) none .absent true true before = some (.error .xlrd, none, w') ∧ w'.live = [6, 2, 3] := by
  obtain ⟨w', h, ⟨h1, _⟩, _⟩ := C88_zip_left_open zips id (env false) { disk with data := [0x50, 0x4B, 3, 4, 7] } ⟨rfl, rfl, rfl, rfl⟩ [7] rfl _ rfl none true true before
  exact ⟨w', h, h1⟩

/-- The hypotheses of `C88_mapping_closed`: the mapping 3 is the caller's. -/
example : ∃ e k w', openHandles zips id (env false) none none (.mapping 3 clash) true true before = some (.error e, some k, w') ∧ w'.live = [2] := by
  have h : (openHandles zips id (env false) none none (.mapping 3 clash) true true before).map (fun x => (x.1.toOption.isSome, x.2.1.isSome)) = some (false, true) := by decide +kernel
  cases ho : openHandles zips id (env false) none none (.mapping 3 clash) true true before with
  | none => rw [ho] at h; cases h
  | some x =>
    obtain ⟨r, k, w'⟩ := x
    rw [ho] at h
    cases k with
    | none => simp [Option.map] at h
    | some k =>
      cases r with
      | ok l => simp [Option.map, Except.toOption] at h
      | error e =>
        have := C88_mapping_closed zips id (env false) none none 3 clash (by decide +kernel) true true before w' (by decide) _ k ho (Or.inr ⟨e, rfl⟩)
        exact ⟨e, k, w', rfl, this⟩

/-- The hypotheses of `C88_dump_left_open` and `C88_dump_partial`. -/
example : ∃ w', dumpHandles (env false) (some disk) true before = some w' ∧ w'.live = [6, 2, 3] ∧ w'.dropped = [6] := by
  have h : (dumpHandles (env false) (some disk) true before).map (fun w => (w.live, w.dropped)) = some ([6, 2, 3], [6]) := by decide +kernel
  cases ho : dumpHandles (env false) (some disk) true before with
  | none => rw [ho] at h; cases h
  | some w' => rw [ho] at h; simp only [Option.map, Option.some.injEq, Prod.mk.injEq] at h; exact ⟨w', rfl, h.1, h.2⟩

end SampleHandles
end Xlrd
