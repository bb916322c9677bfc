import Verif.Props.Tables
import Verif.Props.DateCellsExamples

/-!
# Formats and colours of a file (C90, C37)
-/
set_option linter.unusedSimpArgs false
namespace Xlrd
open Spec
namespace DateSample
open SampleFile (env)

/-- The file has no FORMAT record: format 14 is the built-in one, and 23 is none. -/
example : ∃ l, openStream (env false) mem 0 = .ok l ∧ l.book.fmt.formatMap 14 = some ⟨14, 1, some "m/d/yy".toList⟩ ∧ l.book.fmt.formatMap 23 = none := by
  obtain ⟨l, _, h1, _⟩ := opens
  have := fun k => C90_formats (env false) 80 (by decide) mem 0 items _ (stream _) l h1 [] (noFormats _) _ (xfs _) (by simp) k
  refine ⟨l, h1, ?_, ?_⟩
  · rw [(this 14).2.1 rfl (by unfold BuiltinKey; decide)]
    decide
  · exact (this 23).2.2 rfl (by unfold BuiltinKey; decide)

theorem noPalette : Palettes items [] :=
  Collected.skip (pre := [_, _, _]) (Collected.skip (pre := [_, _]) (Collected.skip (pre := [_]) (Collected.skip (pre := []) .nil (by rintro c d h; cases h; decide))
    (by rintro c d h; cases h; decide)) (by rintro c d h; cases h; decide)) (by rintro c d h; cases h; decide)

def envF : OpenEnv := { env false with fi := true }

example : ∃ l, openStream envF mem 0 = .ok l ∧ itemsGet l.book.fmt.colourMap 47 = some (some (255, 204, 153)) ∧ itemsGet l.book.fmt.colourMap 64 = some none ∧
    itemsGet l.book.fmt.colourMap 70 = none := by
  have h1 : (openStream envF mem 0).toOption.isSome = true := by decide +kernel
  cases h : openStream envF mem ((0 : Nat) : Int) with
  | error e => rw [show ((0 : Int)) = ((0 : Nat) : Int) from rfl, h] at h1; cases h1
  | ok l =>
    have := C37_file envF 80 (by decide) mem 0 items _ (stream _) l h [] noPalette
    refine ⟨l, by simp, (this 47).trans ?_, (this 64).trans ?_, (this 70).trans ?_⟩ <;> decide +kernel

end DateSample
end Xlrd
