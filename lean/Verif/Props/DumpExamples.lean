import Verif.Props.Dump
import Verif.Props.ContainerExamples

/-!
# A dump of a compound document (C79)
-/
namespace Xlrd
open Spec

namespace SampleDoc

theorem isStreamFile : StreamFile env.lower env.depth file book := by
  obtain ⟨d, e, f, he, hd, st⟩ := workbook
  exact .stream file header parts tree d e [5, 9] book document (by decide) (.inl f) he hd st (by decide +kernel) (streamAt_length st (by decide))

example : ∃ lines, dumpFile env file false = some (.ok lines) ∧ ∃ extra, readDump true 0 lines = some (book ++ extra) ∧
    (extra ≠ [] → ∃ (l : PyStr) (ls : List PyStr), lines = ls ++ [l] ∧ "Last dumped record has length (".toList <+: l) :=
  C79_dump_file env file book isStreamFile (by decide +kernel) false

end SampleDoc

end Xlrd
