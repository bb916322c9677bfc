import Verif.Lemmas.OpenW
import Verif.Props.Biff4w

/-!
# C84: when BIFF4 workbooks open
-/
set_option linter.unusedSimpArgs false
namespace Xlrd
open Spec

theorem w_start {env : OpenEnv} (H : List GItem) : ∃ f, initialiseColourMap 45 env.fi newBook.fmt = .ok f ∧ WOk env H [] { newBook with fmt := f } := by
  obtain ⟨dflt, hd, hl⟩ : ∃ dflt, defaultPalette 45 = .ok dflt ∧ dflt.length = paletteSize 45 := ⟨_, rfl, by decide⟩
  obtain ⟨f, h1, h2⟩ := C37_initial_colour_map 45 dflt hd env.fi newBook.fmt
  obtain ⟨m, hf⟩ := colour_map_fields (env := env.recEnv 45) h1
  refine ⟨f, h1, start_winv env f, ⟨fresh_enc _ f, ?_, Or.inl rfl, ?_, ?_, ?_, rfl, ?_⟩, rfl, rfl, ?_, ⟨[], .nil⟩⟩
  · intro d hd; cases hd
  · intro hfi _
    refine ⟨by rw [hf], dflt, hd, hl, fun i => ?_⟩
    have := h2 i
    rw [if_pos (show env.fi = true from hfi)] at this
    exact this
  · intro _; rw [hf]
  · rintro ⟨d, h⟩; cases h
  · intro _ k nc rest h; simp [externsOf] at h
  · rintro ⟨d, h⟩; cases h

/-- **C84** (with at most one PALETTE record in the whole file, see `C84_two_palettes`).  A BIFF4 workbook whose records about the whole file can be read opens exactly if each sheet has the name
that the BOUNDSHEET record of the same rank gave before it, and the cells of each sheet fit. -/
theorem C84_opens_iff_partial (ops : PyOps) (env : OpenEnv) (hev : EvaluatesNames ops (env.bookEnv 45 0)) (file : Bytes) (parts : List SheetPart) (last : List GItem)
    (hw : Biff4w (textAt (env.recEnv 45)) file parts last) (ho : WOpenable env.override env.codec parts last) :
    (∃ l, openXls env file = some (.ok l)) ↔
      NamedSheets (textAt (env.recEnv 45)) parts ∧
      ∀ x ∈ parts, CellsFit 16384 env.fi (xfRecords 45 x.file.book) (cellsOf fl env.fi [] x.file.layout.items) (mergedRanges env.fi x.file.layout.items) := by
  rw [C76_file env _ file parts last hw]
  obtain ⟨⟨op, bof, eof, rest, hb, he, hm⟩, hp, hl1, hl2⟩ := hw
  have hf : firstBof file 0 = .ok (45, ((encRec op bof).length : Int)) := by
    have := C52_first_bof hb [] (parts.flatMap SheetPart.bytes ++ encGlobals last eof ++ rest)
    rw [if_pos (show StartsFile 45 0x100 from Or.inr (Or.inl rfl))] at this
    rw [hm, List.append_assoc, List.append_assoc, ← List.append_assoc (parts.flatMap SheetPart.bytes)]
    simpa using this
  obtain ⟨f, g1, g2⟩ := w_start (env := env) (bookOf parts ++ last)
  have hlen : passes parts + last.length < file.length + 1 := by
    have h1 := passes_le parts
    have h2 := items_le_bytes last
    have h3 := congrArg List.length hm
    simp only [List.length_append, encGlobals] at h3
    omega
  have key := w_loop_iff (H := bookOf parts ++ last) (base := 0) hev he hl1 hl2 ho.usable parts [] (encRec op bof) { newBook with fmt := f } (file.length + 1)
    (by simpa using hp) ho.before ho.sheets ho.last (by simp) hm hlen g2
  have hopen : (∃ l, some (openStream env file 0) = some (.ok l)) ↔ ∃ r, globalsLoop (env.bookEnv 45 0) file (file.length + 1) { newBook with fmt := f } ((encRec op bof).length : Int) = .ok r := by
    unfold openStream
    rw [hf]
    simp only [bind, Except.bind]
    rw [if_neg (by decide)]
    unfold parseGlobals
    have g1' : initialiseColourMap (env.bookEnv 45 0).bv (env.bookEnv 45 0).fi newBook.fmt = .ok f := g1
    simp only [g1', bind, Except.bind]
    cases globalsLoop (env.bookEnv 45 0) file (file.length + 1) { newBook with fmt := f } ((encRec op bof).length : Int) with
    | error e => simp
    | ok r => exact ⟨fun _ => ⟨r, rfl⟩, fun _ => ⟨_, rfl⟩⟩
  rw [hopen, key]
  constructor
  · intro h
    refine ⟨fun pre x post e => ?_, fun x hx => ?_⟩
    · obtain ⟨ns, h1, h2⟩ := (h pre x post e).1
      exact ⟨ns, by simpa using h1, by simpa using h2⟩
    · obtain ⟨a, c, e⟩ := List.append_of_mem hx
      exact (h a x c e).2
  · rintro ⟨h1, h2⟩ q y r e
    obtain ⟨ns, k1, k2⟩ := h1 q y r e
    exact ⟨⟨ns, by simpa using k1, by simpa using k2⟩, h2 y (by rw [e]; simp)⟩

end Xlrd
