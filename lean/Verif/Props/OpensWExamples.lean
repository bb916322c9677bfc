import Verif.Props.OpensW
import Verif.Props.Biff4wExamples
import Verif.Props.OpensExamples

/-!
# BIFF4 workbooks that open, and some that do not (C84)
-/
set_option linter.unusedSimpArgs false
namespace Xlrd
open Spec
namespace Sample4w
open SampleOld (xf0 xf1 xfData fmtData)

def wenv (fi : Bool) : OpenEnv := { SampleOld.env with
  fi := fi
  evalNames := fun b => (bookNames { ops := NameSample.ops, bv := 45, bk := b, dec := b.dec (SampleOld.env.recEnv 45) }).map fun _ => () }

theorem wevaluates (fi : Bool) : EvaluatesNames NameSample.ops ((wenv fi).bookEnv 45 0) := fun _ => rfl

theorem at_index {α : Type} {l : List α} {P : List α → α → Prop} (key : ∀ (i : Nat) it, l[i]? = some it → P (l.take i) it) : ∀ p it q, l = p ++ it :: q → P p it := by
  intro p it q e
  have := key p.length it (by rw [e]; simp)
  rw [show l.take p.length = p by rw [e]; simp] at this
  exact this

theorem two_parts {a b : SheetPart} {P : List SheetPart → SheetPart → Prop} (h1 : P [] a) (h2 : P [a] b) : ∀ pre x post, [a, b] = pre ++ x :: post → P pre x := by
  intro pre x post h
  rcases pre with _ | ⟨y, _ | ⟨z, zs⟩⟩
  · cases h; exact h1
  · cases h; exact h2
  · simp at h

theorem xfRec0 : XfRecord xf0 45 (xfData xf0) :=
  .biff4 45 (.inr rfl) 0 [] (by unfold FieldsFit; decide) (by unfold IsOrientation; decide) (by unfold NoBiff8Attributes; decide)
theorem xfRec1 : XfRecord xf1 45 (xfData xf1) :=
  .biff4 45 (.inr rfl) 0 [] (by unfold FieldsFit; decide) (by unfold IsOrientation; decide) (by unfold NoBiff8Attributes; decide)

theorem before_readable (H : List GItem) : ∀ p it q, part1.before = p ++ it :: q →
    WReadable (fun q => SampleOld.env.codec (textEncoding 45 SampleOld.env.override (lastCodepage q))) H (bookOf [] ++ p) it := by
  refine at_index (P := fun p it => WReadable (fun q => SampleOld.env.codec (textEncoding 45 SampleOld.env.override (lastCodepage q))) H (bookOf [] ++ p) it) ?_
  intro i it h
  match i, h with
  | 0, h => cases h; exact .other _ (by intro d; refine ⟨?_, ?_, ?_⟩ <;> (intro h; cases h)) (.codepage 1252 [] (by decide))
  | 1, h => cases h; exact .other _ (by intro d; refine ⟨?_, ?_, ?_⟩ <;> (intro h; cases h)) (.sheetsoffset _ rfl)
  | 2, h => cases h; exact .boundsheet "One".toList (name "One") [7] (field _ "One" rfl (by decide)) ⟨[0, 0, 0, 0], by simp [part1]⟩
  | 3, h => cases h; exact .boundsheet "Two".toList (name "Two") [] (field _ "Two" rfl (by decide)) ⟨[0, 0, 0, 0], by simp [part1]⟩

theorem file1_readable (H pre : List GItem) : ∀ p it q, part1.file.book = p ++ it :: q →
    OldReadable 45 (fun q => SampleOld.env.codec (textEncoding 45 SampleOld.env.override (lastCodepage q))) H (pre ++ p) it := by
  refine at_index (P := fun p it => OldReadable 45 (fun q => SampleOld.env.codec (textEncoding 45 SampleOld.env.override (lastCodepage q))) H (pre ++ p) it) ?_
  intro i it h
  match i, h with
  | 0, h => cases h; exact .format _ _ (fmtRecord _ "0" rfl (by decide))
  | 1, h => cases h; exact .format _ _ (fmtRecord _ "d/m/y" rfl (by decide))
  | 2, h => cases h; exact .xf _ xf0 xfRec0
  | 3, h => cases h; exact .xf _ xf1 xfRec1
  | 4, h => cases h; exact .other _ _ (by decide) (.datemode 1 [] (.inr rfl))

theorem file2_readable (H pre : List GItem) : ∀ p it q, part2.file.book = p ++ it :: q →
    OldReadable 45 (fun q => SampleOld.env.codec (textEncoding 45 SampleOld.env.override (lastCodepage q))) H (pre ++ p) it := by
  refine at_index (P := fun p it => OldReadable 45 (fun q => SampleOld.env.codec (textEncoding 45 SampleOld.env.override (lastCodepage q))) H (pre ++ p) it) ?_
  intro i it h
  match i, h with
  | 0, h => cases h; exact .format _ _ (fmtRecord _ "d/m/y" rfl (by decide))
  | 1, h => cases h; exact .xf _ xf0 xfRec0

theorem wopenable (fi : Bool) : WOpenable (wenv fi).override (wenv fi).codec parts [] where
  usable := fun q _ => Or.inl ⟨_, rfl⟩
  before := two_parts (before_readable _) (by intro p it q h; exfalso; simp [part2] at h)
  sheets := two_parts (file1_readable _ _) (file2_readable _ _)
  last := by intro p it q h; simp at h

theorem names_before : SheetNames4 (textAt (SampleOld.env.recEnv 45)) part1.before ["One".toList, "Two".toList] := by
  have h0 : SheetNames4 (textAt (SampleOld.env.recEnv 45)) [.one 0x42 [0xe4, 4], .one 0x8e [0, 0, 0, 0]] [] :=
    Collected.skip (pre := [_]) (Collected.skip (pre := []) .nil (by rintro c d h; cases h; decide)) (by rintro c d h; cases h; decide)
  have h1 := h0.take (c := 0x85) rfl ⟨name "One", [7], field _ "One" rfl (by decide), rfl⟩
  exact h1.take (c := 0x85) rfl ⟨name "Two", [], field _ "Two" rfl (by decide), rfl⟩

theorem named (f2 : OldFile) : NamedSheets (textAt (SampleOld.env.recEnv 45)) [part1, { part2 with file := f2 }] := by
  refine two_parts (P := fun pre x => ∃ names, SheetNames4 (textAt (SampleOld.env.recEnv 45)) (bookOf pre ++ x.before) names ∧ names[pre.length]? = some x.name) ⟨_, names_before, rfl⟩ ?_
  refine ⟨["One".toList, "Two".toList], ?_, rfl⟩
  show SheetNames4 _ (part1.before ++ part1.file.book ++ [] ++ []) _
  rw [List.append_nil, List.append_nil]
  exact listed_names (headBook_items (file1_ok fun _ => .error .unicode).codes) names_before

/-- The workbook opens. -/
example (fi : Bool) : ∃ l, openXls (wenv fi) mem = some (.ok l) := by
  refine (C84_opens_iff_partial NameSample.ops (wenv fi) (wevaluates fi) mem parts [] workbook (wopenable fi)).mpr ⟨named file2, ?_⟩
  intro x hx
  have : x = part1 ∨ x = part2 := by simpa [parts] using hx
  rcases this with rfl | rfl <;> cases fi <;> exact ⟨by decide +kernel, by decide +kernel, by decide +kernel, by decide +kernel⟩

/-! ## A sheet with another name -/

def other : SheetPart := { part2 with name := "Six".toList, text := name "Six" }
def otherMem : Bytes := encRec 0x0409 (le16 0 ++ le16 0x100 ++ [9]) ++ [part1, other].flatMap SheetPart.bytes ++ encGlobals [] [] ++ [5, 5]

theorem other_workbook (fi : Bool) : Biff4w (textAt ((wenv fi).recEnv 45)) otherMem [part1, other] [] where
  bytes := ⟨0x0409, _, [], [5, 5], .biff4w 0 [9] (by decide), by decide, rfl⟩
  parts := two_parts (workbook.parts [] part1 [part2] rfl) {
    items := ⟨(by intro it h; cases h), (by intro it h; cases h), trivial⟩
    sst := by intro d m h; cases h
    text := field _ "Six" rfl (by decide)
    short := by decide +kernel
    length := by decide +kernel
    bof := .biff4 0x10 0 [7, 7] (by decide) (by decide) (by decide)
    file := file2_ok _ }
  last := workbook.last

/-- It does not open. -/
example (fi : Bool) : ¬ ∃ l, openXls (wenv fi) otherMem = some (.ok l) := by
  have ho : WOpenable (wenv fi).override (wenv fi).codec [part1, other] [] :=
    ⟨fun q _ => Or.inl ⟨_, rfl⟩, two_parts (before_readable _) (by intro p it q h; exfalso; simp [other, part2] at h), two_parts (file1_readable _ _) (file2_readable _ _),
      by intro p it q h; simp at h⟩
  rw [C84_opens_iff_partial NameSample.ops (wenv fi) (wevaluates fi) otherMem _ [] (other_workbook fi) ho]
  rintro ⟨h, _⟩
  obtain ⟨ns, h1, h2⟩ := h [part1] other [] rfl
  have h3 : SheetNames4 (textAt (SampleOld.env.recEnv 45)) (part1.before ++ part1.file.book) ["One".toList, "Two".toList] :=
    listed_names (headBook_items (file1_ok fun _ => .error .unicode).codes) names_before
  have h1' : SheetNames4 (textAt (SampleOld.env.recEnv 45)) (part1.before ++ part1.file.book) ns := by
    have e : bookOf [part1] ++ other.before = part1.before ++ part1.file.book := by simp [bookOf, SheetPart.book, other, part2]
    rw [e] at h1
    exact h1
  obtain ⟨l, hl⟩ := opens
  obtain ⟨_, _, b1, _, _, _, _, hi, _⟩ := w_opened workbook hl
  have hb2 : BookItems 45 part2.file.book := headBook_items (file2_ok fun _ => .error .unicode).codes
  have e : bookOf parts = part1.before ++ part1.file.book ++ part2.file.book := by simp [bookOf, SheetPart.book, parts, part2]
  rw [e] at hi
  have e1 := hi.names _ (listed_names hb2 h1')
  rw [hi.names _ (listed_names hb2 h3)] at e1
  rw [← e1] at h2
  exact absurd h2 (by decide)

/-! ## Two palettes -/

def palette : Bytes := encPalette [((1, 2, 3), 0)] []

def pal1 : OldFile := { head := [.book 0x92 palette], dim := ⟨0, 1, 0, 1, [0, 0]⟩, body := [.cell (.number 0 0 0 ⟨false, 1023, 0⟩ [])], eof := [] }
def palPart1 : SheetPart := { part1 with file := pal1 }
def palPart2 : SheetPart := { part2 with file := pal1 }
def palMem : Bytes := encRec 0x0409 (le16 0 ++ le16 0x100 ++ [9]) ++ [palPart1, palPart2].flatMap SheetPart.bytes ++ encGlobals [] [] ++ [5, 5]

theorem pal_ok (dec : Bytes → R PyStr) : pal1.Ok 45 dec [] where
  codes := by
    intro c d h
    simp only [pal1, List.mem_cons, OldItem.book.injEq, List.not_mem_nil, or_false] at h
    obtain ⟨rfl, _⟩ := h
    decide
  settings := by
    intro y h
    simp [OldFile.settings, pal1] at h
  items := by
    intro y h
    have : y = .cell (.number 0 0 0 ⟨false, 1023, 0⟩ []) := by
      simpa [OldFile.settings, pal1] using h
    subst this
    exact ⟨by simp [SheetItem.Ok, CellRec.Ok, B64.Ok], by rintro c d h; cases h⟩
  styles := by
    intro pre d post h
    have : OldItem.book 0x293 d ∈ pal1.head := by rw [h]; simp
    simp [pal1] at this
  short := by decide +kernel

theorem pal_workbook (fi : Bool) : Biff4w (textAt ((wenv fi).recEnv 45)) palMem [palPart1, palPart2] [] where
  bytes := ⟨0x0409, _, [], [5, 5], .biff4w 0 [9] (by decide), by decide, rfl⟩
  parts := two_parts
    { items := (workbook.parts [] part1 [part2] rfl).items
      sst := (workbook.parts [] part1 [part2] rfl).sst
      text := field _ "One" rfl (by decide)
      short := by decide +kernel
      length := by decide +kernel
      bof := .biff4 0x10 0 [7, 7] (by decide) (by decide) (by decide)
      file := pal_ok _ }
    { items := ⟨(by intro it h; cases h), (by intro it h; cases h), trivial⟩
      sst := by intro d m h; cases h
      text := field _ "Two" rfl (by decide)
      short := by decide +kernel
      length := by decide +kernel
      bof := .biff4 0x10 0 [7, 7] (by decide) (by decide) (by decide)
      file := pal_ok _ }
  last := workbook.last

theorem pal_openable (fi : Bool) : OldOpenable 45 (wenv fi).override (wenv fi).codec pal1.book where
  usable := fun q _ => Or.inl ⟨_, rfl⟩
  readable := by
    intro p it q h
    have hb : pal1.book = [.one 0x92 palette] := rfl
    rw [hb] at h
    rcases p with _ | ⟨y, p⟩
    · cases h
      exact .other _ _ (by decide) (.palette [((1, 2, 3), 0)] [] (by simp [IsRgb]) (by decide) (by decide) (by rintro ⟨d, h⟩; cases h))
    · simp at h

end Sample4w

open Sample4w in
/-- **C84 does not hold in general.**  With `formatting_info=True` a BIFF4 workbook whose sheets each have one PALETTE record raises AssertionError, although the records of each sheet can be
read, the sheets have the names listed for them, and their cells fit. -/
theorem C84_two_palettes : ∃ (env : OpenEnv) (file : Bytes) (parts : List SheetPart), env.fi = true ∧ EvaluatesNames NameSample.ops (env.bookEnv 45 0) ∧
    Biff4w (textAt (env.recEnv 45)) file parts [] ∧ NamedSheets (textAt (env.recEnv 45)) parts ∧
    (∀ x ∈ parts, OldOpenable 45 env.override env.codec x.file.book ∧
      CellsFit 16384 env.fi (xfRecords 45 x.file.book) (cellsOf fl env.fi [] x.file.layout.items) (mergedRanges env.fi x.file.layout.items)) ∧
    openXls env file = some (.error .assertion) := by
  refine ⟨wenv true, palMem, [palPart1, palPart2], rfl, wevaluates true, pal_workbook true, ?_, ?_, ?_⟩
  · refine two_parts (P := fun pre x => ∃ names, SheetNames4 (textAt (SampleOld.env.recEnv 45)) (bookOf pre ++ x.before) names ∧ names[pre.length]? = some x.name) ⟨_, names_before, rfl⟩ ?_
    refine ⟨["One".toList, "Two".toList], ?_, rfl⟩
    show SheetNames4 _ (part1.before ++ pal1.book ++ [] ++ []) _
    rw [List.append_nil, List.append_nil]
    exact listed_names (headBook_items (pal_ok fun _ => .error .unicode).codes) names_before
  · intro x hx
    have : x = palPart1 ∨ x = palPart2 := by simpa using hx
    rcases this with rfl | rfl <;> exact ⟨pal_openable true, by decide +kernel, by decide +kernel, by decide +kernel, by decide +kernel⟩
  · rw [C76_file _ _ _ _ _ (pal_workbook true)]
    have h : (match openStream (wenv true) palMem 0 with | .error .assertion => true | _ => false) = true := by decide +kernel
    generalize openStream (wenv true) palMem 0 = r at h
    split at h
    · rfl
    · cases h
end Xlrd
