import Verif.Props.Biff4wExamples

/-!
# The fonts of a BIFF4 workbook with two sheets (C76)
-/
set_option linter.unusedSimpArgs false
namespace Xlrd
open Spec
namespace Sample4wFonts
open Sample4w (name field)

def env : OpenEnv := { SampleFile.env false with fi := true }

def fontOf (s : String) : Font := { height := 200, name := s.toList, colourIndex := 0x7fff, weight := 400, characterSet := 1 }
def fontData (s : String) : Bytes := leBytes 6 (packFields (fontFields3 (fontOf s) 0)) ++ (encLen 1 s.toList.length ++ (s.toList.map fun c => UInt8.ofNat c.toNat) ++ [])

theorem fontRec (dec : Bytes → R PyStr) (s : String) (h : dec (s.toList.map fun c => UInt8.ofNat c.toNat) = .ok s.toList) (hl : s.toList.length < 256) :
    FontRecord dec (fontOf s) 45 (fontData s) := by
  have := FontRecord.biff34 (dec := dec) (f := fontOf s) 45 (.inr (.inr rfl)) 0 (s.toList.map fun c => UInt8.ofNat c.toNat) []
    (by unfold FieldsFit fontFields3 fontFlags fontOf; simp) (by unfold OldFont fontOf; simp) h (by rw [List.length_map]; exact hl)
  rw [List.length_map] at this
  exact this

/-- A sheet with the given fonts and nothing else. -/
def fileOf (fonts : List String) : OldFile where
  head := fonts.map fun s => .book 0x231 (fontData s)
  dim := ⟨0, 0, 0, 0, [0, 0]⟩
  body := []
  eof := []

def part1 : SheetPart where
  before := [.one 0x42 [0xe4, 4], .one 0x8e [0, 0, 0, 0], .one 0x85 (name "One" ++ [7]), .one 0x85 (name "Two" ++ [])]
  name := "One".toList
  text := name "One"
  more := []
  op := 0x0409
  bof := SampleOld.bof
  file := fileOf ["A", "B", "C"]
  skipped := []

def part2 : SheetPart where
  before := []
  name := "Two".toList
  text := name "Two"
  more := [0, 0]
  op := 0x0409
  bof := SampleOld.bof
  file := fileOf ["D", "E"]
  skipped := []

def parts : List SheetPart := [part1, part2]
def mem : Bytes := encRec 0x0409 (le16 0 ++ le16 0x100 ++ [9]) ++ parts.flatMap SheetPart.bytes ++ encGlobals [] [] ++ [5, 5]

theorem file_ok (fonts : List String) (dec : Bytes → R PyStr)
    (hsh : ∀ r ∈ (fileOf fonts).records 45, r.2.length < 65536) : (fileOf fonts).Ok 45 dec [] where
  codes := by
    intro c d h
    simp only [fileOf, List.mem_map, OldItem.book.injEq] at h
    obtain ⟨_, _, rfl, _⟩ := h
    decide
  settings := by
    intro y h
    simp [OldFile.settings, fileOf] at h
  items := by
    intro y h
    simp [OldFile.settings, fileOf] at h
  styles := by
    intro pre d post h
    have : OldItem.book 0x293 d ∈ (fileOf fonts).head := by rw [h]; simp
    simp [fileOf] at this
  short := hsh

theorem workbook : Biff4w (textAt (env.recEnv 45)) mem parts [] where
  bytes := ⟨0x0409, _, [], [5, 5], .biff4w 0 [9] (by decide), by decide, rfl⟩
  parts := by
    intro pre x post h
    rcases pre with _ | ⟨y, _ | ⟨z, zs⟩⟩
    · cases h
      exact {
        items := {
          sized := by unfold GItem.Sized; decide +kernel
          plain := by
            intro it h
            simp only [part1, List.mem_cons, List.not_mem_nil, or_false] at h
            rcases h with rfl | rfl | rfl | rfl <;> simp [GItem.Plain]
          stray := by simp [part1, NoStrayContinue] }
        sst := by intro d m h; simp [part1] at h
        text := field _ "One" rfl (by decide)
        short := by decide +kernel
        length := by decide +kernel
        bof := .biff4 0x10 0 [7, 7] (by decide) (by decide) (by decide)
        file := file_ok _ _ (by decide +kernel) }
    · cases h
      exact {
        items := ⟨(by intro it h; cases h), (by intro it h; cases h), trivial⟩
        sst := by intro d m h; cases h
        text := field _ "Two" rfl (by decide)
        short := by decide +kernel
        length := by decide +kernel
        bof := .biff4 0x10 0 [7, 7] (by decide) (by decide) (by decide)
        file := file_ok _ _ (by decide +kernel) }
    · simp [parts] at h
  last := ⟨⟨(by intro it h; cases h), (by intro it h; cases h), trivial⟩, by intro d m h; cases h⟩

theorem opens : ∃ l, openStream env mem 0 = .ok l := by
  cases h : openStream env mem 0 with
  | ok l => exact ⟨l, rfl⟩
  | error e =>
    have : (openStream env mem 0).toOption.isSome = true := by decide +kernel
    rw [h] at this; cases this

abbrev dec2 (its : List GItem) : Bytes → R PyStr := textAt (env.recEnv 45) (bookOf [part1] ++ part2.before ++ its)

theorem fonts2 : Fonts 45 dec2 part2.file.book [fontOf "D", fontOf "E"] := by
  have h0 : Fonts 45 dec2 [.one 0x231 (fontData "D")] [fontOf "D"] :=
    Collected.take (pre := []) (xs := []) .nil (.inr rfl) (fontRec _ "D" rfl (by decide))
  exact Collected.take (pre := [_]) (xs := [_]) h0 (.inr rfl) (fontRec _ "E" rfl (by decide))

/-- The hypotheses are met: of the fonts A, B, C of the first sheet and D, E of the second, the book has D and E. -/
example : ∃ l, openStream env mem 0 = .ok l ∧ (l.book.fmt.fontList.map fun f => (f.name, f.fontIndex)) = [("D".toList, 0), ("E".toList, 1)] := by
  obtain ⟨l, h⟩ := opens
  obtain ⟨hl, hf⟩ := C76_last_fonts env rfl mem [part1] part2 [] workbook (by intro c d h; cases h) l h _ fonts2
  refine ⟨l, h, List.ext_getElem? fun i => ?_⟩
  have h0 := hf 0 _ rfl
  have h1 := hf 1 _ rfl
  change l.book.fmt.fontList.length = 2 at hl
  change l.book.fmt.fontList[0]? = _ at h0
  change l.book.fmt.fontList[1]? = _ at h1
  match i with
  | 0 => rw [List.getElem?_map, h0]; rfl
  | 1 => rw [List.getElem?_map, h1]; rfl
  | i + 2 => rw [List.getElem?_map, List.getElem?_eq_none (by omega)]; rfl

end Sample4wFonts
end Xlrd
