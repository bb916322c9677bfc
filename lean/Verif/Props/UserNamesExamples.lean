import Verif.Props.UserNames
import Verif.Props.WorkbookExamples
import Verif.Props.OldFileExamples
import Verif.Props.Biff2Examples
import Verif.Props.Biff4wExamples

/-!
# Files with a user name (C87)
-/
set_option linter.unusedSimpArgs false
namespace Xlrd
open Spec
namespace UserFile

def env : OpenEnv := SampleFile.env false
def me : Bytes := [0x6d, 0x65, 0x20]

theorem isSome_opens {env : OpenEnv} {mem : Bytes} (h : (openStream env mem 0).toOption.isSome = true) : ∃ l, openStream env mem 0 = .ok l := by
  cases ho : openStream env mem 0 with
  | ok l => exact ⟨l, rfl⟩
  | error e => rw [ho] at h; cases h

/-! ## BIFF8 -/

def items8 : List GItem := [.one 0x5c (encLen 2 3 ++ (Sample.txt "old").body ++ []), .one 0x42 [0xb0, 4], .one 0x5c (encLen 2 3 ++ (Sample.txt "me ").body ++ [0x20])]
def mem8 : Bytes := encRec 0x0809 SampleFile.bof ++ encGlobals items8 []

theorem stream8 (dec : List GItem → Bytes → R PyStr) : WorkbookStream 80 dec mem8 0 items8 [] where
  bytes := ⟨[], 0x0809, SampleFile.bof, [], [], rfl, .biff8 5 [1, 2, 3, 4] (by decide) (by decide), by decide, by decide +kernel⟩
  ok := {
    sized := by unfold GItem.Sized; decide +kernel
    plain := by
      intro it h
      simp only [items8, List.mem_cons, List.mem_nil_iff, or_false] at h
      rcases h with rfl | rfl | rfl <;> simp [GItem.Plain]
    stray := by simp [items8, NoStrayContinue] }
  sheets := Collected.skip (pre := [_, _]) (Collected.skip (pre := [_]) (Collected.skip (pre := []) .nil (by rintro c d h; cases h; decide))
    (by rintro c d h; cases h; decide)) (by rintro c d h; cases h; decide)

theorem users8 : UserNames items8 ["old".toList, "me ".toList] :=
  Collected.take (pre := [_, _]) (xs := [_]) (Collected.skip (pre := [_]) (Collected.take (pre := []) (xs := []) .nil rfl
    ⟨Sample.txt "old", [], Sample.txt_ok _ (by decide +kernel), rfl, by decide +kernel, rfl⟩) (by rintro c d h; cases h; decide)) rfl
    ⟨Sample.txt "me ", [0x20], Sample.txt_ok _ (by decide +kernel), rfl, by decide +kernel, rfl⟩

example : ∃ l, openStream env mem8 0 = .ok l ∧ UserNameIs l.book "me ".toList := by
  obtain ⟨l, h⟩ := isSome_opens (env := env) (mem := mem8) (by decide +kernel)
  exact ⟨l, h, C87_user_name_biff8 env mem8 0 items8 [] (stream8 _) _ users8 l h⟩

/-! ## BIFF5 -/

def items5 : List GItem := [.one 0x22 [1, 0], userRecord me [0x20, 0x20], .one 0x42 (le16 1252 ++ [])]
def bof5 : Bytes := le16 0x0500 ++ le16 5 ++ le16 2412 ++ le16 1996 ++ []
def mem5 : Bytes := encRec 0x0809 bof5 ++ encGlobals items5 []

theorem stream5 (dec : List GItem → Bytes → R PyStr) : WorkbookStream 50 dec mem5 0 items5 [] where
  bytes := ⟨[], 0x0809, bof5, [], [], rfl, .biff5 5 2412 1996 [] (by decide) (by decide) (by decide) (by decide) (by decide), by decide, by decide +kernel⟩
  ok := {
    sized := by unfold GItem.Sized; decide +kernel
    plain := by
      intro it h
      simp only [items5, List.mem_cons, List.mem_nil_iff, or_false] at h
      rcases h with rfl | rfl | rfl <;> simp [GItem.Plain, userRecord]
    stray := by simp [items5, NoStrayContinue, userRecord] }
  sheets := Collected.skip (pre := [_, _]) (Collected.skip (pre := [_]) (Collected.skip (pre := []) .nil (by rintro c d h; cases h; decide))
    (by rintro c d h; cases h; decide)) (by rintro c d h; cases h; decide)

theorem last5 : LastUser items5 [.one 0x22 [1, 0]] me [.one 0x42 (le16 1252 ++ [])] := ⟨⟨[0x20, 0x20], rfl⟩, by decide, by intro d h; simp at h⟩

example : ∃ l, openStream env mem5 0 = .ok l ∧ UserNameIs l.book "me ".toList := by
  obtain ⟨l, h⟩ := isSome_opens (env := env) (mem := mem5) (by decide +kernel)
  obtain ⟨k, s, _, hs, hu⟩ := C87_user_name_biff57 env 50 (by decide) (by decide) mem5 0 items5 [] (stream5 _) _ _ _ last5 l h
  cases hs
  exact ⟨l, h, hu⟩

/-! ## BIFF4 -/

/-- A format and a user name. -/
def file4 : OldFile where
  head := [.book 0x5c (3 :: me ++ [0x20]), .book 0x41e (SampleOld.fmtData "0")]
  dim := ⟨0, 1, 0, 1, [0, 0]⟩
  body := [.cell (.number 0 0 0 ⟨false, 1023, 0⟩ [])]
  eof := []
def mem4 : Bytes := encRec 0x0409 SampleOld.bof ++ encRecs (file4.records 40)

/-- A user name only. -/
def file4r : OldFile := { file4 with head := [.book 0x5c (3 :: me ++ [0x20])] }
def mem4r : Bytes := encRec 0x0409 SampleOld.bof ++ encRecs (file4r.records 40)

theorem workbook4 (dec : List GItem → Bytes → R PyStr) : OldWorkbook 40 dec mem4 file4 where
  version := .inr rfl
  bytes := ⟨0x0409, SampleOld.bof, [], .biff4 0x10 0 [7, 7] (by decide) (by decide) (by decide), (List.append_nil _).symm⟩
  ok := {
    codes := by
      intro c d h
      simp only [file4, List.mem_cons, OldItem.book.injEq, List.not_mem_nil, or_false] at h
      rcases h with ⟨rfl, _⟩ | ⟨rfl, _⟩ <;> decide
    settings := by
      intro y h
      simp [OldFile.settings, file4] at h
    items := by
      intro y h
      have : y = .cell (.number 0 0 0 ⟨false, 1023, 0⟩ []) := by simpa [OldFile.settings, file4] using h
      subst this
      exact ⟨by simp [SheetItem.Ok, CellRec.Ok, B64.Ok], by rintro c d h; cases h⟩
    styles := by
      intro pre d post h
      have : OldItem.book 0x293 d ∈ file4.head := by rw [h]; simp
      simp [file4] at this
    short := by decide +kernel }

theorem workbook4r (dec : List GItem → Bytes → R PyStr) : OldWorkbook 40 dec mem4r file4r where
  version := .inr rfl
  bytes := ⟨0x0409, SampleOld.bof, [], .biff4 0x10 0 [7, 7] (by decide) (by decide) (by decide), (List.append_nil _).symm⟩
  ok := {
    codes := by
      intro c d h
      simp only [file4r, List.mem_cons, OldItem.book.injEq, List.not_mem_nil, or_false] at h
      rcases h with ⟨rfl, _⟩
      decide
    settings := by
      intro y h
      simp [OldFile.settings, file4r] at h
    items := by
      intro y h
      have : y = .cell (.number 0 0 0 ⟨false, 1023, 0⟩ []) := by simpa [OldFile.settings, file4r, file4] using h
      subst this
      exact ⟨by simp [SheetItem.Ok, CellRec.Ok, B64.Ok], by rintro c d h; cases h⟩
    styles := by
      intro pre d post h
      have : OldItem.book 0x293 d ∈ file4r.head := by rw [h]; simp
      simp [file4r] at this
    short := by decide +kernel }

example : ∃ l, openStream env mem4 0 = .ok l ∧ UserNameIs l.book "me ".toList := by
  obtain ⟨l, h⟩ := isSome_opens (env := env) (mem := mem4) (by decide +kernel)
  obtain ⟨k, s, _, hs, hu⟩ := C87_user_name_old_partial env 40 mem4 file4 (workbook4 _) [] [.one 0x41e (SampleOld.fmtData "0")] me
    ⟨⟨[0x20], rfl⟩, by decide, by intro d h; simp at h⟩ ⟨0x41e, SampleOld.fmtData "0", List.mem_cons_of_mem _ (List.mem_cons_self ..), by decide⟩ l h
  cases hs
  exact ⟨l, h, hu⟩

/-! ## BIFF2 -/

/-- A user name, a code page and an integer. -/
def file2 : B2File where
  head := [.book 0x5c (3 :: me ++ [0x20]), .book 0x42 (le16 1252)]
  dim := ⟨0, 1, 0, 1, []⟩
  body := [.integer 0 0 ⟨0, 0, 0⟩ 7]
  eof := []
def mem2 : Bytes := encRec 0x0009 SampleB2.bof ++ encRecs file2.records

theorem workbook2 (dec : List GItem → Bytes → R PyStr) : B2Workbook dec mem2 file2 where
  bytes := ⟨0x0009, SampleB2.bof, [], .biff2 0x10 0 [7, 7] (by decide) (by decide), (List.append_nil _).symm⟩
  ok := {
    codes := by
      intro c d h
      simp only [file2, List.mem_cons, B2Head.book.injEq, List.not_mem_nil, or_false] at h
      rcases h with ⟨rfl, _⟩ | ⟨rfl, _⟩ <;> decide
    efonts := no_efonts (by simp [file2])
    free := by
      intro y h
      simp [B2File.headItems, file2] at h
    items := by
      intro y h
      have : y = .integer 0 0 ⟨0, 0, 0⟩ 7 := by simpa [B2File.items, B2File.headItems, file2] using h
      subst this
      simp [B2Item.Ok]
    short := by decide +kernel }

example : ∃ l, openStream env mem2 0 = .ok l ∧ UserNameIs l.book "me ".toList := by
  obtain ⟨l, h⟩ := isSome_opens (env := env) (mem := mem2) (by decide +kernel)
  obtain ⟨k, s, _, hs, hu⟩ := C87_user_name_biff2_partial env mem2 file2 (workbook2 _) [] [.one 0x42 (le16 1252)] me
    ⟨⟨[0x20], rfl⟩, by decide, by intro d h; simp at h⟩ ⟨0x42, le16 1252, List.mem_cons_of_mem _ (List.mem_cons_self ..), by decide⟩ l h
  cases hs
  exact ⟨l, h, hu⟩

/-- A user name, and text in a cell only. -/
def file2t : B2File where
  head := [.book 0x5c (3 :: me ++ [0x20])]
  dim := ⟨0, 1, 0, 1, []⟩
  body := [.label 0 0 ⟨0, 0, 0⟩ "a".toList [0x61] []]
  eof := []
def mem2t : Bytes := encRec 0x0009 SampleB2.bof ++ encRecs file2t.records

theorem workbook2t : B2Workbook (textAt (env.recEnv 21)) mem2t file2t where
  bytes := ⟨0x0009, SampleB2.bof, [], .biff2 0x10 0 [7, 7] (by decide) (by decide), (List.append_nil _).symm⟩
  ok := {
    codes := by
      intro c d h
      simp only [file2t, List.mem_cons, B2Head.book.injEq, List.not_mem_nil, or_false] at h
      rcases h with ⟨rfl, _⟩
      decide
    efonts := no_efonts (by simp [file2t])
    free := by
      intro y h
      simp [B2File.headItems, file2t] at h
    items := by
      intro y h
      have : y = .label 0 0 ⟨0, 0, 0⟩ "a".toList [0x61] [] := by simpa [B2File.items, B2File.headItems, file2t] using h
      subst this
      exact ⟨by decide, by decide, by decide, by decide +kernel⟩
    short := by decide +kernel }

example : ∃ l, openStream env mem2t 0 = .ok l ∧ UserNameIs l.book "me ".toList := by
  obtain ⟨l, h⟩ := isSome_opens (env := env) (mem := mem2t) (by decide +kernel)
  refine ⟨l, h, ?_⟩
  rcases C87_user_name_biff2 env mem2t file2t workbook2t [] [] me ⟨⟨[0x20], rfl⟩, by decide, by intro d h; cases h⟩ l h with ⟨k, s, _, hs, hu⟩ | ⟨hn, _⟩
  · cases hs
    exact hu
  · have : (match openStream env mem2t 0 with | .ok l => l.book.encoding.isSome | .error _ => true) = true := by decide +kernel
    rw [h] at this
    simp only [hn] at this
    cases this

/-- The file without text. -/
example : ∃ l, openStream env mem4r 0 = .ok l ∧ ((∃ k s, k ≤ 0 ∧ env.codec (textEncoding 40 env.override (lastCodepage ([] ++ ([] : List GItem).take k))) me = .ok s ∧
    UserNameIs l.book (env.rstrip s)) ∨
    (l.book.encoding = none ∧ ∃ tail, file4r.book = [] ++ userRecord me tail :: [] ∧ l.book.rawUser = some (UInt8.ofNat me.length :: me ++ tail))) := by
  obtain ⟨l, h⟩ := isSome_opens (env := env) (mem := mem4r) (by decide +kernel)
  exact ⟨l, h, C87_user_name_old env 40 mem4r file4r (workbook4r _) [] [] me ⟨⟨[0x20], rfl⟩, by decide, by intro d h; cases h⟩ l h⟩

/-! ## A BIFF4 workbook -/

def part4w : SheetPart where
  before := [userRecord me [0x20], .one 0x42 [0xe4, 4], .one 0x8e [0, 0, 0, 0], .one 0x85 (Sample4w.name "One" ++ [7])]
  name := "One".toList
  text := Sample4w.name "One"
  more := []
  op := 0x0409
  bof := SampleOld.bof
  file := SampleOld.file
  skipped := [1, 2, 3]
def mem4w : Bytes := encRec 0x0409 (le16 0 ++ le16 0x100 ++ [9]) ++ [part4w].flatMap SheetPart.bytes ++ encGlobals [] [] ++ [5, 5]

theorem workbook4w : Biff4w (textAt (env.recEnv 45)) mem4w [part4w] [] where
  bytes := ⟨0x0409, _, [], [5, 5], .biff4w 0 [9] (by decide), by decide, rfl⟩
  parts := by
    intro pre x post h
    rcases pre with _ | ⟨y, ys⟩
    · cases h
      exact {
        items := {
          sized := by unfold GItem.Sized; decide +kernel
          plain := by
            intro it h
            simp only [part4w, List.mem_cons, List.not_mem_nil, or_false] at h
            rcases h with rfl | rfl | rfl | rfl <;> simp [GItem.Plain, userRecord]
          stray := by simp [part4w, NoStrayContinue, userRecord] }
        sst := by intro d m h; simp [part4w, userRecord] at h
        text := Sample4w.field _ "One" rfl (by decide)
        short := by decide +kernel
        length := by decide +kernel
        bof := .biff4 0x10 0 [7, 7] (by decide) (by decide) (by decide)
        file := Sample4w.file1_ok _ }
    · simp at h
  last := ⟨⟨(by intro it h; cases h), (by intro it h; cases h), trivial⟩, by intro d m h; cases h⟩

example : ∃ l, openStream env mem4w 0 = .ok l ∧ UserNameIs l.book "me ".toList := by
  obtain ⟨l, h⟩ := isSome_opens (env := env) (mem := mem4w) (by decide +kernel)
  obtain ⟨k, s, _, hs, hu⟩ := C87_user_name_biff4w env mem4w [part4w] [] workbook4w [] (part4w.before.tail ++ SampleOld.file.book ++ []) me
    ⟨⟨[0x20], rfl⟩, by decide, by intro d h; rw [SampleOld.items] at h; simp [part4w] at h⟩ l h
  cases hs
  exact ⟨l, h, hu⟩

/-- Files without a user name. -/
example : ∀ d, GItem.one 0x5c d ∉ bookOf Sample4w.parts ++ [] := by
  intro d h
  simp [bookOf, Sample4w.parts, SheetPart.book, Sample4w.part1, Sample4w.part2, Sample4w.file2, OldFile.book, SampleOld.file] at h
example : ∀ d, GItem.one 0x5c d ∉ SampleOld.file.book := by rw [SampleOld.items]; simp
example : ∀ d, GItem.one 0x5c d ∉ SampleB2.file1.book := by rw [SampleB2.items1]; simp

end UserFile

/-- The user name of an old file without any text is never decoded: `user_name` is then the bytes of the WRITEACCESS record. -/
theorem C87_user_name_left_raw : ∃ (env : OpenEnv) (file : Bytes) (F : OldFile) (raw tail : Bytes), OldWorkbook 40 (textAt (env.recEnv 40)) file F ∧ F.book = [userRecord raw tail] ∧
    raw.length < 256 ∧ ∃ l, openStream env file 0 = .ok l ∧ l.book.rawUser = some (UInt8.ofNat raw.length :: raw ++ tail) := by
  refine ⟨UserFile.env, UserFile.mem4r, UserFile.file4r, UserFile.me, [0x20], UserFile.workbook4r _, rfl, by decide, ?_⟩
  have h : (match openStream UserFile.env UserFile.mem4r 0 with | .ok l => l.book.rawUser | .error _ => none) = some [3, 0x6d, 0x65, 0x20, 0x20] := by decide +kernel
  cases ho : openStream UserFile.env UserFile.mem4r 0 with
  | ok l => rw [ho] at h; exact ⟨l, rfl, h⟩
  | error e => rw [ho] at h; cases h

end Xlrd
