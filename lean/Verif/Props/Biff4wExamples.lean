import Verif.Props.Biff4w
import Verif.Props.OldFileExamples

/-!
# A BIFF4 workbook with two sheets that meets the hypotheses (C76)
-/
set_option linter.unusedSimpArgs false
namespace Xlrd
open Spec
namespace Sample4w
open SampleOld (xf0 xf1 xfData fmtData env)

/-- The second sheet has the same formats in the other order, and its one XF has the same number and the same format number as the first XF of the first sheet. -/
def file2 : OldFile where
  head := [.book 0x41e (fmtData "d/m/y"), .book 0x443 (xfData xf0)]
  dim := ⟨0, 1, 0, 1, [0, 0]⟩
  body := [.cell (.number 0 0 0 ⟨false, 1023, 0⟩ [])]
  eof := []

def name (s : String) : Bytes := encLen 1 s.toList.length ++ s.toList.map fun c => UInt8.ofNat c.toNat

def part1 : SheetPart where
  before := [.one 0x42 [0xe4, 4], .one 0x8e [0, 0, 0, 0], .one 0x85 (name "One" ++ [7]), .one 0x85 (name "Two" ++ [])]
  name := "One".toList
  text := name "One"
  more := []
  op := 0x0409
  bof := SampleOld.bof
  file := SampleOld.file
  skipped := [1, 2, 3]

def part2 : SheetPart where
  before := []
  name := "Two".toList
  text := name "Two"
  more := [0, 0]
  op := 0x0409
  bof := SampleOld.bof
  file := file2
  skipped := []

def parts : List SheetPart := [part1, part2]
def mem : Bytes := encRec 0x0409 (le16 0 ++ le16 0x100 ++ [9]) ++ parts.flatMap SheetPart.bytes ++ encGlobals [] [] ++ [5, 5]

theorem field (dec : Bytes → R PyStr) (s : String) (h : dec (s.toList.map fun c => UInt8.ofNat c.toNat) = .ok s.toList) (hl : s.toList.length < 256) :
    TextField 45 dec 1 s.toList (name s) := by
  have := TextField.older (bv := 45) (dec := dec) (l := 1) (s := s.toList) (s.toList.map fun c => UInt8.ofNat c.toNat) (by decide) h (by simpa using hl)
  rw [List.length_map] at this
  exact this

theorem file1_ok (dec : Bytes → R PyStr) : SampleOld.file.Ok 45 dec [] where
  codes := by
    intro c d h
    simp only [SampleOld.file, List.mem_cons, OldItem.book.injEq, List.not_mem_nil, or_false, reduceCtorEq, false_or] at h
    rcases h with ⟨rfl, _⟩ | ⟨rfl, _⟩ | ⟨rfl, _⟩ | ⟨rfl, _⟩ | ⟨rfl, _⟩ <;> decide
  settings := (SampleOld.workbook fun _ _ => .error .unicode).ok.settings
  items := by
    intro y h
    have : y = .zoom 1 2 ∨ y = .cell (.number 0 1 1 ⟨false, 1023, 0⟩ []) ∨ y = .cell (.number 1 0 0 ⟨false, 1024, 0⟩ []) := by
      simpa [OldFile.settings, SampleOld.file] using h
    rcases this with rfl | rfl | rfl
    · exact ⟨by simp [SheetItem.Ok], by rintro c d h; cases h⟩
    · exact ⟨by simp [SheetItem.Ok, CellRec.Ok, B64.Ok], by rintro c d h; cases h⟩
    · exact ⟨by simp [SheetItem.Ok, CellRec.Ok, B64.Ok], by rintro c d h; cases h⟩
  styles := by
    intro pre d post h
    have : OldItem.book 0x293 d ∈ SampleOld.file.head := by rw [h]; simp
    simp [SampleOld.file] at this
  short := by decide +kernel

theorem file2_ok (dec : Bytes → R PyStr) : file2.Ok 45 dec [] where
  codes := by
    intro c d h
    simp only [file2, List.mem_cons, OldItem.book.injEq, List.not_mem_nil, or_false, reduceCtorEq, false_or] at h
    rcases h with ⟨rfl, _⟩ | ⟨rfl, _⟩ <;> decide
  settings := by
    intro y h
    simp [OldFile.settings, file2] at h
  items := by
    intro y h
    have : y = .cell (.number 0 0 0 ⟨false, 1023, 0⟩ []) := by
      simpa [OldFile.settings, file2] using h
    subst this
    exact ⟨by simp [SheetItem.Ok, CellRec.Ok, B64.Ok], by rintro c d h; cases h⟩
  styles := by
    intro pre d post h
    have : OldItem.book 0x293 d ∈ file2.head := by rw [h]; simp
    simp [file2] at this
  short := by decide +kernel

theorem workbook : Biff4w (textAt (env.recEnv 45)) mem parts [] where
  bytes := ⟨0x0409, _, [], [5, 5], .biff4w 0 [9] (by decide), by decide, rfl⟩
  parts := by
    intro pre x post h
    rcases pre with _ | ⟨y, _ | ⟨z, zs⟩⟩
    · cases h
      exact {
        items := {
          sized := by unfold GItem.Sized; decide +kernel
          plain := by
            intro it h
            simp only [part1, List.mem_cons, List.not_mem_nil, or_false] at h
            rcases h with rfl | rfl | rfl | rfl <;> simp [GItem.Plain]
          stray := by simp [part1, NoStrayContinue] }
        sst := by intro d m h; simp [part1] at h
        text := field _ "One" rfl (by decide)
        short := by decide +kernel
        length := by decide +kernel
        bof := .biff4 0x10 0 [7, 7] (by decide) (by decide) (by decide)
        file := file1_ok _ }
    · cases h
      exact {
        items := ⟨(by intro it h; cases h), (by intro it h; cases h), trivial⟩
        sst := by intro d m h; cases h
        text := field _ "Two" rfl (by decide)
        short := by decide +kernel
        length := by decide +kernel
        bof := .biff4 0x10 0 [7, 7] (by decide) (by decide) (by decide)
        file := file2_ok _ }
    · simp [parts] at h
  last := ⟨⟨(by intro it h; cases h), (by intro it h; cases h), trivial⟩, by intro d m h; cases h⟩

theorem opens : ∃ l, openStream env mem 0 = .ok l := by
  cases h : openStream env mem 0 with
  | ok l => exact ⟨l, rfl⟩
  | error e =>
    have : (openStream env mem 0).toOption.isSome = true := by decide +kernel
    rw [h] at this; cases this

theorem names : SheetNames4 (textAt (env.recEnv 45)) (bookOf parts ++ []) ["One".toList, "Two".toList] := by
  have hb : bookOf parts ++ [] = part1.before ++ (SampleOld.file.book ++ file2.book) := rfl
  rw [hb]
  have skips : ∀ (its : List GItem) {pre : List GItem} {xs : List PyStr}, SheetNames4 (textAt (env.recEnv 45)) pre xs → (∀ it ∈ its, ∀ c d, it = .one c d → c ≠ 0x85) →
      SheetNames4 (textAt (env.recEnv 45)) (pre ++ its) xs := by
    intro its
    induction its with
    | nil => intro pre xs h _; simpa using h
    | cons it its ih =>
      intro pre xs h hn
      have := ih (Collected.skip (it := it) h (fun c d e => hn it (List.mem_cons_self ..) c d e)) fun i hi => hn i (List.mem_cons_of_mem _ hi)
      simpa using this
  refine skips _ ?_ ?_
  · have h0 : SheetNames4 (textAt (env.recEnv 45)) [.one 0x42 [0xe4, 4], .one 0x8e [0, 0, 0, 0]] [] :=
      Collected.skip (pre := [_]) (Collected.skip (pre := []) .nil (by rintro c d h; cases h; decide)) (by rintro c d h; cases h; decide)
    have h1 := h0.take (c := 0x85) rfl ⟨name "One", [7], field _ "One" rfl (by decide), rfl⟩
    exact h1.take (c := 0x85) rfl ⟨name "Two", [], field _ "Two" rfl (by decide), rfl⟩
  · rw [SampleOld.items, show file2.book = [.one 0x41e (fmtData "d/m/y"), .one 0x443 (xfData xf0)] from rfl]
    intro it hi c d e
    simp only [List.mem_append, List.mem_cons, List.not_mem_nil, or_false] at hi
    rcases hi with (rfl | rfl | rfl | rfl | rfl) | rfl | rfl <;> (cases e; decide)

abbrev dec1 (its : List GItem) : Bytes → R PyStr := textAt (env.recEnv 45) (bookOf [] ++ part1.before ++ its)
abbrev dec2 (its : List GItem) : Bytes → R PyStr := textAt (env.recEnv 45) (bookOf [part1] ++ part2.before ++ its)

theorem fmtRecord (dec : Bytes → R PyStr) (s : String) (h : dec (s.toList.map fun c => UInt8.ofNat c.toNat) = .ok s.toList) (hl : s.toList.length < 256) :
    OldFormatRecord 45 dec s.toList (fmtData s) := ⟨[0, 0], _, [], rfl, field dec s h hl, rfl⟩

theorem formats0 : OldFormats 45 dec1 [.one 0x41e (fmtData "0"), .one 0x41e (fmtData "d/m/y")] ["0".toList, "d/m/y".toList] := by
  have h0 : OldFormats 45 dec1 [.one 0x41e (fmtData "0")] ["0".toList] :=
    Collected.take (pre := []) (xs := []) .nil rfl (fmtRecord _ "0" rfl (by decide))
  exact Collected.take (pre := [_]) (xs := [_]) h0 rfl (fmtRecord _ "d/m/y" rfl (by decide))

theorem formats1 : OldFormats 45 dec1 part1.file.book ["0".toList, "d/m/y".toList] := by
  show OldFormats 45 dec1 SampleOld.file.book _
  rw [SampleOld.items]
  refine Collected.skip (pre := [_, _, _, _]) (Collected.skip (pre := [_, _, _]) (Collected.skip (pre := [_, _]) formats0 ?_) ?_) ?_ <;>
    (rintro c d h; cases h; decide)

theorem xfs1 : SheetXfs dec1 part1.file.book [xf0, xf1] := by
  show SheetXfs dec1 SampleOld.file.book _
  rw [SampleOld.items]
  have h0 : SheetXfs dec1 [.one 0x41e (fmtData "0"), .one 0x41e (fmtData "d/m/y")] [] := by
    refine Collected.skip (pre := [_]) (Collected.skip (pre := []) .nil ?_) ?_ <;> (rintro c d h; cases h; decide)
  have h1 := Collected.take (pre := [_, _]) (xs := []) (c := 0x443) (d := xfData xf0) (x := xf0) h0 rfl
    ⟨.biff4 45 (.inr rfl) 0 [] (by unfold FieldsFit; decide) (by unfold IsOrientation; decide) (by unfold NoBiff8Attributes; decide), _, formats0, by decide⟩
  have f1 : OldFormats 45 dec1 [.one 0x41e (fmtData "0"), .one 0x41e (fmtData "d/m/y"), .one 0x443 (xfData xf0)] ["0".toList, "d/m/y".toList] := by
    refine Collected.skip (pre := [_, _]) formats0 ?_
    rintro c d h; cases h; decide
  have h2 := Collected.take (pre := [_, _, _]) (xs := [_]) (c := 0x443) (d := xfData xf1) (x := xf1) h1 rfl
    ⟨.biff4 45 (.inr rfl) 0 [] (by unfold FieldsFit; decide) (by unfold IsOrientation; decide) (by unfold NoBiff8Attributes; decide), _, f1, by decide⟩
  exact Collected.skip (pre := [_, _, _, _]) h2 (by rintro c d h; cases h; decide)

theorem formats20 : OldFormats 45 dec2 [.one 0x41e (fmtData "d/m/y")] ["d/m/y".toList] :=
  Collected.take (pre := []) (xs := []) .nil rfl (fmtRecord _ "d/m/y" rfl (by decide))

theorem formats2 : OldFormats 45 dec2 part2.file.book ["d/m/y".toList] :=
  Collected.skip (pre := [_]) formats20 (by rintro c d h; cases h; decide)

theorem xfs2 : SheetXfs dec2 part2.file.book [xf0] :=
  Collected.take (pre := [_]) (xs := []) (c := 0x443) (d := xfData xf0) (x := xf0) (Collected.skip (pre := []) .nil (by rintro c d h; cases h; decide)) rfl
    ⟨.biff4 45 (.inr rfl) 0 [] (by unfold FieldsFit; decide) (by unfold IsOrientation; decide) (by unfold NoBiff8Attributes; decide), _, formats20, by decide⟩

/-- The theorems apply: XF 0 gives numbers in the first sheet and dates in the second. -/
example : ∃ l sh1 sh2, openStream env mem 0 = .ok l ∧ l.book.sheetNames = ["One".toList, "Two".toList] ∧
    (sheetByIndex env l 0).1 = .ok sh1 ∧ (sheetByIndex env l 1).1 = .ok sh2 ∧ sh1.name = "One".toList ∧ sh2.name = "Two".toList ∧
    sh1.st.store.cellType 0 1 = .ok XL_CELL_DATE ∧ sh1.st.store.cellType 1 0 = .ok XL_CELL_NUMBER ∧ sh2.st.store.cellType 0 0 = .ok XL_CELL_DATE ∧
    (l.book.fmt.formatMap 0).bind (·.str) = some "d/m/y".toList ∧ l.book.fmt.xfList.length = 1 := by
  obtain ⟨l, hl⟩ := opens
  obtain ⟨shs, f, h1, h2, h3, h4, h5⟩ := w_sheets workbook hl names
  have hlen : shs.length = 2 := h1.length
  obtain ⟨sh1, sh2, rfl⟩ := List.length_eq_two.mp hlen
  have r1 : (sheetByIndex env l 0).1 = .ok sh1 := by unfold sheetByIndex; rw [h3]; rfl
  have r2 : (sheetByIndex env l 1).1 = .ok sh2 := by unfold sheetByIndex; rw [h3]; rfl
  obtain ⟨tm, t1, t2, t3, t4⟩ := C76_cell_partial env rfl mem parts [] workbook l hl _ names rfl [] part1 [part2] rfl _ formats1 _ xfs1 [] sh1 r1
  obtain ⟨um, u1, u2, u3, u4⟩ := C76_cell_partial env rfl mem parts [] workbook l hl _ names rfl [part1] part2 [] rfl _ formats2 _ xfs2 [] sh2 r2
  have n1 := (C76_sheet env mem parts [] workbook l hl _ names rfl [] part1 [part2] rfl [] sh1 r1).1
  have n2 := (C76_sheet env mem parts [] workbook l hl _ names rfl [part1] part2 [] rfl [] sh2 r2).1
  obtain ⟨g1, g2, _⟩ := C76_last_formatting env mem [part1] part2 [] workbook (by intro c d h; cases h) l hl _ formats2 _ (sheetXfs_old xfs2)
  have e1 : sh1.st.store.nrows = 2 := t2
  have e2 : sh1.st.store.ncols = 2 := t3
  have e3 : sh2.st.store.nrows = 1 := u2
  have e4 : sh2.st.store.ncols = 1 := u3
  obtain ⟨s1, q1, q2, q3⟩ := t1 1 xf1 rfl
  obtain ⟨s0, p1, p2, p3⟩ := t1 0 xf0 rfl
  obtain ⟨s2, o1, o2, o3⟩ := u1 0 xf0 rfl
  cases q1
  cases p1
  cases o1
  have k1 : sh1.st.store.cellType 0 1 = _ := ((t4 0 1).1 ⟨by omega, by omega⟩).1
  have k0 : sh1.st.store.cellType 1 0 = _ := ((t4 1 0).1 ⟨by omega, by omega⟩).1
  have k2 : sh2.st.store.cellType 0 0 = _ := ((u4 0 0).1 ⟨by omega, by omega⟩).1
  refine ⟨l, sh1, sh2, hl, h2, r1, r2, n1, n2, ?_, ?_, ?_, g1 0, g2⟩
  · rw [k1]
    have : (cellAt tm (cellsOf fl env.fi [] part1.file.layout.items) 0 1).ty = (tm ((1 : Nat) : Int)).getD 0 := rfl
    rw [this, q2 ((isDate_spec _).mp (by decide +kernel))]
    rfl
  · rw [k0]
    have : (cellAt tm (cellsOf fl env.fi [] part1.file.layout.items) 1 0).ty = (tm ((0 : Nat) : Int)).getD 0 := rfl
    rw [this, p3 (fun h => absurd ((isDate_spec _).mpr h) (by decide +kernel))]
    rfl
  · rw [k2]
    have : (cellAt um (cellsOf fl env.fi [] part2.file.layout.items) 0 0).ty = (um ((0 : Nat) : Int)).getD 0 := rfl
    rw [this, o2 ((isDate_spec _).mp (by decide +kernel))]
    rfl

end Sample4w
end Xlrd
