import Verif.Props.OldFile
import Verif.Props.WorkbookExamples

/-!
# A BIFF4 file that meets the hypotheses of the theorems about old files (C73)
-/
set_option linter.unusedSimpArgs false
namespace Xlrd
open Spec
namespace SampleOld

def xf0 : XF := { isStyle := 1, cellLocked := 1 }
def xf1 : XF := { formatKey := 1, cellLocked := 1, formatFlag := 1 }
def xfData (x : XF) : Bytes := leBytes 12 (packFields (xfFields4 x 0)) ++ []
def fmtData (s : String) : Bytes := [0, 0] ++ (encLen 1 s.toList.length ++ s.toList.map fun c => UInt8.ofNat c.toNat) ++ []

/-- Two formats, two XFs, the 1904 date system, magnification 1/2; a date and a number. -/
def file : OldFile where
  head := [.book 0x41e (fmtData "0"), .book 0x41e (fmtData "d/m/y"), .sheet (.zoom 1 2), .book 0x443 (xfData xf0), .book 0x443 (xfData xf1), .book 0x22 [1, 0]]
  dim := ⟨0, 2, 0, 2, [0, 0]⟩
  body := [.cell (.number 0 1 1 ⟨false, 1023, 0⟩ []), .cell (.number 1 0 0 ⟨false, 1024, 0⟩ [])]
  eof := []

def bof : Bytes := le16 0 ++ le16 0x10 ++ [7, 7]
def mem : Bytes := encRec 0x0409 bof ++ encRecs (file.records 40) ++ [3]
def env : OpenEnv := SampleFile.env false

theorem items : file.book = [.one 0x41e (fmtData "0"), .one 0x41e (fmtData "d/m/y"), .one 0x443 (xfData xf0), .one 0x443 (xfData xf1), .one 0x22 [1, 0]] := rfl

theorem workbook (dec : List GItem → Bytes → R PyStr) : OldWorkbook 40 dec mem file where
  version := .inr rfl
  bytes := ⟨0x0409, bof, [3], .biff4 0x10 0 [7, 7] (by decide) (by decide) (by decide), rfl⟩
  ok := {
    codes := by
      intro c d h
      simp only [file, List.mem_cons, OldItem.book.injEq, List.not_mem_nil, or_false, reduceCtorEq, false_or] at h
      rcases h with ⟨rfl, _⟩ | ⟨rfl, _⟩ | ⟨rfl, _⟩ | ⟨rfl, _⟩ | ⟨rfl, _⟩ <;> decide
    settings := by
      intro y h
      have : y = .zoom 1 2 := by simpa [OldFile.settings, file] using h
      subst this; rfl
    items := by
      intro y h
      have : y = .zoom 1 2 ∨ y = .cell (.number 0 1 1 ⟨false, 1023, 0⟩ []) ∨ y = .cell (.number 1 0 0 ⟨false, 1024, 0⟩ []) := by
        simpa [OldFile.settings, file] using h
      rcases this with rfl | rfl | rfl
      · exact ⟨by simp [SheetItem.Ok], by rintro c d h; cases h⟩
      · exact ⟨by simp [SheetItem.Ok, CellRec.Ok, B64.Ok], by rintro c d h; cases h⟩
      · exact ⟨by simp [SheetItem.Ok, CellRec.Ok, B64.Ok], by rintro c d h; cases h⟩
    styles := by
      intro pre d post h
      have : OldItem.book 0x293 d ∈ file.head := by rw [h]; simp
      simp [file] at this
    short := by decide +kernel }

theorem opens : ∃ l, openStream env mem 0 = .ok l := by
  cases h : openStream env mem 0 with
  | ok l => exact ⟨l, rfl⟩
  | error e =>
    have : (openStream env mem 0).toOption.isSome = true := by decide +kernel
    rw [h] at this; cases this

theorem fmtRecord (dec : Bytes → R PyStr) (s : String) (h : dec (s.toList.map fun c => UInt8.ofNat c.toNat) = .ok s.toList) (hl : s.toList.length < 256) :
    OldFormatRecord 40 dec s.toList (fmtData s) := by
  refine ⟨[0, 0], _, [], rfl, ?_, rfl⟩
  have := TextField.older (bv := 40) (dec := dec) (l := 1) (s := s.toList) (s.toList.map fun c => UInt8.ofNat c.toNat) (by decide) h (by simpa using hl)
  rw [List.length_map] at this
  exact this

theorem formats0 : OldFormats 40 (textAt (env.recEnv 40)) [.one 0x41e (fmtData "0"), .one 0x41e (fmtData "d/m/y")] ["0".toList, "d/m/y".toList] := by
  have h0 : OldFormats 40 (textAt (env.recEnv 40)) [.one 0x41e (fmtData "0")] ["0".toList] :=
    Collected.take (pre := []) (xs := []) .nil rfl (fmtRecord _ "0" rfl (by decide))
  exact Collected.take (pre := [_]) (xs := [_]) h0 rfl (fmtRecord _ "d/m/y" rfl (by decide))

theorem formats : OldFormats 40 (textAt (env.recEnv 40)) file.book ["0".toList, "d/m/y".toList] := by
  rw [items]
  refine Collected.skip (pre := [_, _, _, _]) (Collected.skip (pre := [_, _, _]) (Collected.skip (pre := [_, _]) formats0 ?_) ?_) ?_ <;>
    (rintro c d h; cases h; decide)

theorem xfs : OldXfs 40 (textAt (env.recEnv 40)) file.book [xf0, xf1] := by
  rw [items]
  have h0 : OldXfs 40 (textAt (env.recEnv 40)) [.one 0x41e (fmtData "0"), .one 0x41e (fmtData "d/m/y")] [] := by
    refine Collected.skip (pre := [_]) (Collected.skip (pre := []) .nil ?_) ?_ <;> (rintro c d h; cases h; decide)
  have h1 := Collected.take (pre := [_, _]) (xs := []) (c := 0x443) (d := xfData xf0) (x := xf0) h0 rfl
    ⟨xf0, _, .biff4 40 (.inl rfl) 0 [] (by unfold FieldsFit; decide) (by unfold IsOrientation; decide) (by unfold NoBiff8Attributes; decide), formats0, rfl⟩
  have f1 : OldFormats 40 (textAt (env.recEnv 40)) [.one 0x41e (fmtData "0"), .one 0x41e (fmtData "d/m/y"), .one 0x443 (xfData xf0)] ["0".toList, "d/m/y".toList] := by
    refine Collected.skip (pre := [_, _]) formats0 ?_
    rintro c d h; cases h; decide
  have h2 := Collected.take (pre := [_, _, _]) (xs := [_]) (c := 0x443) (d := xfData xf1) (x := xf1) h1 rfl
    ⟨xf1, _, .biff4 40 (.inl rfl) 0 [] (by unfold FieldsFit; decide) (by unfold IsOrientation; decide) (by unfold NoBiff8Attributes; decide), f1, rfl⟩
  exact Collected.skip (pre := [_, _, _, _]) h2 (by rintro c d h; cases h; decide)

/-- The theorems apply. -/
example : ∃ l sh, openStream env mem 0 = .ok l ∧ (sheetByIndex env l 0).1 = .ok sh ∧ sh.name = "Sheet 1".toList ∧ l.book.datemode = 1 ∧
    sh.st.store.cellType 0 1 = .ok XL_CELL_DATE ∧ sh.st.store.cellType 1 0 = .ok XL_CELL_NUMBER ∧ sh.st.store.nrows = 2 := by
  obtain ⟨l, hl⟩ := opens
  obtain ⟨sh, h1, _, _, h4, _, _⟩ := C73_one_sheet env 40 mem file (workbook _) l hl
  have hd := C73_settings env 40 mem file (workbook _) l hl [1] (by
    rw [items]
    refine Collected.take (pre := [_, _, _, _]) (xs := []) ?_ rfl ⟨by decide, [], rfl⟩
    refine Collected.skip (pre := [_, _, _]) (Collected.skip (pre := [_, _]) (Collected.skip (pre := [_]) (Collected.skip (pre := []) .nil ?_) ?_) ?_) ?_ <;>
      (rintro c d h; cases h; decide)) [] (by
    rw [items]
    refine Collected.skip (pre := [_, _, _, _]) (Collected.skip (pre := [_, _, _]) (Collected.skip (pre := [_, _]) (Collected.skip (pre := [_]) (Collected.skip (pre := []) .nil ?_) ?_) ?_) ?_) ?_ <;>
      (rintro c d h; cases h; decide))
  obtain ⟨tm, t1, t2, t3, t4⟩ := C73_cell_partial env rfl 40 mem file (workbook _) _ formats (by decide) _ xfs l hl [] sh h4
  have e1 : sh.st.store.nrows = 2 := t2
  have e2 : sh.st.store.ncols = 2 := t3
  obtain ⟨s1, q1, q2, q3⟩ := t1 1 xf1 rfl
  obtain ⟨s0, p1, p2, p3⟩ := t1 0 xf0 rfl
  cases q1
  cases p1
  have k1 : sh.st.store.cellType 0 1 = _ := ((t4 0 1).1 ⟨by omega, by omega⟩).1
  have k0 : sh.st.store.cellType 1 0 = _ := ((t4 1 0).1 ⟨by omega, by omega⟩).1
  refine ⟨l, sh, hl, h4, h1, hd.1, ?_, ?_, e1⟩
  · rw [k1]
    have : (cellAt tm (cellsOf fl env.fi [] file.layout.items) 0 1).ty = (tm ((1 : Nat) : Int)).getD 0 := rfl
    rw [this, q2 ((isDate_spec _).mp (by decide +kernel))]
    rfl
  · rw [k0]
    have : (cellAt tm (cellsOf fl env.fi [] file.layout.items) 1 0).ty = (tm ((0 : Nat) : Int)).getD 0 := rfl
    rw [this, p3 (fun h => absurd ((isDate_spec _).mpr h) (by decide +kernel))]
    rfl

end SampleOld
end Xlrd
