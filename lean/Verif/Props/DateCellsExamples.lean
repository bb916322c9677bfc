import Verif.Props.DateCells
import Verif.Props.WorkbookExamples
import Verif.Props.OldFileExamples
import Verif.Props.Biff2Examples
import Verif.Props.Biff4wExamples

/-!
# Files with dates (C86)
-/
set_option linter.unusedSimpArgs false
namespace Xlrd
open Spec

/-- Serial 36585.75 of the 1900 system and a number that is a third of a second off. -/
example : xldateAsTuple (36585.75 + 1 / 300000) 0 = .ok ⟨2000, 2, 29, 18, 0, 0⟩ := by
  have e : serial false 2000 2 29 = 36585 := by rw [serial_eq false 2000 2 29 (by decide) (by decide)]; decide
  refine C86_number_as_tuple false 2000 2 29 64800 ⟨by decide, by decide, by decide, by rw [e]; decide⟩ (by decide) _ ?_
  unfold NearSecond
  rw [e, abs_lt]
  norm_num

/-- Noon on 1900-02-28. -/
example : xldateAsDatetime 59.5 0 = .ok ⟨ordinal 1900 2 28, 43200000⟩ := by
  have e : serial false 1900 2 28 = 60 := by unfold serial; rw [if_neg (by decide), dayNumber_1900_3_1]; decide +kernel
  refine C86_number_as_early_datetime 2 28 43200000 (by decide) (by decide) (by decide) _ ?_
  unfold NearMillisecond
  rw [e, abs_lt]
  norm_num

namespace DateSample
open SampleFile (bof sheetBof data env sheetRec)
open Sample (xfData xfRec)

def sheetZ : SheetRec := ⟨100, 0, 0, "Z".toList⟩
def xf : XF := { formatKey := 14 }
def items : List GItem := [.one 0x42 [0xb0, 4], .one 0x22 [1, 0], .one 0xe0 (xfData xf), .one 0x85 (data sheetZ "Z")]
/-- The number 1.5, and the number 2 in the cell below. -/
def layout : Layout := ⟨[], none, [.cell (.number 0 0 0 ⟨false, 1023, 2 ^ 51⟩ []), .cell (.rk 1 0 0 (.int 2 false) [])], []⟩
def mem : Bytes :=
  let g := encRec 0x0809 bof ++ encGlobals items []
  g ++ List.replicate (100 - g.length) 0 ++ encRec 0x0809 sheetBof ++ encRecs (layout.records 80)

theorem sheets (dec : List GItem → Bytes → R PyStr) : Sheets 80 dec items [sheetZ] :=
  Collected.take (pre := [_, _, _]) (xs := []) (Collected.skip (pre := [_, _]) (Collected.skip (pre := [_]) (Collected.skip (pre := []) .nil (by rintro c d h; cases h; decide))
    (by rintro c d h; cases h; decide)) (by rintro c d h; cases h; decide)) rfl
    (sheetRec _ sheetZ "Z" rfl (by decide) (by decide) (by decide) (Sample.txt_ok _ (by decide)) (by decide))

theorem stream (dec : List GItem → Bytes → R PyStr) : WorkbookStream 80 dec mem 0 items [sheetZ] where
  bytes := ⟨[], 0x0809, bof, [], mem.drop (encRec 0x0809 bof ++ encGlobals items []).length, rfl, .biff8 5 [1, 2, 3, 4] (by decide) (by decide), by decide, by decide +kernel⟩
  ok := {
    sized := by unfold GItem.Sized; decide +kernel
    plain := by
      intro it h
      simp only [items, List.mem_cons, List.mem_nil_iff, or_false] at h
      rcases h with rfl | rfl | rfl | rfl <;> simp [GItem.Plain]
    stray := by simp [items, NoStrayContinue] }
  sheets := sheets dec

theorem noFormats (dec : List GItem → Bytes → R PyStr) : Formats 80 dec items [] :=
  Collected.skip (pre := [_, _, _]) (Collected.skip (pre := [_, _]) (Collected.skip (pre := [_]) (Collected.skip (pre := []) .nil (by rintro c d h; cases h; decide))
    (by rintro c d h; cases h; decide)) (by rintro c d h; cases h; decide)) (by rintro c d h; cases h; decide)

theorem xfs (dec : List GItem → Bytes → R PyStr) : Xfs 80 dec items [xf] := by
  refine Collected.skip (pre := [_, _, _]) (Collected.take (pre := [_, _]) (xs := []) (Collected.skip (pre := [_]) (Collected.skip (pre := []) .nil (by rintro c d h; cases h; decide))
    (by rintro c d h; cases h; decide)) rfl ⟨xf, [], xfRec _ (by unfold FieldsFit; decide +kernel), ?_, .inl ⟨.inl (.inl (by decide)), rfl⟩⟩) (by rintro c d h; cases h; decide)
  exact Collected.skip (pre := [_]) (Collected.skip (pre := []) .nil (by rintro c d h; cases h; decide)) (by rintro c d h; cases h; decide)

theorem datemodes : Datemodes items [1] :=
  Collected.skip (pre := [_, _, _]) (Collected.skip (pre := [_, _]) (Collected.take (pre := [_]) (xs := []) (Collected.skip (pre := []) .nil (by rintro c d h; cases h; decide)) rfl
    ⟨by decide, [], rfl⟩) (by rintro c d h; cases h; decide)) (by rintro c d h; cases h; decide)

theorem layoutOk (dec : Bytes → R PyStr) (sst : List PyStr) : layout.Ok 80 dec sst := by
  refine ⟨?_, ?_, by decide +kernel⟩
  · intro i hi
    simp only [layout, Layout.items, List.nil_append, List.mem_cons, List.not_mem_nil, or_false] at hi
    rcases hi with rfl | rfl <;> simp [SheetItem.Ok, CellRec.Ok, B64.Ok, Rk.Ok]
  · intro i hi; simp [layout] at hi

theorem sheetAt : SheetAt 80 mem (0 + sheetZ.offset) layout := ⟨80, 0x0809, sheetBof, [], .biff8 0x10 [] (by decide) (by decide), by decide +kernel⟩

theorem opens : ∃ l sh, openStream (env false) mem ((0 : Nat) : Int) = .ok l ∧ (sheetByIndex (env false) (libCalls (env false) l []).2 ((0 : Nat) : Int)).1 = .ok sh := by
  have h1 : (match openStream (env false) mem ((0 : Nat) : Int) with
      | .ok l => (sheetByIndex (env false) (libCalls (env false) l []).2 ((0 : Nat) : Int)).1.toOption.isSome
      | .error _ => false) = true := by decide +kernel
  cases h2 : openStream (env false) mem ((0 : Nat) : Int) with
  | error e => rw [h2] at h1; cases h1
  | ok l =>
    rw [h2] at h1
    cases h3 : (sheetByIndex (env false) (libCalls (env false) l []).2 ((0 : Nat) : Int)).1 with
    | ok sh => exact ⟨l, sh, rfl, h3⟩
    | error e => simp only [h3] at h1; cases h1

theorem noStrings : SharedStrings items [] := .without _ (by intro d more h; simp [items] at h)

/-- The cell with 1.5 is a date, noon on 1904-01-02. -/
example : ∃ l sh, openStream (env false) mem 0 = .ok l ∧ (sheetByIndex (env false) l 0).1 = .ok sh ∧ sh.st.store.cellType 0 0 = .ok XL_CELL_DATE ∧
    sh.st.store.cellValue 0 0 = .ok (.num (.fin (3 / 2))) ∧ xldateAsTuple (3 / 2) l.book.datemode = .ok ⟨1904, 1, 2, 12, 0, 0⟩ := by
  obtain ⟨l, sh, h1, h2⟩ := opens
  have hv : (⟨false, 1023, 2 ^ 51⟩ : B64).value = .fin (3 / 2) := by
    unfold B64.value
    norm_num
  have hs := C86_date_cell (env false) rfl 80 (by decide) mem 0 items _ (stream _) [] (noFormats _) _ (xfs _) [] noStrings _ datemodes l h1 0 sheetZ rfl layout sheetAt (layoutOk _ _) []
    sh h2 0 0 0 (3 / 2) (by rw [← hv]; rfl) xf rfl (by unfold DateKey; exact .inl (by decide))
  have e : serial true 1904 1 2 = 1 := by rw [serial_eq true 1904 1 2 (by decide) (by decide)]; decide
  refine ⟨l, sh, h1, h2, hs.type, hs.value, hs.tuple 1904 1 2 43200 ⟨by decide, by decide, by decide, ?_⟩ (by decide) ?_⟩
  · show firstSerial true ≤ serial true 1904 1 2
    rw [e]; decide
  · show NearSecond (3 / 2) (serial true 1904 1 2) 43200
    unfold NearSecond
    rw [e, abs_lt]
    norm_num

theorem one_value : (⟨false, 1023, 0⟩ : B64).value = .fin 1 := by
  unfold B64.value
  norm_num

theorem near_one : NearSecond 1 (serial true 1904 1 2) 0 ∧ Day true 1904 1 2 := by
  have e : serial true 1904 1 2 = 1 := by rw [serial_eq true 1904 1 2 (by decide) (by decide)]; decide
  refine ⟨?_, by decide, by decide, by decide, by rw [e]; decide⟩
  unfold NearSecond
  rw [e, abs_lt]
  norm_num

/-- The date in the BIFF4 file. -/
example : ∃ l sh, openStream SampleOld.env SampleOld.mem 0 = .ok l ∧ (sheetByIndex SampleOld.env l 0).1 = .ok sh ∧ sh.st.store.cellType 0 1 = .ok XL_CELL_DATE ∧
    xldateAsTuple 1 l.book.datemode = .ok ⟨1904, 1, 2, 0, 0, 0⟩ := by
  obtain ⟨l, hl⟩ := SampleOld.opens
  obtain ⟨sh, _, _, _, h4, _, _⟩ := C73_one_sheet SampleOld.env 40 SampleOld.mem SampleOld.file (SampleOld.workbook _) l hl
  have hs := C86_date_cell_old SampleOld.env rfl 40 SampleOld.mem SampleOld.file (SampleOld.workbook _) _ SampleOld.formats (by decide) _ SampleOld.xfs [1] (by
    rw [SampleOld.items]
    refine Collected.take (pre := [_, _, _, _]) (xs := []) ?_ rfl ⟨by decide, [], rfl⟩
    refine Collected.skip (pre := [_, _, _]) (Collected.skip (pre := [_, _]) (Collected.skip (pre := [_]) (Collected.skip (pre := []) .nil ?_) ?_) ?_) ?_ <;>
      (rintro c d h; cases h; decide)) [] (by
    rw [SampleOld.items]
    refine Collected.skip (pre := [_, _, _, _]) (Collected.skip (pre := [_, _, _]) (Collected.skip (pre := [_, _]) (Collected.skip (pre := [_]) (Collected.skip (pre := []) .nil ?_) ?_) ?_) ?_) ?_ <;>
      (rintro c d h; cases h; decide)) l hl [] sh h4 0 1 1 1 (by rw [← one_value]; rfl) SampleOld.xf1 rfl
    (by intro s h; cases h; exact (isDate_spec _).mp (by decide +kernel))
  exact ⟨l, sh, hl, h4, hs.type, hs.tuple 1904 1 2 0 near_one.2 (by decide) near_one.1⟩

/-- The date in the BIFF2 file. -/
example : ∃ l sh, openStream SampleB2.env SampleB2.mem1 0 = .ok l ∧ (sheetByIndex SampleB2.env l 0).1 = .ok sh ∧ sh.st.store.cellType 1 0 = .ok XL_CELL_DATE ∧
    xldateAsTuple 1 l.book.datemode = .ok ⟨1904, 1, 2, 0, 0, 0⟩ := by
  obtain ⟨l, hl⟩ := SampleB2.opens1
  obtain ⟨sh, _, _, _, h4, _, _⟩ := C74_one_sheet SampleB2.env SampleB2.mem1 SampleB2.file1 (SampleB2.workbook1 _) l hl
  have hs := C86_date_cell_biff2 SampleB2.env rfl SampleB2.mem1 SampleB2.file1 (SampleB2.workbook1 _) _ SampleB2.formats1 (by decide) _ SampleB2.xfs1 (by decide) [1] (by
    rw [SampleB2.items1]
    refine Collected.take (pre := [_, _, _, _]) (xs := []) ?_ rfl ⟨by decide, [], rfl⟩
    refine Collected.skip (pre := [_, _, _]) (Collected.skip (pre := [_, _]) (Collected.skip (pre := [_]) (Collected.skip (pre := []) .nil ?_) ?_) ?_) ?_ <;>
      (rintro c d h; cases h; decide)) [] (by
    rw [SampleB2.items1]
    refine Collected.skip (pre := [_, _, _, _]) (Collected.skip (pre := [_, _, _]) (Collected.skip (pre := [_, _]) (Collected.skip (pre := [_]) (Collected.skip (pre := []) .nil ?_) ?_) ?_) ?_) ?_ <;>
      (rintro c d h; cases h; decide)) l hl [] sh h4 1 0 1 1 (by rw [← one_value]; rfl) SampleB2.xf1 rfl
    (by intro s h; cases h; exact (isDate_spec _).mp (by decide +kernel))
  exact ⟨l, sh, hl, h4, hs.type, hs.tuple 1904 1 2 0 near_one.2 (by decide) near_one.1⟩

/-- The date in the BIFF2 file without XF records. -/
example : ∃ l sh, openStream SampleB2.env SampleB2.mem2 0 = .ok l ∧ (sheetByIndex SampleB2.env l 0).1 = .ok sh ∧ sh.st.store.cellType 1 0 = .ok XL_CELL_DATE ∧
    xldateAsTuple 1 l.book.datemode = .ok ⟨1904, 1, 2, 0, 0, 0⟩ := by
  obtain ⟨l, hl⟩ := SampleB2.opens2
  obtain ⟨sh, _, _, _, h4, _, _⟩ := C74_one_sheet SampleB2.env SampleB2.mem2 SampleB2.file2 (SampleB2.workbook2 _) l hl
  have hs := C86_date_cell_attributes SampleB2.env rfl SampleB2.mem2 SampleB2.file2 (SampleB2.workbook2 _) _ SampleB2.formats2 SampleB2.xfs2 [1] (by
    rw [SampleB2.items2]
    refine Collected.take (pre := [_, _]) (xs := []) ?_ rfl ⟨by decide, [], rfl⟩
    refine Collected.skip (pre := [_]) (Collected.skip (pre := []) .nil ?_) ?_ <;>
      (rintro c d h; cases h; decide)) [] (by
    rw [SampleB2.items2]
    refine Collected.skip (pre := [_, _]) (Collected.skip (pre := [_]) (Collected.skip (pre := []) .nil ?_) ?_) ?_ <;>
      (rintro c d h; cases h; decide)) l hl [] sh h4 1 0 ⟨64, 1, 8⟩ (by decide) 1 (by rw [← one_value]; rfl) "d/m/y".toList rfl ((isDate_spec _).mp (by decide +kernel))
  exact ⟨l, sh, hl, h4, hs.type, hs.tuple 1904 1 2 0 near_one.2 (by decide) near_one.1⟩

/-- The date on the first sheet of the BIFF4 workbook. -/
example : ∃ l sh, openStream SampleOld.env Sample4w.mem 0 = .ok l ∧ (sheetByIndex SampleOld.env l 0).1 = .ok sh ∧ sh.st.store.cellType 0 1 = .ok XL_CELL_DATE ∧
    xldateAsTuple 1 l.book.datemode = .ok ⟨1904, 1, 2, 0, 0, 0⟩ := by
  obtain ⟨l, hl⟩ := Sample4w.opens
  obtain ⟨shs, f, h1, h2, h3, h4, h5⟩ := w_sheets Sample4w.workbook hl Sample4w.names
  have hlen : shs.length = 2 := h1.length
  obtain ⟨sh1, sh2, rfl⟩ := List.length_eq_two.mp hlen
  have r1 : (sheetByIndex SampleOld.env l 0).1 = .ok sh1 := by unfold sheetByIndex; rw [h3]; rfl
  have hb : bookOf Sample4w.parts ++ [] = Sample4w.part1.before ++ SampleOld.file.book ++ Sample4w.file2.book := rfl
  have hs := C86_date_cell_biff4w SampleOld.env rfl Sample4w.mem Sample4w.parts [] Sample4w.workbook l hl _ Sample4w.names rfl [] Sample4w.part1 [Sample4w.part2] rfl _ Sample4w.formats1 _ Sample4w.xfs1 [1] (by
    rw [hb, SampleOld.items]
    refine Collected.skip (pre := [_, _, _, _, _, _, _, _, _, _]) (Collected.skip (pre := [_, _, _, _, _, _, _, _, _]) (Collected.take (pre := [_, _, _, _, _, _, _, _]) (xs := []) ?_ rfl ⟨by decide, [], rfl⟩) ?_) ?_
    · refine Collected.skip (pre := [_, _, _, _, _, _, _]) (Collected.skip (pre := [_, _, _, _, _, _]) (Collected.skip (pre := [_, _, _, _, _]) (Collected.skip (pre := [_, _, _, _])
        (Collected.skip (pre := [_, _, _]) (Collected.skip (pre := [_, _]) (Collected.skip (pre := [_]) (Collected.skip (pre := []) .nil ?_) ?_) ?_) ?_) ?_) ?_) ?_) ?_ <;>
        (rintro c d h; cases h; decide)
    all_goals (rintro c d h; cases h; decide)) [] (by
    rw [hb, SampleOld.items]
    refine Collected.skip (pre := [_, _, _, _, _, _, _, _, _, _]) (Collected.skip (pre := [_, _, _, _, _, _, _, _, _]) (Collected.skip (pre := [_, _, _, _, _, _, _, _]) ?_ ?_) ?_) ?_
    · refine Collected.skip (pre := [_, _, _, _, _, _, _]) (Collected.skip (pre := [_, _, _, _, _, _]) (Collected.skip (pre := [_, _, _, _, _]) (Collected.skip (pre := [_, _, _, _])
        (Collected.skip (pre := [_, _, _]) (Collected.skip (pre := [_, _]) (Collected.skip (pre := [_]) (Collected.skip (pre := []) .nil ?_) ?_) ?_) ?_) ?_) ?_) ?_) ?_ <;>
        (rintro c d h; cases h; decide)
    all_goals (rintro c d h; cases h; decide)) [] sh1 r1 0 1 1 1 (by rw [← one_value]; rfl) SampleOld.xf1 rfl
    (by intro s h; cases h; exact (isDate_spec _).mp (by decide +kernel))
  exact ⟨l, sh1, hl, r1, hs.type, hs.tuple 1904 1 2 0 near_one.2 (by decide) near_one.1⟩

end DateSample
end Xlrd
