import Verif.Props.Biff2
import Verif.Props.WorkbookExamples

/-!
# BIFF2 files that meet the hypotheses of the theorems about them (C74, C75)
-/
set_option linter.unusedSimpArgs false
namespace Xlrd
open Spec
namespace SampleB2

def fmtData (s : String) : Bytes := [] ++ (encLen 1 s.toList.length ++ s.toList.map fun c => UInt8.ofNat c.toNat) ++ []
def xf0 : XF := { cellLocked := 1, vertAlign := 2, patternColourIndex := 8, backgroundColourIndex := 9, formatFlag := 1, fontFlag := 1, alignmentFlag := 1, borderFlag := 1,
                  backgroundFlag := 1, protectionFlag := 1 }
def xf1 : XF := { xf0 with formatKey := 1, leftLineStyle := 1, leftColourIndex := 8, fillPattern := 17 }
def xfData (x : XF) : Bytes := leBytes 4 (packFields (xfFields2 x 0))

def bof : Bytes := le16 0 ++ le16 0x10 ++ [7, 7]
def env : OpenEnv := { SampleFile.env false with fi := true }

/-- Excel 2.1: two formats, two XFs, the 1904 date system, magnification 1/2; a number, and a date whose XF is given by an IXFE record; a row with a default XF, a window. -/
def file1 : B2File where
  head := [.book 0x1e (fmtData "0"), .book 0x1e (fmtData "d/m/y"), .item (.setting (.zoom 1 2)), .book 0x43 (xfData xf0), .book 0x43 (xfData xf1), .book 0x22 [1, 0]]
  dim := ⟨0, 2, 0, 2, []⟩
  body := [.integer 0 1 ⟨0, 0, 0⟩ 7, .ixfe 1, .number 1 0 ⟨63, 0, 0⟩ ⟨false, 1023, 0⟩, .row 1 (0, 2) 300 false 0 0 (.attr (0, 0) ⟨1, 0, 0⟩ []), .colwidth 0 1 2560 [],
           .window (0, 0, 0, 0, 0) 3 4 0 255 255 255 []]
  eof := []

def mem1 : Bytes := encRec 0x0009 bof ++ encRecs file1.records ++ [3]

/-- Excel 2.0: the formats, the 1904 date system; a number, a date with a line on the left, a column with a default format. -/
def file2 : B2File where
  head := [.book 0x1e (fmtData "0"), .book 0x1e (fmtData "d/m/y"), .book 0x22 [1, 0]]
  dim := ⟨0, 2, 0, 2, []⟩
  body := [.integer 0 1 ⟨0, 0, 0⟩ 7, .number 1 0 ⟨64, 1, 8⟩ ⟨false, 1023, 0⟩, .coldefault 0 [⟨0, 0, 2⟩] [0]]
  eof := []

def mem2 : Bytes := encRec 0x0009 bof ++ encRecs file2.records ++ [3]

theorem items1 : file1.book = [.one 0x1e (fmtData "0"), .one 0x1e (fmtData "d/m/y"), .one 0x43 (xfData xf0), .one 0x43 (xfData xf1), .one 0x22 [1, 0]] := rfl
theorem items2 : file2.book = [.one 0x1e (fmtData "0"), .one 0x1e (fmtData "d/m/y"), .one 0x22 [1, 0]] := rfl

theorem workbook1 (dec : List GItem → Bytes → R PyStr) : B2Workbook dec mem1 file1 where
  bytes := ⟨0x0009, bof, [3], .biff2 0x10 0 [7, 7] (by decide) (by decide), rfl⟩
  ok := {
    codes := by
      intro c d h
      simp only [file1, List.mem_cons, B2Head.book.injEq, List.not_mem_nil, or_false, reduceCtorEq, false_or] at h
      rcases h with ⟨rfl, _⟩ | ⟨rfl, _⟩ | ⟨rfl, _⟩ | ⟨rfl, _⟩ | ⟨rfl, _⟩ <;> decide
    efonts := no_efonts (by simp [file1])
    free := by
      intro y h
      have : y = .setting (.zoom 1 2) := by simpa [B2File.headItems, file1] using h
      subst this; rfl
    items := by
      intro y h
      simp only [B2File.items, B2File.headItems, file1, List.filterMap_cons, List.filterMap_nil, List.mem_append, List.mem_cons, List.not_mem_nil, or_false] at h
      rcases h with rfl | rfl | rfl | rfl | rfl | rfl | rfl
      · exact ⟨rfl, by simp [SheetItem.Ok], by rintro c d h; cases h⟩
      all_goals simp [B2Item.Ok, B64.Ok, RowXf.Ok]
    short := by decide +kernel }

theorem workbook2 (dec : List GItem → Bytes → R PyStr) : B2Workbook dec mem2 file2 where
  bytes := ⟨0x0009, bof, [3], .biff2 0x10 0 [7, 7] (by decide) (by decide), rfl⟩
  ok := {
    codes := by
      intro c d h
      simp only [file2, List.mem_cons, B2Head.book.injEq, List.not_mem_nil, or_false, reduceCtorEq, false_or] at h
      rcases h with ⟨rfl, _⟩ | ⟨rfl, _⟩ | ⟨rfl, _⟩ <;> decide
    efonts := no_efonts (by simp [file2])
    free := by
      intro y h
      simp [B2File.headItems, file2] at h
    items := by
      intro y h
      simp only [B2File.items, B2File.headItems, file2, List.filterMap_cons, List.filterMap_nil, List.mem_append, List.mem_cons, List.not_mem_nil, or_false, false_or] at h
      rcases h with rfl | rfl | rfl <;> simp [B2Item.Ok, B64.Ok, RowXf.Ok]
    short := by decide +kernel }

theorem opens1 : ∃ l, openStream env mem1 0 = .ok l := by
  cases h : openStream env mem1 0 with
  | ok l => exact ⟨l, rfl⟩
  | error e =>
    have : (openStream env mem1 0).toOption.isSome = true := by decide +kernel
    rw [h] at this; cases this

theorem opens2 : ∃ l, openStream env mem2 0 = .ok l := by
  cases h : openStream env mem2 0 with
  | ok l => exact ⟨l, rfl⟩
  | error e =>
    have : (openStream env mem2 0).toOption.isSome = true := by decide +kernel
    rw [h] at this; cases this

theorem fmtRecord (dec : Bytes → R PyStr) (s : String) (h : dec (s.toList.map fun c => UInt8.ofNat c.toNat) = .ok s.toList) (hl : s.toList.length < 256) :
    OldFormatRecord 21 dec s.toList (fmtData s) := by
  refine ⟨[], _, [], rfl, ?_, rfl⟩
  have := TextField.older (bv := 21) (dec := dec) (l := 1) (s := s.toList) (s.toList.map fun c => UInt8.ofNat c.toNat) (by decide) h (by simpa using hl)
  rw [List.length_map] at this
  exact this

theorem formats0 : OldFormats 21 (textAt (env.recEnv 21)) [.one 0x1e (fmtData "0"), .one 0x1e (fmtData "d/m/y")] ["0".toList, "d/m/y".toList] := by
  have h0 : OldFormats 21 (textAt (env.recEnv 21)) [.one 0x1e (fmtData "0")] ["0".toList] :=
    Collected.take (pre := []) (xs := []) .nil rfl (fmtRecord _ "0" rfl (by decide))
  exact Collected.take (pre := [_]) (xs := [_]) h0 rfl (fmtRecord _ "d/m/y" rfl (by decide))

theorem formats1 : OldFormats 21 (textAt (env.recEnv 21)) file1.book ["0".toList, "d/m/y".toList] := by
  rw [items1]
  refine Collected.skip (pre := [_, _, _, _]) (Collected.skip (pre := [_, _, _]) (Collected.skip (pre := [_, _]) formats0 ?_) ?_) ?_ <;>
    (rintro c d h; cases h; decide)

theorem formats2 : OldFormats 21 (textAt (env.recEnv 21)) file2.book ["0".toList, "d/m/y".toList] := by
  rw [items2]
  refine Collected.skip (pre := [_, _]) formats0 ?_
  rintro c d h; cases h; decide

theorem xfs1 : OldXfs 21 (textAt (env.recEnv 21)) file1.book [xf0, xf1] := by
  rw [items1]
  have h0 : OldXfs 21 (textAt (env.recEnv 21)) [.one 0x1e (fmtData "0"), .one 0x1e (fmtData "d/m/y")] [] := by
    refine Collected.skip (pre := [_]) (Collected.skip (pre := []) .nil ?_) ?_ <;> (rintro c d h; cases h; decide)
  have h1 := Collected.take (pre := [_, _]) (xs := []) (c := 0x43) (d := xfData xf0) (x := xf0) h0 rfl
    ⟨xf0, _, .biff2 0 (by unfold FieldsFit; decide) (by unfold Biff2Attributes NoBiff8Attributes; decide), formats0, rfl⟩
  have f1 : OldFormats 21 (textAt (env.recEnv 21)) [.one 0x1e (fmtData "0"), .one 0x1e (fmtData "d/m/y"), .one 0x43 (xfData xf0)] ["0".toList, "d/m/y".toList] := by
    refine Collected.skip (pre := [_, _]) formats0 ?_
    rintro c d h; cases h; decide
  have h2 := Collected.take (pre := [_, _, _]) (xs := [_]) (c := 0x43) (d := xfData xf1) (x := xf1) h1 rfl
    ⟨xf1, _, .biff2 0 (by unfold FieldsFit; decide) (by unfold Biff2Attributes NoBiff8Attributes; decide), f1, rfl⟩
  exact Collected.skip (pre := [_, _, _, _]) h2 (by rintro c d h; cases h; decide)

theorem xfs2 : OldXfs 21 (textAt (env.recEnv 21)) file2.book [] := by
  rw [items2]
  refine Collected.skip (pre := [_, _]) (Collected.skip (pre := [_]) (Collected.skip (pre := []) .nil ?_) ?_) ?_ <;> (rintro c d h; cases h; decide)

/-- The theorems about Excel 2.1 apply. -/
example : ∃ l sh, openStream env mem1 0 = .ok l ∧ (sheetByIndex env l 0).1 = .ok sh ∧ sh.name = "Sheet 1".toList ∧
    sh.st.store.cellType 0 1 = .ok XL_CELL_NUMBER ∧ sh.st.store.cellType 1 0 = .ok XL_CELL_DATE ∧ sh.st.store.cellXf 1 0 = .ok 1 ∧ sh.st.store.nrows = 2 ∧
    sh.st.cookedNormal = 50 ∧ (sh.st.rowinfo 1).map (·.xfIndex) = some 1 ∧ (sh.st.colinfo 1).map (·.width) = some 2560 ∧ sh.st.firstVisibleRowx = 3 ∧
    sh.st.window2.take 5 = [1, 1, 1, 1, 1] := by
  obtain ⟨l, hl⟩ := opens1
  obtain ⟨sh, h1, _, _, h4, _, _⟩ := C74_one_sheet env mem1 file1 (workbook1 _) l hl
  obtain ⟨_, tm, t1, t2, t3, t4⟩ := C74_cell env rfl mem1 file1 (workbook1 _) _ formats1 (by decide) _ xfs1 (by decide) l hl [] sh h4
  have e1 : sh.st.store.nrows = 2 := t2
  have e2 : sh.st.store.ncols = 2 := t3
  obtain ⟨s1, q1, q2, q3⟩ := t1 1 xf1 rfl
  obtain ⟨s0, p1, p2, p3⟩ := t1 0 xf0 rfl
  cases q1
  cases p1
  obtain ⟨k1, _⟩ := (t4 0 1).1 ⟨by omega, by omega⟩
  obtain ⟨k0, _, kx⟩ := (t4 1 0).1 ⟨by omega, by omega⟩
  obtain ⟨r1, r2⟩ := C74_rows_partial env mem1 file1 (workbook1 _) _ xfs1 (by decide) l hl [] sh h4 1
  have hz := (C74_sheet_settings env mem1 file1 (workbook1 _) l hl [] sh h4).2.2.2.2.2.2.2.1
  have hwn : sh.st.window2.getD 5 0 = 0 ∧ sh.st.firstVisibleRowx = 3 ∧ _ := C74_window_partial env mem1 file1 (workbook1 _) l hl [] sh h4
  refine ⟨l, sh, hl, h4, h1, ?_, ?_, kx rfl, e1, hz, ?_, ?_, hwn.2.1, C74_window_options_lost env mem1 file1 (workbook1 _) l hl [] sh h4 (by decide)⟩
  · refine k1.trans ?_
    show Except.ok ((tm ((0 : Nat) : Int)).getD 0) = _
    rw [p3 (fun h => absurd ((isDate_spec _).mpr h) (by decide +kernel))]
    rfl
  · refine k0.trans ?_
    show Except.ok ((tm ((1 : Nat) : Int)).getD 0) = _
    rw [q2 ((isDate_spec _).mp (by decide +kernel))]
    rfl
  · show (sh.st.rowinfo ((1 : Nat) : Int)).map _ = _
    rw [r1]; decide +kernel
  · show (sh.st.colinfo ((1 : Nat) : Int)).map _ = _
    rw [r2]; decide +kernel

/-- The theorems about Excel 2.0 apply. -/
example : ∃ l sh, openStream env mem2 0 = .ok l ∧ (sheetByIndex env l 0).1 = .ok sh ∧ l.bv = 20 ∧
    sh.st.store.cellType 0 1 = .ok XL_CELL_NUMBER ∧ sh.st.store.cellType 1 0 = .ok XL_CELL_DATE ∧ sh.st.store.cellXf 1 0 = .ok 17 ∧
    (l.book.fmt.xfList[17]?).map (fun x => (x.leftLineStyle, x.formatKey)) = some (1, 1) := by
  obtain ⟨l, hl⟩ := opens2
  obtain ⟨sh, h1, _, _, h4, _, _⟩ := C74_one_sheet env mem2 file2 (workbook2 _) l hl
  obtain ⟨hv, tm, num, n1, _, n2, t2, t3, t4, _⟩ := C75_cell_partial env rfl mem2 file2 (workbook2 _) _ formats2 xfs2 l hl [] sh h4
  have hn : ∀ (f : CellAttr → Nat), height (cellsB2 true (fun _ => f) file2.items) [] = 2 ∧ width (cellsB2 true (fun _ => f) file2.items) [] = 2 := fun f => ⟨rfl, rfl⟩
  have e1 : sh.st.store.nrows = 2 := t2.trans (hn num).1
  have e2 : sh.st.store.ncols = 2 := t3.trans (hn num).2
  obtain ⟨_, _, _, p4⟩ := n1 ⟨0, 0, 0⟩ (by decide)
  obtain ⟨_, _, q3, q4⟩ := n1 ⟨64, 1, 8⟩ (by decide)
  have e17 : num ⟨64, 1, 8⟩ = 17 := (n2 _ (by decide)).trans (by decide)
  obtain ⟨k1, _⟩ := (t4 0 1).1 ⟨by omega, by omega⟩
  obtain ⟨k0, _, kx⟩ := (t4 1 0).1 ⟨by omega, by omega⟩
  refine ⟨l, sh, hl, h4, hv (by decide), ?_, ?_, (kx rfl).trans (by show Except.ok ((num ⟨64, 1, 8⟩ : Nat) : Int) = _; rw [e17]; rfl), ?_⟩
  · refine k1.trans ?_
    show Except.ok ((tm (num ⟨0, 0, 0⟩ : Nat)).getD 0) = _
    rw [p4.2 (fun h => absurd ((isDate_spec _).mpr h) (by decide +kernel))]
    rfl
  · refine k0.trans ?_
    show Except.ok ((tm (num ⟨64, 1, 8⟩ : Nat)).getD 0) = _
    rw [q4.1 ((isDate_spec _).mp (by decide +kernel))]
    rfl
  · rw [e17] at q3; rw [q3]; rfl

/-- Excel 2.0, with a row that gives the number of an XF. -/
def file3 : B2File where
  head := []
  dim := ⟨0, 2, 0, 2, []⟩
  body := [.integer 0 1 ⟨0, 0, 0⟩ 7, .row 1 (0, 2) 300 false 0 0 (.index (0, 0, 0, 0, 0) 15)]
  eof := []

def mem3 : Bytes := encRec 0x0009 bof ++ encRecs file3.records ++ [3]

theorem workbook3 (dec : List GItem → Bytes → R PyStr) : B2Workbook dec mem3 file3 where
  bytes := ⟨0x0009, bof, [3], .biff2 0x10 0 [7, 7] (by decide) (by decide), rfl⟩
  ok := {
    codes := by
      intro c d h
      simp [file3] at h
    efonts := no_efonts (by simp [file3])
    free := by
      intro y h
      simp [B2File.headItems, file3] at h
    items := by
      intro y h
      simp only [B2File.items, B2File.headItems, file3, List.filterMap_cons, List.filterMap_nil, List.mem_append, List.mem_cons, List.not_mem_nil, or_false, false_or] at h
      rcases h with rfl | rfl <;> simp [B2Item.Ok, B64.Ok, RowXf.Ok]
    short := by decide +kernel }

def fontOf (s : String) : Font := { height := 200, name := s.toList, colourIndex := 0x7fff, characterSet := 1 }
def fontData (s : String) : Bytes := leBytes 4 (packFields (fontFields2 (fontOf s) 0)) ++ (encLen 1 s.toList.length ++ (s.toList.map fun c => UInt8.ofNat c.toNat) ++ [])

/-- Two fonts, the second in red: its colour is in the EFONT record. -/
def file5 : B2File where
  head := [.book 0x31 (fontData "A"), .book 0x31 (fontData "B"), .efont 10]
  dim := ⟨0, 1, 0, 1, []⟩
  body := [.integer 0 0 ⟨0, 0, 0⟩ 7]
  eof := []

def mem5 : Bytes := encRec 0x0009 bof ++ encRecs file5.records ++ [3]

theorem workbook5 (dec : List GItem → Bytes → R PyStr) : B2Workbook dec mem5 file5 where
  bytes := ⟨0x0009, bof, [3], .biff2 0x10 0 [7, 7] (by decide) (by decide), rfl⟩
  ok := {
    codes := by
      intro c d h
      simp only [file5, List.mem_cons, B2Head.book.injEq, List.not_mem_nil, or_false, reduceCtorEq] at h
      rcases h with ⟨rfl, _⟩ | ⟨rfl, _⟩ <;> decide
    efonts := by
      intro pre c post h
      match pre, h with
      | [], h => cases h
      | [_], h => cases h
      | [_, _], h => cases h; exact ⟨by decide, fontData "A", List.mem_cons_self ..⟩
      | _ :: _ :: _ :: _, h => exact absurd (congrArg List.length h) (by simp [file5])
    free := by
      intro y h
      simp [B2File.headItems, file5] at h
    items := by
      intro y h
      have : y = .integer 0 0 ⟨0, 0, 0⟩ 7 := by simpa [B2File.items, B2File.headItems, file5] using h
      subst this
      simp [B2Item.Ok]
    short := by decide +kernel }

theorem fontRec (dec : Bytes → R PyStr) (s : String) (h : dec (s.toList.map fun c => UInt8.ofNat c.toNat) = .ok s.toList) (hl : s.toList.length < 256) :
    FontRecord dec (fontOf s) 21 (fontData s) := by
  have := FontRecord.biff2 (dec := dec) (f := fontOf s) 21 (.inr rfl) 0 (s.toList.map fun c => UInt8.ofNat c.toNat) [] (by unfold FieldsFit fontFields2 fontOf; simp)
    (by unfold OldFont fontOf; simp) rfl rfl rfl h (by rw [List.length_map]; exact hl)
  rw [List.length_map] at this
  exact this

theorem fonts5 : Fonts 21 (textAt (env.recEnv 21)) file5.book [fontOf "A", fontOf "B"] := by
  have h0 : Fonts 21 (textAt (env.recEnv 21)) [.one 0x31 (fontData "A")] [fontOf "A"] :=
    Collected.take (pre := []) (xs := []) .nil (.inl rfl) (fontRec _ "A" rfl (by decide))
  exact Collected.take (pre := [_]) (xs := [_]) h0 (.inl rfl) (fontRec _ "B" rfl (by decide))

theorem opens5 : ∃ l, openStream env mem5 0 = .ok l := by
  cases h : openStream env mem5 0 with
  | ok l => exact ⟨l, rfl⟩
  | error e =>
    have : (openStream env mem5 0).toOption.isSome = true := by decide +kernel
    rw [h] at this; cases this

/-- C74: the first font has the automatic colour, the second is red. -/
example : ∃ l, openStream env mem5 0 = .ok l ∧ (l.book.fmt.fontList.map fun f => (f.name, f.colourIndex)) = [("A".toList, 0x7fff), ("B".toList, 10)] := by
  obtain ⟨l, h⟩ := opens5
  obtain ⟨hl, hf⟩ := C74_fonts env rfl mem5 file5 (workbook5 _) l h _ fonts5
  refine ⟨l, h, List.ext_getElem? fun i => ?_⟩
  have h0 := hf 0 _ rfl
  have h1 := hf 1 _ rfl
  change l.book.fmt.fontList.length = 2 at hl
  change l.book.fmt.fontList[0]? = _ at h0
  change l.book.fmt.fontList[1]? = _ at h1
  match i with
  | 0 => rw [List.getElem?_map, h0]; rfl
  | 1 => rw [List.getElem?_map, h1]; rfl
  | i + 2 => rw [List.getElem?_map, List.getElem?_eq_none (by omega)]; rfl

end SampleB2

/-- Not every file without XF records can be opened: with formatting information, a ROW record of 18 bytes with the number of an XF makes opening fail with TypeError (the
attributes to interpret are None); without formatting information the same file opens. -/
theorem C75_row_index_fails : ∃ (env : OpenEnv) (file : Bytes) (F : B2File), B2Workbook (textAt (env.recEnv 21)) file F ∧
    OldXfs 21 (textAt (env.recEnv 21)) F.book [] ∧ (∃ e, openStream { env with fi := true } file 0 = .error e ∧ e = .type) ∧
    ∃ l, openStream { env with fi := false } file 0 = .ok l := by
  refine ⟨SampleB2.env, SampleB2.mem3, SampleB2.file3, SampleB2.workbook3 _, .nil, ?_, ?_⟩
  · have h : (match openStream { SampleB2.env with fi := true } SampleB2.mem3 0 with | .error e => some e | .ok _ => none) = some .type := by decide +kernel
    cases ho : openStream { SampleB2.env with fi := true } SampleB2.mem3 0 with
    | ok l => rw [ho] at h; cases h
    | error e => rw [ho] at h; exact ⟨e, rfl, Option.some.inj h⟩
  · have h : (openStream { SampleB2.env with fi := false } SampleB2.mem3 0).toOption.isSome = true := by decide +kernel
    cases ho : openStream { SampleB2.env with fi := false } SampleB2.mem3 0 with
    | ok l => exact ⟨l, rfl⟩
    | error e => rw [ho] at h; cases h

end Xlrd
