import Verif.Props.Workbook
import Verif.Props.Files
import Verif.Props.GlobalsExamples

/-!
# A workbook stream that meets the hypotheses of the theorems about opening (C41, C42, C52, C54, C67)
-/
set_option linter.unusedSimpArgs false
namespace Xlrd
open Spec
namespace SampleFile

/-- BOF records of each version. -/
example : BofRecord 80 5 0x0809 [0, 6, 5, 0, 1, 2, 3, 4] := .biff8 5 [1, 2, 3, 4] (by decide) (by decide)
example : BofRecord 70 5 0x0809 [0, 5, 5, 0, 0x6d, 0x0b, 0xca, 0x07] := .biff7 5 2925 1994 [] (by decide) (by decide) (by decide) (by decide) (by decide)
example : BofRecord 50 5 0x0809 [0, 5, 5, 0, 0x92, 0x0c, 0xca, 0x07] := .biff5 5 3218 1994 [] (by decide) (by decide) (by decide) (by decide) (by decide)
example : BofRecord 45 0x100 0x0409 [0, 0, 0, 1, 0, 0] := .biff4w 0 [0, 0] (by decide)
example : BofRecord 21 0x10 0x0009 [2, 0, 0x10, 0] := .biff2 0x10 2 [] (by decide) (by decide)
example : firstBof ([1] ++ encRec 0x0809 [0, 6, 5, 0] ++ [7]) 1 = .ok (80, 9) := by decide +kernel
example : firstBof (encRec 0x0809 [0, 6, 16, 0]) 0 = .error .xlrd := by decide +kernel
example : firstBof (encRec 0x0009 [2, 0, 16, 0]) 0 = .ok (21, 8) := by decide +kernel

def bof : Bytes := [0, 6, 5, 0, 1, 2, 3, 4]
def sheetBof : Bytes := [0, 6, 16, 0]
def sheetZ : SheetRec := ⟨100, 1, 0, "Z".toList⟩
def sheetY : SheetRec := ⟨100, 0, 2, "Y".toList⟩
def sheetX : SheetRec := ⟨200, 0, 0, "X".toList⟩
def data (s : SheetRec) (n : String) : Bytes := le32 s.offset ++ [UInt8.ofNat s.visibility, UInt8.ofNat s.ty] ++ (encLen 1 1 ++ (Sample.txt n).body) ++ []

def items : List GItem := [.one 0x42 [0xb0, 4], .one 0x85 (data sheetZ "Z"), .one 0x85 (data sheetY "Y"), .one 0x85 (data sheetX "X")]
def layout : Layout := ⟨[], none, [.cell (.number 0 0 0 ⟨false, 1023, 0⟩ []), .cell (.boolerr 1 2 0 true 0x2a []), .cell (.boolerr 1 2 0 false 1 [])], []⟩

/-- Two bytes before the workbook stream, the globals, padding, one sheet, padding, and an unreadable sheet. -/
def mem : Bytes :=
  let g := [9, 9] ++ encRec 0x0809 bof ++ encGlobals items []
  let z := g ++ List.replicate (102 - g.length) 0 ++ encRec 0x0809 sheetBof ++ encRecs (layout.records 80)
  z ++ List.replicate (202 - z.length) 0 ++ [1, 2, 3]

def env (onDemand : Bool) : OpenEnv where
  fuel := 10
  depth := 10
  lower := fun s => s.map Char.toLower
  codec := fun _ b => .ok (b.map fun x => Char.ofNat x.toNat)
  rstrip := id
  evalNames := fun _ => .ok ()
  override := []
  fi := false
  ragged := false
  onDemand := onDemand
  ignore := false


theorem sheetRec (dec : Bytes → R PyStr) (s : SheetRec) (n : String) (h1 : s.name = n.toList) (h2 : s.offset < 2 ^ 31) (h3 : s.visibility < 256) (h4 : s.ty < 256)
    (h5 : (Sample.txt n).Ok) (h6 : (utf16 s.name).length = 1) : BoundsheetRecord 80 dec s (data s n) := by
  refine ⟨encLen 1 1 ++ (Sample.txt n).body, [], ?_, h2, h3, h4, rfl⟩
  rw [← h6]
  exact .biff8 (Sample.txt n) (by decide) h5 (by rw [h1]; rfl) (by rw [h6]; decide)

theorem sheets (dec : List GItem → Bytes → R PyStr) : Sheets 80 dec items [sheetZ, sheetY, sheetX] := by
  have h0 : Sheets 80 dec [.one 0x42 [0xb0, 4]] [] := Collected.skip .nil (by rintro c d h; cases h; decide)
  have h1 := h0.take (c := 0x85) rfl (sheetRec (dec _) sheetZ "Z" rfl (by decide) (by decide) (by decide) (Sample.txt_ok _ (by decide)) (by decide))
  have h2 := h1.take (c := 0x85) rfl (sheetRec (dec _) sheetY "Y" rfl (by decide) (by decide) (by decide) (Sample.txt_ok _ (by decide)) (by decide))
  exact h2.take (c := 0x85) rfl (sheetRec (dec _) sheetX "X" rfl (by decide) (by decide) (by decide) (Sample.txt_ok _ (by decide)) (by decide))

theorem stream (dec : List GItem → Bytes → R PyStr) : WorkbookStream 80 dec mem 2 items [sheetZ, sheetY, sheetX] where
  bytes := ⟨[9, 9], 0x0809, bof, [], mem.drop ([9, 9] ++ encRec 0x0809 bof ++ encGlobals items []).length, rfl,
    .biff8 5 [1, 2, 3, 4] (by decide) (by decide), by decide, by decide +kernel⟩
  ok := {
    sized := by unfold GItem.Sized; decide +kernel
    plain := by
      intro it h
      simp only [items, List.mem_cons, List.mem_nil_iff, or_false] at h
      rcases h with rfl | rfl | rfl | rfl <;> simp [GItem.Plain]
    stray := by simp [items, NoStrayContinue] }
  sheets := sheets dec

theorem sheetAt : SheetAt 80 mem (2 + sheetZ.offset) layout :=
  ⟨80, 0x0809, sheetBof, mem.drop (102 + (encRec 0x0809 sheetBof ++ encRecs (layout.records 80)).length), .biff8 0x10 [] (by decide) (by decide),
    by decide +kernel⟩

theorem layoutOk (dec : Bytes → R PyStr) (sst : List PyStr) : layout.Ok 80 dec sst := by
  refine ⟨?_, ?_, by decide +kernel⟩
  · intro i hi
    simp only [layout, Layout.items, List.nil_append, List.mem_cons, List.not_mem_nil, or_false] at hi
    rcases hi with rfl | rfl | rfl <;> simp [SheetItem.Ok, CellRec.Ok, B64.Ok]
  · intro i hi; simp [layout] at hi

/-- Opening on demand succeeds; opening with all sheets does not, because the second worksheet is broken. -/
theorem opens : ∃ l, openStream (env true) mem 2 = .ok l := by
  cases h : openStream (env true) mem 2 with
  | ok l => exact ⟨l, rfl⟩
  | error e =>
    have : (openStream (env true) mem 2).toOption.isSome = true := by decide +kernel
    rw [h] at this; cases this
example : (openStream (env false) mem 2).toOption.isSome = false := by decide +kernel

/-- What some calls give. -/
def isSheet (n : String) (i : Int) : Reply → Bool
  | .sheet (.ok sh) => sh.name = n.toList ∧ sh.number = i
  | _ => false
def isErr (e : PyErr) : Reply → Bool
  | .sheet (.error e') | .flag (.error e') | .done (.error e') | .all (.error e') => e' = e
  | _ => false
def isFlag (b : Bool) : Reply → Bool
  | .flag (.ok b') => b' = b
  | _ => false

def replies (cs : List Call) : List Reply :=
  match openStream (env true) mem 2 with
  | .ok l => (libCalls (env true) l cs).1
  | .error _ => []

example : ((replies [.loaded (.index 0), .byIndex (-2), .loaded (.name "Z".toList), .byName "Z".toList, .byName "Y".toList, .byIndex 2, .byIndex 1, .sheets,
      .unload (.index 0), .byIndex 0, .release, .byIndex 0, .item (.name "X".toList), .unload (.name "Z".toList), .byIndex 0]).zip
    [isFlag false, isSheet "Z" (-2), isFlag true, isSheet "Z" (-2), isErr .xlrd, isErr .index, isErr .xlrd, isErr .xlrd,
      fun _ => true, isSheet "Z" 0, fun _ => true, isSheet "Z" 0, isErr .xlrd, fun _ => true, isErr .xlrd]).map (fun x => x.2 x.1) = List.replicate 15 true := by
  decide +kernel

/-- The theorems apply. -/
example : ∃ sh : LSheet, sh.name = "Z".toList ∧ sh.visibility = 1 ∧ sh.st.store.nrows = 2 ∧ sh.st.store.ncols = 3 ∧
    sh.st.store.cellValue 1 2 = .ok (.int 1) ∧ sh.st.store.cellType 1 2 = .ok XL_CELL_BOOLEAN := by
  obtain ⟨l, hl⟩ := opens
  have hsh : ∃ sh, (sheetByIndex (env true) l (0 : Nat)).1 = .ok sh := by
    have h1 : (match openStream (env true) mem 2 with
        | .ok l => (sheetByIndex (env true) l (0 : Nat)).1.toOption.isSome
        | .error _ => false) = true := by decide +kernel
    rw [hl] at h1
    cases h2 : (sheetByIndex (env true) l (0 : Nat)).1 with
    | ok sh => exact ⟨sh, rfl⟩
    | error e => simp only [h2] at h1; cases h1
  obtain ⟨sh, hsh⟩ := hsh
  obtain ⟨h1, h2, _⟩ := C67_sheet (env true) 80 mem 2 items _ (by decide) (stream _) l hl 0 sheetZ rfl layout sheetAt (layoutOk _ _) [] sh hsh
  have hno : ∀ {α : Type} {sel : Nat → Prop} {Rel : List GItem → Bytes → α → Prop}, (¬ sel 0x42) → (¬ sel 0x85) → Collected sel Rel items [] := by
    intro α sel Rel h1 h2
    refine Collected.skip (pre := [_, _, _]) (Collected.skip (pre := [_, _]) (Collected.skip (pre := [_]) (Collected.skip (pre := []) .nil ?_) ?_) ?_) ?_ <;>
      (rintro c d h; cases h; assumption)
  obtain ⟨tm, _, h4, h5, h6⟩ := C67_cell (env true) rfl 80 mem 2 items _ (by decide) (stream _) [] (hno (by decide) (by decide)) [] (hno (by decide) (by decide)) l hl 0
    sheetZ rfl layout sheetAt (layoutOk _ _) [] sh hsh
  have e1 : sh.st.store.nrows = 2 := h4
  have e2 : sh.st.store.ncols = 3 := h5
  have h7 := (h6 1 2).1 ⟨by omega, by omega⟩
  exact ⟨sh, h1, h2, e1, e2, h7.2.1, h7.1⟩

/-! ## A sheet with row and column defaults, opened with formatting and ragged rows -/

def rowDefault : RowRec := ⟨1, (0, 0), 255, false, (0, 0), 0, false, false, false, false, true, 0, 42, false, false, 0⟩
def rowPlain : RowRec := ⟨0, (0, 0), 255, false, (0, 0), 0, false, false, false, false, false, 0, 41, false, false, 0⟩
def colDefault : ColRec := ⟨1, 1, 2000, 43, false, false, 0, 0, false, false, 0, []⟩

def layoutF : Layout := ⟨[], none, [.row rowPlain [], .row rowDefault [], .col colDefault, .cell (.boolerr 0 3 16 false 1 []), .cell (.boolerr 1 2 17 true 0x2a [])], []⟩

def memF : Bytes :=
  let g := [9, 9] ++ encRec 0x0809 bof ++ encGlobals items []
  let z := g ++ List.replicate (102 - g.length) 0 ++ encRec 0x0809 sheetBof ++ encRecs (layoutF.records 80)
  z ++ List.replicate (302 - z.length) 0 ++ [1, 2, 3]

def envF : OpenEnv := { env true with fi := true, ragged := true }

theorem streamF (dec : List GItem → Bytes → R PyStr) : WorkbookStream 80 dec memF 2 items [sheetZ, sheetY, sheetX] where
  bytes := ⟨[9, 9], 0x0809, bof, [], memF.drop ([9, 9] ++ encRec 0x0809 bof ++ encGlobals items []).length, rfl,
    .biff8 5 [1, 2, 3, 4] (by decide) (by decide), by decide, by decide +kernel⟩
  ok := (stream dec).ok
  sheets := sheets dec

theorem sheetAtF : SheetAt 80 memF (2 + sheetZ.offset) layoutF :=
  ⟨80, 0x0809, sheetBof, memF.drop (102 + (encRec 0x0809 sheetBof ++ encRecs (layoutF.records 80)).length), .biff8 0x10 [] (by decide) (by decide),
    by decide +kernel⟩

theorem layoutOkF (dec : Bytes → R PyStr) (sst : List PyStr) : layoutF.Ok 80 dec sst := by
  refine ⟨?_, ?_, by decide +kernel⟩
  · intro i hi
    simp only [layoutF, Layout.items, List.nil_append, List.mem_cons, List.not_mem_nil, or_false] at hi
    rcases hi with rfl | rfl | rfl | rfl | rfl <;> simp [SheetItem.Ok, CellRec.Ok, B64.Ok, RowRec.Ok, ColRec.Ok, rowPlain, rowDefault, colDefault]
  · intro i hi; simp [layoutF] at hi

theorem opensF : ∃ l sh, openStream envF memF 2 = .ok l ∧ (sheetByIndex envF l (0 : Nat)).1 = .ok sh := by
  have h1 : (match openStream envF memF 2 with
      | .ok l => (sheetByIndex envF l (0 : Nat)).1.toOption.isSome
      | .error _ => false) = true := by decide +kernel
  cases hl : openStream envF memF 2 with
  | error e => rw [hl] at h1; cases h1
  | ok l =>
    rw [hl] at h1
    cases h2 : (sheetByIndex envF l (0 : Nat)).1 with
    | ok sh => exact ⟨l, sh, rfl, h2⟩
    | error e => simp only [h2] at h1; cases h1

theorem collectedNone {α : Type} {sel : Nat → Prop} {Rel : List GItem → Bytes → α → Prop} (h1 : ¬ sel 0x42) (h2 : ¬ sel 0x85) : Collected sel Rel items [] := by
  refine Collected.skip (pre := [_, _, _]) (Collected.skip (pre := [_, _]) (Collected.skip (pre := [_]) (Collected.skip (pre := []) .nil ?_) ?_) ?_) ?_ <;>
    (rintro c d h; cases h; assumption)

/-- Rows of four and three cells; own XF, row default, column default and 15. -/
example : ∃ (l : Lib) (sh : LSheet), openStream envF memF 2 = .ok l ∧ sh.st.store.rowLen 0 = .ok 4 ∧ sh.st.store.rowLen 1 = .ok 3 ∧
    sh.st.store.cellValue 1 2 = .ok (.int 0x2a) ∧ sh.st.store.cellType 1 3 = .error .index ∧
    let view := sh.st.view (envF.sheetEnv 80 l.book)
    (cellXfIndex view 0 3).map Prod.fst = .ok 16 ∧ (cellXfIndex view 1 0).map Prod.fst = .ok 42 ∧
    (cellXfIndex view 0 1).map Prod.fst = .ok 43 ∧ (cellXfIndex view 0 0).map Prod.fst = .ok 15 := by
  obtain ⟨l, sh, hl, hsh⟩ := opensF
  obtain ⟨tm, _, h4, h5, h6⟩ := C67_cell_ragged envF rfl 80 memF 2 items _ (by decide) (streamF _) [] (collectedNone (by decide) (by decide)) []
    (collectedNone (by decide) (by decide)) l hl 0 sheetZ rfl layoutF sheetAtF (layoutOkF _ _) [] sh hsh
  have e1 : sh.st.store.nrows = 2 := h4
  obtain ⟨n0, a1, a2, a3⟩ := h6 0 (by omega)
  obtain ⟨n1, b1, b2, b3⟩ := h6 1 (by omega)
  have e0 : n0 = 4 := by rw [a2, e1]; rfl
  have e1' : n1 = 3 := by rw [b2, e1]; rfl
  subst e0 e1'
  have hx := C67_xf_index envF rfl 80 memF 2 items _ (by decide) (streamF _) l hl 0 sheetZ rfl layoutF sheetAtF (layoutOkF _ _) [] sh hsh
  refine ⟨l, sh, hl, a1, b1, ((b3 2).1 (by decide)).2, ((b3 3).2 (by decide)).2.1, ?_⟩
  intro view
  obtain ⟨⟨s1, x1⟩, _⟩ := hx 0 3 4 a1 (by decide)
  obtain ⟨⟨s2, x2⟩, _⟩ := hx 1 0 3 b1 (by decide)
  obtain ⟨⟨s3, x3⟩, _⟩ := hx 0 1 4 a1 (by decide)
  obtain ⟨⟨s4, x4⟩, _⟩ := hx 0 0 4 a1 (by decide)
  refine ⟨?_, ?_, ?_, ?_⟩
  · exact (congrArg (Except.map Prod.fst) x1)
  · exact (congrArg (Except.map Prod.fst) x2)
  · exact (congrArg (Except.map Prod.fst) x3)
  · exact (congrArg (Except.map Prod.fst) x4)

end SampleFile
end Xlrd
