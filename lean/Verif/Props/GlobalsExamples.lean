import Verif.Props.Settings

/-!
# A sample workbook globals substream

A BIFF8 stream with settings, fonts, number formats, XFs, styles, a palette, three sheets, a defined name and a
shared string table.  It meets the hypotheses of the theorems about the globals, and the model loads it with the
values the theorems speak of.
-/
namespace Xlrd
open Spec

namespace Sample

def txt (s : String) : UStr := ⟨s.toList, 0, false, none, none⟩

theorem txt_ok (s : String) (h : ∀ u ∈ utf16 s.toList, u < 256) : (txt s).Ok :=
  ⟨⟨by simp [txt], by simp [txt]⟩, h, (by intro rs h; cases h), (by intro p h; cases h)⟩

def font : Font := { height := 200, weight := 400, colourIndex := 10, name := "Arial".toList }
def fontData : Bytes := leBytes 14 (packFields (fontFields5 font (0, 0))) ++ (encLen 1 5 ++ (txt "Arial").body ++ [])
def fmtData : Bytes := le16 164 ++ (encLen 2 4 ++ (txt "yyyy").body) ++ []
def xfA : XF := { formatKey := 164, borderFlag := 1, topColourIndex := 12 }
def xfB : XF := { formatKey := 2 }
def xfC : XF := { formatKey := 170, fontIndex := 3 }
def xfData (x : XF) : Bytes := leBytes 20 (packFields (xfFields8 x (0, 0, 0, 0, 0))) ++ []
def styleData : Bytes := leBytes 2 (packFields [(7, 12), (0, 3), (1, 1)]) ++ [UInt8.ofNat 1, UInt8.ofNat 2] ++ []
def userData : Bytes := leBytes 2 (packFields [(5, 12), (0, 3), (0, 1)]) ++ (encLen 2 2 ++ (txt "My").body) ++ []
def sheetA : SheetRec := ⟨1000, 0, 0, "A".toList⟩
def sheetB : SheetRec := ⟨2000, 1, 2, "B".toList⟩
def sheetC : SheetRec := ⟨3000, 2, 0, "C".toList⟩
def sheetData (s : SheetRec) (n : String) : Bytes :=
  le32 s.offset ++ [UInt8.ofNat s.visibility, UInt8.ofNat s.ty] ++ (encLen 1 1 ++ (txt n).body) ++ []
def nm : NameObj :=
  { nameIndex := 0, optionFlags := 32, hidden := 0, func := 0, vbasic := 0, macroFlag := 0, complex := 0, builtin := 1, funcgroup := 0,
    binary := 0, extnSheetNum := 0, excelSheetIndex := 3, scope := none, name := "Print_Area".toList, rawFormula := [1, 2, 3], basicFormulaLen := 3 }
def nameData : Bytes :=
  le16 32 ++ [0, UInt8.ofNat 1] ++ le16 3 ++ le16 0 ++ le16 3 ++ [0, 0, 0, 0] ++ (txt "\x06").body ++ [1, 2, 3]
def sharedStrings : List SStr :=
  [⟨['a', 'b', '€'], ⟨0, false, [0x61]⟩, [⟨1, true, [0x62, 0x20ac]⟩], false, [], [], false, [], [], false⟩]
def sstData : Bytes := [1, 0, 0, 0, 1, 0, 0, 0, 3, 0, 0, 0x61]
def sstMore : Bytes := [1, 0x62, 0, 0xac, 0x20]

def items : List GItem :=
  [.one 0x42 [0xb0, 0x04],
   .one 0x5c (encLen 2 3 ++ (txt "me ").body ++ [0x20, 0x20]),
   .one 0x22 [1, 0],
   .one 0x8c [1, 0, 44, 0],
   .one 0x31 fontData, .one 0x31 fontData, .one 0x31 fontData, .one 0x31 fontData, .one 0x31 fontData,
   .one 0x41e fmtData,
   .one 0xe0 (xfData xfA), .one 0xe0 (xfData xfB), .one 0xe0 (xfData xfC),
   .one 0x293 styleData, .one 0x293 userData,
   .one 0x92 (encPalette [((1, 2, 3), 0), ((4, 5, 6), 0)] []),
   .one 0x85 (sheetData sheetA "A"), .one 0x85 (sheetData sheetB "B"), .one 0x85 (sheetData sheetC "C"),
   .one 0x18 nameData,
   .sst sstData [sstMore]]

/-- The options and the libraries. -/
def outside : OpenEnv where
  fuel := 1000
  depth := 1000
  lower := fun s => s.map Char.toLower
  codec := fun _ b => .ok (b.map fun x => Char.ofNat x.toNat)
  rstrip := fun s => (s.reverse.dropWhile (· = ' ')).reverse
  evalNames := fun _ => .ok ()
  override := []
  fi := true
  ragged := false
  onDemand := false
  ignore := false

abbrev env : BookEnv := outside.bookEnv 80 10

theorem ok : GlobalsOk 80 items where
  sized := by unfold GItem.Sized; decide +kernel
  plain := by
    intro it h
    simp only [items, List.mem_cons, List.mem_nil_iff, or_false] at h
    rcases h with rfl | rfl | rfl | rfl | rfl | rfl | rfl | rfl | rfl | rfl | rfl | rfl | rfl | rfl | rfl | rfl | rfl | rfl | rfl | rfl | rfl <;>
      simp [GItem.Plain]
  stray := by simp [items, NoStrayContinue]

/-- The stream loads. -/
def loaded : Option Book := (parseGlobals env ([9, 9] ++ encGlobals items [] ++ [7]) newBook 2).toOption.map Prod.fst

example : loaded.isSome = true := by decide +kernel
example : loaded.map (fun b => (b.datemode, b.countries, b.userName, b.encoding)) =
    some (1, (1, 44), "me".toList, some "utf_16_le".toList) := by decide +kernel
example : loaded.map (fun b => (b.sheetNames, b.shAbsPosn, b.sheetVisibility, b.allSheetsMap)) =
    some (["A".toList, "C".toList], [1010, 3010], [0, 2], [0, -1, 1]) := by decide +kernel
example : loaded.map (fun b => (b.fmt.fontList.map Font.fontIndex, b.fmt.xfList.map fun x => (x.xfIndex, x.formatKey))) =
    some ([0, 1, 2, 3, 4, 5], [(0, 164), (1, 2), (2, 0)]) := by decide +kernel
example : loaded.map (fun b => [0, 1, 2].map b.fmt.typeMap) = some [some XL_CELL_DATE, some XL_CELL_NUMBER, some XL_CELL_NUMBER] := by
  decide +kernel
example : loaded.map (fun b => ["RowLevel_3".toList, "My".toList, "Normal".toList].map b.fmt.styleMap) =
    some [some (1, 7), some (0, 5), none] := by decide +kernel
example : loaded.map (fun b => [8, 9, 10].map (itemsGet b.fmt.colourMap)) =
    some [some (some (1, 2, 3)), some (some (4, 5, 6)), some (some (255, 0, 0))] := by decide +kernel
example : loaded.map (fun b => [0, 10, 11, 12].map b.fmt.coloursUsed) = some [true, true, false, true] := by decide +kernel
example : loaded.map (fun b => (b.nameObjs.map fun o => (o.name, o.scope), b.nameMap "print_area".toList,
    b.nameAndScopeMap ("print_area".toList, 1))) = some ([("Print_Area".toList, some 1)], some [0], some 0) := by decide +kernel
example : loaded.map (fun b => b.sst.map Prod.fst) = some [['a', 'b', '€']] := by decide +kernel

/-! The hypotheses of the theorems about the records. -/


def codeOf : GItem → Option Nat
  | .one c _ => some c
  | _ => none

theorem skipTo {α : Type} {sel : Nat → Prop} {Rel : List GItem → Bytes → α → Prop} {xs : List α} (a b : Nat) (hab : a ≤ b)
    (hl : ∀ it ∈ (items.drop a).take (b - a), ∀ c ∈ codeOf it, ¬ sel c) (h : Collected sel Rel (items.take a) xs) :
    Collected sel Rel (items.take b) xs := by
  have e : items.take b = items.take a ++ (items.drop a).take (b - a) := by
    rw [← List.take_add, Nat.add_sub_cancel' hab]
  rw [e]
  generalize (items.drop a).take (b - a) = l at hl
  generalize items.take a = pre at h
  induction l generalizing pre with
  | nil => simpa using h
  | cons it rest ih =>
    have := ih (fun x hx => hl x (List.mem_cons_of_mem _ hx)) _ (h.skip (it := it) (by rintro c d rfl; exact hl _ (List.mem_cons_self ..) c rfl))
    simpa using this

theorem takeAt {α : Type} {sel : Nat → Prop} {Rel : List GItem → Bytes → α → Prop} {xs : List α} (n c : Nat) (d : Bytes) (x : α)
    (hi : items[n]? = some (.one c d)) (hc : sel c) (hx : Rel (items.take n) d x) (h : Collected sel Rel (items.take n) xs) :
    Collected sel Rel (items.take (n + 1)) (xs ++ [x]) := by
  rw [List.take_add_one, hi]
  exact h.take hc hx

theorem style_skips {bv : Nat} {dec : List GItem → Bytes → R PyStr} {pre : List GItem} {ss : List StyleRec}
    (h : Styles bv dec pre ss) (l : List GItem) (hl : ∀ it ∈ l, codeOf it ≠ some 0x293) : Styles bv dec (pre ++ l) ss := by
  induction l generalizing pre with
  | nil => simpa using h
  | cons it rest ih =>
    have := ih (h.skip (it := it) (by rintro d rfl; exact hl _ (List.mem_cons_self ..) rfl)) (fun x hx => hl x (List.mem_cons_of_mem _ hx))
    simpa using this

theorem datemodes : Datemodes items [1] := by
  unfold Datemodes
  refine skipTo 3 21 (by decide) (by decide +kernel) ?_
  refine takeAt (xs := []) 2 _ _ 1 rfl rfl ⟨by decide, [], rfl⟩ ?_
  exact skipTo 0 2 (by decide) (by decide +kernel) .nil

theorem countries : Countries items [(1, 44)] := by
  unfold Countries
  refine skipTo 4 21 (by decide) (by decide +kernel) ?_
  refine takeAt (xs := []) 3 _ _ (1, 44) rfl rfl ⟨by decide, by decide, [], rfl⟩ ?_
  exact skipTo 0 3 (by decide) (by decide +kernel) .nil

theorem users : UserNames items ["me ".toList] := by
  unfold UserNames
  refine skipTo 2 21 (by decide) (by decide +kernel) ?_
  refine takeAt (xs := []) 1 _ _ "me ".toList rfl rfl
    ⟨txt "me ", [0x20, 0x20], txt_ok _ (by decide +kernel), rfl, by decide +kernel, rfl⟩ ?_
  exact skipTo 0 1 (by decide) (by decide +kernel) .nil

theorem fontRec (dec : Bytes → R PyStr) : FontRecord dec font 80 fontData :=
  .biff8 (0, 0) (txt "Arial") [] (by unfold FieldsFit; decide +kernel) (txt_ok _ (by decide +kernel)) rfl (by decide +kernel)

theorem fonts : Fonts 80 (textAt env) items [font, font, font, font, font] := by
  unfold Fonts
  refine skipTo 9 21 (by decide) (by decide +kernel) ?_
  refine takeAt (xs := [font, font, font, font]) 8 _ _ font rfl (Or.inl rfl) (fontRec _) ?_
  refine takeAt (xs := [font, font, font]) 7 _ _ font rfl (Or.inl rfl) (fontRec _) ?_
  refine takeAt (xs := [font, font]) 6 _ _ font rfl (Or.inl rfl) (fontRec _) ?_
  refine takeAt (xs := [font]) 5 _ _ font rfl (Or.inl rfl) (fontRec _) ?_
  refine takeAt (xs := []) 4 _ _ font rfl (Or.inl rfl) (fontRec _) ?_
  exact skipTo 0 4 (by decide) (by decide +kernel) .nil

theorem fmtRec (dec : Bytes → R PyStr) : FormatRecord 80 dec (164, "yyyy".toList) fmtData :=
  ⟨_, [], .biff8 (txt "yyyy") (by decide) (txt_ok _ (by decide +kernel)) rfl (by decide +kernel), by decide, rfl⟩

theorem formatsTo (n : Nat) (hn : 10 ≤ n) (h : ∀ it ∈ (items.drop 10).take (n - 10), ∀ c ∈ codeOf it, ¬ c = 0x41e) :
    Formats 80 (textAt env) (items.take n) [(164, "yyyy".toList)] := by
  unfold Formats
  refine skipTo 10 n hn h ?_
  refine takeAt (xs := []) 9 _ _ (164, "yyyy".toList) rfl rfl (fmtRec _) ?_
  exact skipTo 0 9 (by decide) (by decide +kernel) .nil

theorem formats : Formats 80 (textAt env) items [(164, "yyyy".toList)] := formatsTo 21 (by decide) (by decide +kernel)

theorem xfRec (x : XF) (h : FieldsFit (xfFields8 x (0, 0, 0, 0, 0))) : XfRecord x 80 (xfData x) := .biff8 (0, 0, 0, 0, 0) [] h

theorem xfs : Xfs 80 (textAt env) items [xfA, xfB, { xfC with formatKey := 0 }] := by
  unfold Xfs
  refine skipTo 13 21 (by decide) (by decide +kernel) ?_
  refine takeAt (xs := [xfA, xfB]) 12 _ _ _ rfl rfl ⟨xfC, _, xfRec _ (by unfold FieldsFit; decide +kernel), formatsTo 12 (by decide) (by decide +kernel),
    Or.inr ⟨by unfold BuiltinKey; decide +kernel, rfl⟩⟩ ?_
  refine takeAt (xs := [xfA]) 11 _ _ xfB rfl rfl ⟨xfB, _, xfRec _ (by unfold FieldsFit; decide +kernel), formatsTo 11 (by decide) (by decide +kernel),
    Or.inl ⟨Or.inl (Or.inl (by decide)), rfl⟩⟩ ?_
  refine takeAt (xs := []) 10 _ _ xfA rfl rfl ⟨xfA, _, xfRec _ (by unfold FieldsFit; decide +kernel), formatsTo 10 (by decide) (by decide +kernel),
    Or.inl ⟨Or.inr (by decide +kernel), rfl⟩⟩ ?_
  exact skipTo 0 10 (by decide) (by decide +kernel) .nil

theorem sheetRec (dec : Bytes → R PyStr) (s : SheetRec) (n : String) (h1 : s.name = n.toList) (h2 : s.offset < 2 ^ 31) (h3 : s.visibility < 256)
    (h4 : s.ty < 256) (h5 : ∀ u ∈ utf16 n.toList, u < 256) (h6 : (utf16 n.toList).length = 1) : BoundsheetRecord 80 dec s (sheetData s n) :=
  ⟨_, [], .biff8 (txt n) (by decide) (txt_ok _ h5) h1.symm (by rw [h1, h6]; decide), h2, h3, h4, by rw [h1, h6]; rfl⟩

theorem sheets : Sheets 80 (textAt env) items [sheetA, sheetB, sheetC] := by
  unfold Sheets
  refine skipTo 19 21 (by decide) (by decide +kernel) ?_
  refine takeAt (xs := [sheetA, sheetB]) 18 _ _ sheetC rfl rfl (sheetRec _ sheetC "C" rfl (by decide) (by decide) (by decide) (by decide +kernel) (by decide +kernel)) ?_
  refine takeAt (xs := [sheetA]) 17 _ _ sheetB rfl rfl (sheetRec _ sheetB "B" rfl (by decide) (by decide) (by decide) (by decide +kernel) (by decide +kernel)) ?_
  refine takeAt (xs := []) 16 _ _ sheetA rfl rfl (sheetRec _ sheetA "A" rfl (by decide) (by decide) (by decide) (by decide +kernel) (by decide +kernel)) ?_
  exact skipTo 0 16 (by decide) (by decide +kernel) .nil

theorem nameRec (dec : Bytes → R PyStr) : NameRecord 80 dec nm nameData :=
  ⟨0, 0, 1, [0, 0, 0, 0], "\x06".toList, (txt "\x06").body, by unfold FieldsFit; decide +kernel, by decide +kernel, by decide, by decide, by decide, by decide,
    by decide, rfl, .biff8 (txt "\x06") (by decide) (txt_ok _ (by decide +kernel)) rfl,
    by unfold NameShown; exact Or.inl ⟨Char.ofNat 6, "Print_Area", rfl, by decide +kernel, rfl⟩, rfl⟩

theorem names : Names 80 (textAt env) items [nm] := by
  unfold Names
  refine skipTo 20 21 (by decide) (by decide +kernel) ?_
  refine takeAt (xs := []) 19 _ _ nm rfl rfl (nameRec _) ?_
  exact skipTo 0 19 (by decide) (by decide +kernel) .nil

theorem palettes : Palettes items [[(1, 2, 3), (4, 5, 6)]] := by
  unfold Palettes
  refine skipTo 16 21 (by decide) (by decide +kernel) ?_
  refine takeAt (xs := []) 15 _ _ _ rfl rfl
    ⟨[((1, 2, 3), 0), ((4, 5, 6), 0)], [], by unfold IsRgb; decide, by decide, by decide, rfl, rfl⟩ ?_
  exact skipTo 0 15 (by decide) (by decide +kernel) .nil

theorem styles : Styles 80 (textAt env) items [⟨"RowLevel_3".toList, true, 7⟩, ⟨"My".toList, false, 5⟩] :=
  style_skips (((style_skips .nil (items.take 13) (by decide +kernel)).take
    (.builtin 7 0 1 2 "RowLevel_" [] (by decide) (by decide) (by decide) (by decide) rfl)).take
    (.user 5 0 "My".toList _ [] (by decide) (by decide)
      (.biff8 (txt "My") (by decide) (txt_ok _ (by decide +kernel)) rfl (by decide +kernel)) (by decide +kernel) (Or.inr (by decide +kernel))))
    (items.drop 15) (by decide +kernel)

example : sstRecords (le32 1 ++ le32 1) sharedStrings = [sstData, sstMore] := by decide +kernel

/-- A load of the stream, as the theorems have it. -/
theorem load : ∃ b p, parseGlobals env ([9, 9] ++ encGlobals items [] ++ [7]) newBook (([9, 9] : Bytes).length : Int) = .ok (b, p) ∧
    b.embedded = [] := by
  have hl : ((parseGlobals env ([9, 9] ++ encGlobals items [] ++ [7]) newBook (([9, 9] : Bytes).length : Int)).toOption.map
    fun r => r.1.embedded.length) = some 0 := by decide +kernel
  cases h : parseGlobals env ([9, 9] ++ encGlobals items [] ++ [7]) newBook (([9, 9] : Bytes).length : Int) with
  | ok r =>
    rw [h] at hl
    exact ⟨r.1, r.2, rfl, by simpa [Except.toOption] using hl⟩
  | error e => rw [h] at hl; cases hl

/-- The theorems apply to it. -/
example : ∃ b : Book, b.datemode = 1 ∧ b.countries = (1, 44) ∧ b.fmt.typeMap 0 = some XL_CELL_DATE := by
  obtain ⟨b, p, h, hn⟩ := load
  have h1 := C64_datemode env [9, 9] [7] [] (by decide) items ok [1] datemodes b p h
  have h2 := C64_countries env [9, 9] [7] [] (by decide) items ok _ countries b p h
  have h3 := C64_user_name env (by decide) [9, 9] [7] [] (by decide) items ok _ users b p h
  have h4 := C36_fonts env rfl [9, 9] [7] [] (by decide) items ok _ fonts b p h
  have h5 := C35_xf_list env (by decide) [9, 9] [7] [] (by decide) items ok _ xfs b p h
  have h6 := C34_date_cells env (by decide) [9, 9] [7] [] (by decide) items ok _ formats _ xfs b p h 0 xfA rfl
  have h7 := C43_boundsheets env (by decide) [9, 9] [7] [] (by decide) items ok _ sheets b p h
  have h8 := C44_names env (by decide) [9, 9] [7] [] (by decide) items ok _ names _ sheets b p h
  have h9 := C37_workbook env excelDefaultPaletteB8 rfl [9, 9] [7] [] (by decide) items ok _ palettes b p h
  have h10 := C65_styles env rfl [9, 9] [7] [] (by decide) items ok _ styles b p h
  have h11 := C53_encoding_partial env [9, 9] [7] [] (by decide) items ok b p h (Or.inr (Or.inr rfl))
  have h12 := C66_colours_used outside 80 10 _ _ b p h hn
  refine ⟨b, h1.1, h2, h6.1 ?_⟩
  exact ⟨⟨[.part (.plain 'y'), .part (.plain 'y'), .part (.plain 'y'), .part (.plain 'y')], none, .none⟩,
    by simp [FmtString.Ok, FTok.Ok, FPart.Ok, FPart.text, FEnd.Ok, isMark], by decide, by decide⟩

end Sample
end Xlrd
