import Verif.Model.FormatString
import Verif.Model.SheetRead

/-!
# Formatting information: `xlrd/formatting.py`

`verbosity` is 0: the warnings printed by these functions are left out.  Exceptions abandon the load, so
only the state of successful calls matters.
-/
namespace Xlrd

abbrev Rgb := Nat × Nat × Nat

/-- formatting.py 335-362 `Format`; the format string of a standard format may be None. -/
structure Format where
  key : Nat
  ty : Nat
  str : Option PyStr
  deriving DecidableEq, Repr

/-! biffh.py 63 -/
abbrev FUN : Nat := 0
abbrev FDT : Nat := 1
abbrev FNU : Nat := 2
abbrev FGE : Nat := 3
abbrev FTX : Nat := 4

/-- formatting.py 26-32 `_cellty_from_fmtty`; every `type` stored in a `Format` is one of the keys. -/
def celltyFromFmtty (ty : Nat) : Nat := if ty = FDT then XL_CELL_DATE else XL_CELL_NUMBER

/-- formatting.py 166-255 `Font` -/
structure Font where
  bold : Nat := 0
  characterSet : Nat := 0
  colourIndex : Nat := 0
  escapement : Nat := 0
  family : Nat := 0
  fontIndex : Nat := 0
  height : Nat := 0
  italic : Nat := 0
  name : PyStr := []
  struckOut : Nat := 0
  underlineType : Nat := 0
  underlined : Nat := 0
  weight : Nat := 400
  outline : Nat := 0
  shadow : Nat := 0
  deriving DecidableEq, Repr

/-- formatting.py 1106-1324 `XF` with its `XFBorder`, `XFBackground`, `XFAlignment` and `XFProtection`,
in one structure. -/
structure XF where
  xfIndex : Nat := 0
  fontIndex : Nat := 0
  formatKey : Nat := 0
  isStyle : Nat := 0
  lotus123Prefix : Nat := 0
  parentStyleIndex : Nat := 0
  cellLocked : Nat := 0
  formulaHidden : Nat := 0
  horAlign : Nat := 0
  vertAlign : Nat := 0
  textWrapped : Nat := 0
  rotation : Nat := 0
  indentLevel : Nat := 0
  shrinkToFit : Nat := 0
  textDirection : Nat := 0
  formatFlag : Nat := 0
  fontFlag : Nat := 0
  alignmentFlag : Nat := 0
  borderFlag : Nat := 0
  backgroundFlag : Nat := 0
  protectionFlag : Nat := 0
  leftLineStyle : Nat := 0
  rightLineStyle : Nat := 0
  topLineStyle : Nat := 0
  bottomLineStyle : Nat := 0
  diagLineStyle : Nat := 0
  leftColourIndex : Nat := 0
  rightColourIndex : Nat := 0
  topColourIndex : Nat := 0
  bottomColourIndex : Nat := 0
  diagColourIndex : Nat := 0
  diagDown : Nat := 0
  diagUp : Nat := 0
  fillPattern : Nat := 0
  patternColourIndex : Nat := 0
  backgroundColourIndex : Nat := 0
  deriving DecidableEq, Repr

/-- The formatting attributes of a book (book.py 655-664, 592-595, formatting.py 107-108).  The
dictionaries are functions, except `colour_map`, whose order matters: the list of its items. -/
structure FmtSt where
  formatMap : Nat → Option Format := fun _ => none
  formatList : List Format := []
  xfcount : Nat := 0
  actualfmtcount : Nat := 0
  typeMap : Nat → Option Nat := fun k => if k = 0 then some XL_CELL_NUMBER else none
  xfList : List XF := []
  fontList : List Font := []
  colourMap : List (Nat × Option Rgb) := []
  coloursUsed : Nat → Bool := fun _ => false
  paletteRecord : List Rgb := []
  styleMap : PyStr → Option (Nat × Nat) := fun _ => none

/-! ## Colours -/

/-- formatting.py 34-49 -/
def excelDefaultPaletteB5 : List Rgb := [
  (  0,   0,   0), (255, 255, 255), (255,   0,   0), (  0, 255,   0),
  (  0,   0, 255), (255, 255,   0), (255,   0, 255), (  0, 255, 255),
  (128,   0,   0), (  0, 128,   0), (  0,   0, 128), (128, 128,   0),
  (128,   0, 128), (  0, 128, 128), (192, 192, 192), (128, 128, 128),
  (153, 153, 255), (153,  51, 102), (255, 255, 204), (204, 255, 255),
  (102,   0, 102), (255, 128, 128), (  0, 102, 204), (204, 204, 255),
  (  0,   0, 128), (255,   0, 255), (255, 255,   0), (  0, 255, 255),
  (128,   0, 128), (128,   0,   0), (  0, 128, 128), (  0,   0, 255),
  (  0, 204, 255), (204, 255, 255), (204, 255, 204), (255, 255, 153),
  (153, 204, 255), (255, 153, 204), (204, 153, 255), (227, 227, 227),
  ( 51, 102, 255), ( 51, 204, 204), (153, 204,   0), (255, 204,   0),
  (255, 153,   0), (255, 102,   0), (102, 102, 153), (150, 150, 150),
  (  0,  51, 102), ( 51, 153, 102), (  0,  51,   0), ( 51,  51,   0),
  (153,  51,   0), (153,  51, 102), ( 51,  51, 153), ( 51,  51,  51)]

/-- formatting.py 51 -/
def excelDefaultPaletteB2 : List Rgb := sliceTo excelDefaultPaletteB5 16

/-- formatting.py 55-70 -/
def excelDefaultPaletteB8 : List Rgb := [
  (  0,  0,  0), (255,255,255), (255,  0,  0), (  0,255,  0),
  (  0,  0,255), (255,255,  0), (255,  0,255), (  0,255,255),
  (128,  0,  0), (  0,128,  0), (  0,  0,128), (128,128,  0),
  (128,  0,128), (  0,128,128), (192,192,192), (128,128,128),
  (153,153,255), (153, 51,102), (255,255,204), (204,255,255),
  (102,  0,102), (255,128,128), (  0,102,204), (204,204,255),
  (  0,  0,128), (255,  0,255), (255,255,  0), (  0,255,255),
  (128,  0,128), (128,  0,  0), (  0,128,128), (  0,  0,255),
  (  0,204,255), (204,255,255), (204,255,204), (255,255,153),
  (153,204,255), (255,153,204), (204,153,255), (255,204,153),
  ( 51,102,255), ( 51,204,204), (153,204,  0), (255,204,  0),
  (255,153,  0), (255,102,  0), (102,102,153), (150,150,150),
  (  0, 51,102), ( 51,153,102), (  0, 51,  0), ( 51, 51,  0),
  (153, 51,  0), (153, 51,102), ( 51, 51,153), ( 51, 51, 51)]

/-- formatting.py 72-81 `default_palette[bv]` -/
def defaultPalette (bv : Nat) : R (List Rgb) :=
  if bv = 80 then .ok excelDefaultPaletteB8
  else if bv = 70 ∨ bv = 50 then .ok excelDefaultPaletteB5
  else if bv = 45 ∨ bv = 40 ∨ bv = 30 ∨ bv = 21 ∨ bv = 20 then .ok excelDefaultPaletteB2
  else .error .key

/-- `d[k] = v` for a dictionary kept as the list of its items: a known key keeps its place. -/
def itemsSet {α : Type} (d : List (Nat × α)) (k : Nat) (v : α) : List (Nat × α) :=
  match d with
  | [] => [(k, v)]
  | (k', v') :: d => if k' = k then (k, v) :: d else (k', v') :: itemsSet d k v

/-- `d.get(k)`; the result is `none` if the key is absent. -/
def itemsGet {α : Type} (d : List (Nat × α)) (k : Nat) : Option α :=
  match d with
  | [] => none
  | (k', v) :: d => if k' = k then some v else itemsGet d k

/-- `for i in xrange(len(l)): d[i + off] = l[i]` -/
def itemsSetFrom {α β : Type} (f : β → α) (d : List (Nat × α)) (off : Nat) (l : List β) : List (Nat × α) :=
  match l with
  | [] => d
  | x :: xs => itemsSetFrom f (itemsSet d off (f x)) (off + 1) xs

/-- formatting.py 106-127 `initialise_colour_map` -/
def initialiseColourMap (bv : Nat) (fi : Bool) (st : FmtSt) : R FmtSt :=
  let st := { st with colourMap := [], coloursUsed := fun _ => false }
  if !fi then .ok st
  else do
    let m := itemsSetFrom some [] 0 (sliceTo excelDefaultPaletteB8 8)
    let dpal ← defaultPalette bv
    let m := itemsSetFrom some m 8 dpal
    let m := itemsSet m (dpal.length + 8) none
    let m := itemsSet m (dpal.length + 8 + 1) none
    let m := itemsSet m 0x51 none
    let m := itemsSet m 0x7FFF none
    pure { st with colourMap := m }

/-- formatting.py 141-143: `(v1 - v2) * (v1 - v2)` summed over the components. -/
def rgbMetric (a b : Rgb) : Int :=
  ((a.1 : Int) - b.1) * ((a.1 : Int) - b.1) + ((a.2.1 : Int) - b.2.1) * ((a.2.1 : Int) - b.2.1)
    + ((a.2.2 : Int) - b.2.2) * ((a.2.2 : Int) - b.2.2)

/-- formatting.py 138-148: the loop, with `best_metric` and `best_colourx`. -/
def nearestLoop (rgb : Rgb) : List (Nat × Option Rgb) → Int → Nat → Nat
  | [], _, best => best
  | (_, none) :: m, bm, best => nearestLoop rgb m bm best
  | (k, some c) :: m, bm, best =>
    let metric := rgbMetric rgb c
    if metric < bm then
      if metric = 0 then k else nearestLoop rgb m metric k
    else nearestLoop rgb m bm best

/-- formatting.py 130-152 `nearest_colour_index` -/
def nearestColourIndex (m : List (Nat × Option Rgb)) (rgb : Rgb) : Nat := nearestLoop rgb m (3 * 256 * 256) 0

/-- formatting.py 600-605: one colour of a PALETTE record. -/
def paletteRgb (c : Nat) : Rgb := (c &&& 0xff, (c >>> 8) &&& 0xff, (c >>> 16) &&& 0xff)

/-- formatting.py 599-608: `i` is the number of the next colour. -/
def paletteLoop (st : FmtSt) (i : Nat) : List Nat → R FmtSt
  | [] => .ok st
  | c :: cs =>
    match itemsGet st.colourMap (8 + i) with
    | none => .error .key
    | some _ => paletteLoop { st with paletteRecord := st.paletteRecord ++ [paletteRgb c],
                                      colourMap := itemsSet st.colourMap (8 + i) (some (paletteRgb c)) } (i + 1) cs

/-- formatting.py 577-611 `handle_palette`; the colours are read as unsigned, which gives the same bytes. -/
def handlePalette (fi : Bool) (st : FmtSt) (data : Bytes) : R FmtSt :=
  if !fi then .ok st
  else do
    let n ← unpackH (sliceTo data 2)
    let expected := 4 * n + 2
    if ¬ (expected ≤ data.length ∧ data.length ≤ expected + 4) then .error .xlrd
    else do
      let colours := (List.range n).map fun i => fld data (2 + 4 * i) 4
      pyAssert (st.paletteRecord = [])
      paletteLoop st 0 colours

/-- formatting.py 617-626: a font's colour is counted as used. -/
def fontColourUsed (m : List (Nat × Option Rgb)) (used : Nat → Bool) (f : Font) : Nat → Bool :=
  if f.fontIndex = 4 then used
  else if f.colourIndex = 0x7fff then used
  else if (itemsGet m f.colourIndex).isSome then (fun c => if c = f.colourIndex then true else used c)
  else used

/-- formatting.py 613-631 `palette_epilogue` -/
def paletteEpilogue (st : FmtSt) : FmtSt :=
  { st with coloursUsed := st.fontList.foldl (fontColourUsed st.colourMap) st.coloursUsed }

/-! ## Fonts -/

/-- formatting.py 280-331: the attributes of a FONT record. -/
def decodeFont (bv : Nat) (dec : Bytes → R PyStr) (k : Nat) (data : Bytes) : R Font :=
  if bv ≥ 50 then do
    let b ← unpackN 13 (slice data 0 13)
    let flags := fld b 2 2
    let name ← if bv ≥ 80 then unpackUnicode data 14 1 else unpackString dec data 14 1
    pure { fontIndex := k, height := fld b 0 2, colourIndex := fld b 4 2, weight := fld b 6 2, escapement := fld b 8 2,
           underlineType := fld b 10 1, family := fld b 11 1, characterSet := fld b 12 1,
           bold := flags &&& 1, italic := upk flags 1 2, underlined := upk flags 2 4, struckOut := upk flags 3 8,
           outline := upk flags 4 16, shadow := upk flags 5 32, name := name }
  else if bv ≥ 30 then do
    let b ← unpackN 6 (slice data 0 6)
    let flags := fld b 2 2
    let name ← unpackString dec data 6 1
    pure { fontIndex := k, height := fld b 0 2, colourIndex := fld b 4 2,
           bold := flags &&& 1, italic := upk flags 1 2, underlined := upk flags 2 4, struckOut := upk flags 3 8,
           outline := upk flags 4 16, shadow := upk flags 5 32, name := name,
           weight := if flags &&& 1 = 0 then 400 else 700, escapement := 0, underlineType := upk flags 2 4,
           family := 0, characterSet := 1 }
  else do
    let b ← unpackN 4 (slice data 0 4)
    let flags := fld b 2 2
    let name ← unpackString dec data 4 1
    pure { fontIndex := k, height := fld b 0 2, colourIndex := 0x7FFF,
           bold := flags &&& 1, italic := upk flags 1 2, underlined := upk flags 2 4, struckOut := upk flags 3 8,
           outline := 0, shadow := 0, name := name,
           weight := if flags &&& 1 = 0 then 400 else 700, escapement := 0, underlineType := upk flags 2 4,
           family := 0, characterSet := 1 }

/-- formatting.py 271-274: the dummy font. -/
def dummyFont : Font := { name := "Dummy Font".toList, fontIndex := 4 }

/-- formatting.py 269-275: the place holder for font 4, which no FONT record describes. -/
def fontPad (l : List Font) : List Font := if l.length = 4 then l ++ [dummyFont] else l

/-- formatting.py 262-331 `handle_font` (the encoding has been derived). -/
def handleFont (bv : Nat) (fi : Bool) (dec : Bytes → R PyStr) (st : FmtSt) (data : Bytes) : R FmtSt :=
  if !fi then .ok st
  else do
    let l := fontPad st.fontList
    let f ← decodeFont bv dec l.length data
    pure { st with fontList := l ++ [f] }

/-! ## Number formats -/

/-- formatting.py 364-403 `std_format_strings.get(x)` -/
def stdFormatString (x : Nat) : Option PyStr :=
  (itemsGet [
    (0x00, "General"), (0x01, "0"), (0x02, "0.00"), (0x03, "#,##0"), (0x04, "#,##0.00"),
    (0x05, "$#,##0_);($#,##0)"), (0x06, "$#,##0_);[Red]($#,##0)"), (0x07, "$#,##0.00_);($#,##0.00)"),
    (0x08, "$#,##0.00_);[Red]($#,##0.00)"), (0x09, "0%"), (0x0a, "0.00%"), (0x0b, "0.00E+00"),
    (0x0c, "# ?/?"), (0x0d, "# ??/??"), (0x0e, "m/d/yy"), (0x0f, "d-mmm-yy"), (0x10, "d-mmm"),
    (0x11, "mmm-yy"), (0x12, "h:mm AM/PM"), (0x13, "h:mm:ss AM/PM"), (0x14, "h:mm"), (0x15, "h:mm:ss"),
    (0x16, "m/d/yy h:mm"), (0x25, "#,##0_);(#,##0)"), (0x26, "#,##0_);[Red](#,##0)"),
    (0x27, "#,##0.00_);(#,##0.00)"), (0x28, "#,##0.00_);[Red](#,##0.00)"),
    (0x29, "_(* #,##0_);_(* (#,##0);_(* \"-\"_);_(@_)"), (0x2a, "_($* #,##0_);_($* (#,##0);_($* \"-\"_);_(@_)"),
    (0x2b, "_(* #,##0.00_);_(* (#,##0.00);_(* \"-\"??_);_(@_)"),
    (0x2c, "_($* #,##0.00_);_($* (#,##0.00);_($* \"-\"??_);_(@_)"),
    (0x2d, "mm:ss"), (0x2e, "[h]:mm:ss"), (0x2f, "mm:ss.0"), (0x30, "##0.0E+0"), (0x31, "@")] x).map String.toList

/-- formatting.py 406-422 `fmt_code_ranges` -/
def fmtCodeRanges : List (Nat × Nat × Nat) := [
  (0, 0, FGE), (1, 13, FNU), (14, 22, FDT), (27, 36, FDT), (37, 44, FNU), (45, 47, FDT), (48, 48, FNU), (49, 49, FTX),
  (50, 58, FDT), (59, 62, FNU), (67, 70, FNU), (71, 81, FDT)]

/-- formatting.py 424-428 `std_format_code_types` (the ranges do not overlap) -/
def stdFormatCodeType (x : Nat) : Option Nat :=
  (fmtCodeRanges.find? fun r => decide (r.1 ≤ x ∧ x ≤ r.2.1)).map fun r => r.2.2

/-- formatting.py 535-540 -/
def formatKeyOf (bv : Nat) (count : Nat) (data : Bytes) : R Nat :=
  if bv ≥ 50 then unpackH (slice data 0 2) else .ok count

/-- formatting.py 534, 538-545: the format string of a FORMAT record. -/
def formatStrOf (bv : Nat) (dec : Bytes → R PyStr) (data : Bytes) : R PyStr :=
  if bv ≥ 80 then unpackUnicode data 2 2
  else unpackString dec data (if bv ≤ 30 then 0 else 2) 1

/-- formatting.py 525-573 `handle_format` (the encoding has been derived); `format2` is
`rectype == XL_FORMAT2`. -/
def handleFormat (bv : Nat) (dec : Bytes → R PyStr) (st : FmtSt) (data : Bytes) (format2 : Bool) : R FmtSt := do
  let bv := if format2 then min bv 30 else bv
  let key ← formatKeyOf bv st.actualfmtcount data
  let s ← formatStrOf bv dec data
  let f : Format := ⟨key, if isDateFormatString s then FDT else FGE, some s⟩
  pure { st with actualfmtcount := st.actualfmtcount + 1, formatMap := dictSet st.formatMap key f,
                 formatList := st.formatList ++ [f] }

/-- formatting.py 689-698 `fill_in_standard_formats` -/
def fillInStandardFormats (m : Nat → Option Format) : Nat → Option Format := fun x =>
  match m x with
  | some f => some f
  | none => (stdFormatCodeType x).map fun ty => ⟨x, ty, stdFormatString x⟩

/-! ## Extended formats -/

/-- formatting.py 746-758 and the like: `reg & 1` after `i` shifts. -/
def usedFlag (reg i : Nat) : Nat := (reg >>> i) &&& 1

/-- formatting.py 796, 850: `[0, 255, 90, 180][orientation]` -/
def rotationOf (orientation : Nat) : Nat :=
  match orientation with
  | 0 => 0
  | 1 => 255
  | 2 => 90
  | _ => 180

/-- formatting.py 721-781 -/
def decodeXf80 (data : Bytes) : R XF := do
  let b ← unpackN 20 (slice data 0 20)
  let par := fld b 4 2
  let al1 := fld b 6 1
  let al2 := fld b 8 1
  let reg := fld b 9 1 >>> 2
  let bb1 := fld b 10 4
  let bb2 := fld b 14 4
  let bb3 := fld b 18 2
  pure { fontIndex := fld b 0 2, formatKey := fld b 2 2,
         cellLocked := upk par 0 0x01, formulaHidden := upk par 1 0x02,
         isStyle := upk par 2 0x0004, lotus123Prefix := upk par 3 0x0008, parentStyleIndex := upk par 4 0xFFF0,
         horAlign := upk al1 0 0x07, textWrapped := upk al1 3 0x08, vertAlign := upk al1 4 0x70,
         rotation := fld b 7 1,
         indentLevel := upk al2 0 0x0f, shrinkToFit := upk al2 4 0x10, textDirection := upk al2 6 0xC0,
         formatFlag := usedFlag reg 0, fontFlag := usedFlag reg 1, alignmentFlag := usedFlag reg 2,
         borderFlag := usedFlag reg 3, backgroundFlag := usedFlag reg 4, protectionFlag := usedFlag reg 5,
         leftLineStyle := upk bb1 0 0x0000000f, rightLineStyle := upk bb1 4 0x000000f0,
         topLineStyle := upk bb1 8 0x00000f00, bottomLineStyle := upk bb1 12 0x0000f000,
         leftColourIndex := upk bb1 16 0x007f0000, rightColourIndex := upk bb1 23 0x3f800000,
         diagDown := upk bb1 30 0x40000000, diagUp := upk bb1 31 0x80000000,
         topColourIndex := upk bb2 0 0x0000007F, bottomColourIndex := upk bb2 7 0x00003F80,
         diagColourIndex := upk bb2 14 0x001FC000, diagLineStyle := upk bb2 21 0x01E00000,
         fillPattern := upk bb2 26 0xFC000000,
         patternColourIndex := upk bb3 0 0x007F, backgroundColourIndex := upk bb3 7 0x3F80 }

/-- formatting.py 782-832 -/
def decodeXf50 (data : Bytes) : R XF := do
  let b ← unpackN 16 (slice data 0 16)
  let par := fld b 4 2
  let al1 := fld b 6 1
  let orient := fld b 7 1
  let reg := orient >>> 2
  let bb1 := fld b 8 4
  let bb2 := fld b 12 4
  pure { fontIndex := fld b 0 2, formatKey := fld b 2 2,
         cellLocked := upk par 0 0x01, formulaHidden := upk par 1 0x02,
         isStyle := upk par 2 0x0004, lotus123Prefix := upk par 3 0x0008, parentStyleIndex := upk par 4 0xFFF0,
         horAlign := upk al1 0 0x07, textWrapped := upk al1 3 0x08, vertAlign := upk al1 4 0x70,
         rotation := rotationOf (orient &&& 0x03),
         formatFlag := usedFlag reg 0, fontFlag := usedFlag reg 1, alignmentFlag := usedFlag reg 2,
         borderFlag := usedFlag reg 3, backgroundFlag := usedFlag reg 4, protectionFlag := usedFlag reg 5,
         patternColourIndex := upk bb1 0 0x0000007F, backgroundColourIndex := upk bb1 7 0x00003F80,
         fillPattern := upk bb1 16 0x003F0000, bottomLineStyle := upk bb1 22 0x01C00000,
         bottomColourIndex := upk bb1 25 0xFE000000,
         topLineStyle := upk bb2 0 0x00000007, leftLineStyle := upk bb2 3 0x00000038,
         rightLineStyle := upk bb2 6 0x000001C0, topColourIndex := upk bb2 9 0x0000FE00,
         leftColourIndex := upk bb2 16 0x007F0000, rightColourIndex := upk bb2 23 0x3F800000 }

/-- formatting.py 833-885 -/
def decodeXf40 (data : Bytes) : R XF := do
  let b ← unpackN 12 (slice data 0 12)
  let par := fld b 2 2
  let al := fld b 4 1
  let reg := fld b 5 1 >>> 2
  let bkg := fld b 6 2
  let brd := fld b 8 4
  pure { fontIndex := fld b 0 1, formatKey := fld b 1 1,
         cellLocked := upk par 0 0x01, formulaHidden := upk par 1 0x02,
         isStyle := upk par 2 0x0004, lotus123Prefix := upk par 3 0x0008, parentStyleIndex := upk par 4 0xFFF0,
         horAlign := upk al 0 0x07, textWrapped := upk al 3 0x08, vertAlign := upk al 4 0x30,
         rotation := rotationOf ((al &&& 0xC0) >>> 6),
         formatFlag := usedFlag reg 0, fontFlag := usedFlag reg 1, alignmentFlag := usedFlag reg 2,
         borderFlag := usedFlag reg 3, backgroundFlag := usedFlag reg 4, protectionFlag := usedFlag reg 5,
         fillPattern := upk bkg 0 0x003F, patternColourIndex := upk bkg 6 0x07C0, backgroundColourIndex := upk bkg 11 0xF800,
         topLineStyle := upk brd 0 0x00000007, topColourIndex := upk brd 3 0x000000F8,
         leftLineStyle := upk brd 8 0x00000700, leftColourIndex := upk brd 11 0x0000F800,
         bottomLineStyle := upk brd 16 0x00070000, bottomColourIndex := upk brd 19 0x00F80000,
         rightLineStyle := upk brd 24 0x07000000, rightColourIndex := upk brd 27 0xF8000000 }

/-- formatting.py 886-935 -/
def decodeXf30 (data : Bytes) : R XF := do
  let b ← unpackN 12 (slice data 0 12)
  let prot := fld b 2 1
  let reg := fld b 3 1 >>> 2
  let par := fld b 4 2
  let bkg := fld b 6 2
  let brd := fld b 8 4
  pure { fontIndex := fld b 0 1, formatKey := fld b 1 1,
         cellLocked := upk prot 0 0x01, formulaHidden := upk prot 1 0x02,
         isStyle := upk prot 2 0x0004, lotus123Prefix := upk prot 3 0x0008,
         horAlign := upk par 0 0x07, textWrapped := upk par 3 0x08, parentStyleIndex := upk par 4 0xFFF0,
         formatFlag := usedFlag reg 0, fontFlag := usedFlag reg 1, alignmentFlag := usedFlag reg 2,
         borderFlag := usedFlag reg 3, backgroundFlag := usedFlag reg 4, protectionFlag := usedFlag reg 5,
         fillPattern := upk bkg 0 0x003F, patternColourIndex := upk bkg 6 0x07C0, backgroundColourIndex := upk bkg 11 0xF800,
         topLineStyle := upk brd 0 0x00000007, topColourIndex := upk brd 3 0x000000F8,
         leftLineStyle := upk brd 8 0x00000700, leftColourIndex := upk brd 11 0x0000F800,
         bottomLineStyle := upk brd 16 0x00070000, bottomColourIndex := upk brd 19 0x00F80000,
         rightLineStyle := upk brd 24 0x07000000, rightColourIndex := upk brd 27 0xF8000000,
         vertAlign := 2, rotation := 0 }

/-- formatting.py 952-957: colour and line style of a border that is there or not. -/
def thinBorder (etc mask : Nat) : Nat × Nat := if etc &&& mask ≠ 0 then (8, 1) else (0, 0)

/-- formatting.py 936-981: the whole record must have four bytes. -/
def decodeXf21 (data : Bytes) : R XF := do
  let b ← unpackN 4 data
  let fmt := fld b 2 1
  let etc := fld b 3 1
  pure { fontIndex := fld b 0 1, formatKey := fmt &&& 0x3F,
         cellLocked := upk fmt 6 0x40, formulaHidden := upk fmt 7 0x80,
         horAlign := upk etc 0 0x07,
         leftColourIndex := (thinBorder etc 0x08).1, leftLineStyle := (thinBorder etc 0x08).2,
         rightColourIndex := (thinBorder etc 0x10).1, rightLineStyle := (thinBorder etc 0x10).2,
         topColourIndex := (thinBorder etc 0x20).1, topLineStyle := (thinBorder etc 0x20).2,
         bottomColourIndex := (thinBorder etc 0x40).1, bottomLineStyle := (thinBorder etc 0x40).2,
         fillPattern := if etc &&& 0x80 ≠ 0 then 17 else 0,
         backgroundColourIndex := 9, patternColourIndex := 8, parentStyleIndex := 0, vertAlign := 2, rotation := 0,
         formatFlag := 1, fontFlag := 1, alignmentFlag := 1, borderFlag := 1, backgroundFlag := 1, protectionFlag := 1 }

/-- formatting.py 720-983: the attributes of an XF record by BIFF version. -/
def decodeXf (bv : Nat) (data : Bytes) : R XF :=
  if bv ≥ 80 then decodeXf80 data
  else if bv ≥ 50 then decodeXf50 data
  else if bv ≥ 40 then decodeXf40 data
  else if bv = 30 then decodeXf30 data
  else if bv = 21 then decodeXf21 data
  else .error .xlrd

/-- The colour indexes that `check_colour_indexes_in_obj` finds in an XF (all are set by `handle_xf`). -/
def XF.colourIndexes (x : XF) : List Nat :=
  [x.leftColourIndex, x.rightColourIndex, x.topColourIndex, x.bottomColourIndex, x.diagColourIndex,
   x.patternColourIndex, x.backgroundColourIndex]

/-- formatting.py 676-687 `check_colour_indexes_in_obj` -/
def checkColourIndexes (m : List (Nat × Option Rgb)) (used : Nat → Bool) (x : XF) : Nat → Bool :=
  fun c => used c || (decide (c ∈ x.colourIndexes) && (itemsGet m c).isSome)

/-- formatting.py 992-997: the cell type for a format key, `dflt` if the key is unknown. -/
def cellTypeOf (m : Nat → Option Format) (key dflt : Nat) : Nat :=
  match m key with
  | some f => celltyFromFmtty f.ty
  | none => dflt

/-- formatting.py 1009-1014: an unknown format key becomes 0. -/
def knownKey (m : Nat → Option Format) (key : Nat) : Nat := if (m key).isSome then key else 0

/-- formatting.py 700-1014 `handle_xf` -/
def handleXf (bv : Nat) (fi : Bool) (st : FmtSt) (data : Bytes) : R FmtSt := do
  let m := if bv ≥ 50 ∧ st.xfcount = 0 then fillInStandardFormats st.formatMap else st.formatMap
  let x ← decodeXf bv data
  let x := { x with xfIndex := st.xfList.length }
  let used := if fi then checkColourIndexes st.colourMap st.coloursUsed x else st.coloursUsed
  pure { st with formatMap := m, xfcount := st.xfcount + 1, coloursUsed := used,
                 typeMap := dictSet st.typeMap x.xfIndex (cellTypeOf m x.formatKey XL_CELL_NUMBER),
                 xfList := st.xfList ++ [{ x with formatKey := knownKey m x.formatKey }] }

/-- formatting.py 1041-1051: a parent index out of range becomes 0. -/
def fixParent (fi : Bool) (n : Nat) (x : XF) : XF :=
  if fi then
    if x.isStyle ≠ 0 then x
    else if x.parentStyleIndex < n then x else { x with parentStyleIndex := 0 }
  else x

/-- formatting.py 1016-1087 `xf_epilogue` (the rest only writes notes to the log) -/
def xfEpilogue (fi : Bool) (st : FmtSt) : FmtSt :=
  { st with
    typeMap := st.xfList.foldl (fun tm x => dictSet tm x.xfIndex (cellTypeOf st.formatMap x.formatKey XL_CELL_TEXT)) st.typeMap
    xfList := st.xfList.map (fixParent fi st.xfList.length) }

/-! ## Styles -/

/-- formatting.py 93-104 -/
def builtInStyleNames : List PyStr :=
  ["Normal", "RowLevel_", "ColLevel_", "Comma", "Currency", "Percent", "Comma [0]", "Currency [0]", "Hyperlink",
   "Followed Hyperlink"].map String.toList

/-- formatting.py 650-655: the name of a built-in style. -/
def builtInStyleName (id level : Nat) : R PyStr := do
  let name ← idx builtInStyleNames (id : Int)
  pure (if 1 ≤ id ∧ id ≤ 2 then name ++ natDec (level + 1) else name)

/-- formatting.py 659-668: the name of a user-defined style. -/
def userStyleName (bv : Nat) (dec : Bytes → R PyStr) (data : Bytes) : R PyStr :=
  if bv ≥ 80 then unpackUnicode data 2 2 else unpackString dec data 2 1

/-- formatting.py 633-674 `handle_style`; `dec` is `book.encoding`. -/
def handleStyle (bv : Nat) (fi : Bool) (dec : Bytes → R PyStr) (st : FmtSt) (data : Bytes) : R FmtSt :=
  if !fi then .ok st
  else do
    let b ← unpackN 4 (sliceTo data 4)
    let flag := fld b 0 2
    if data = [0, 0, 0, 0] ∧ (st.styleMap "Normal".toList).isNone then
      pure { st with styleMap := dictSet st.styleMap "Normal".toList (1, 0) }
    else if flag &&& 0x8000 ≠ 0 then do
      let name ← builtInStyleName (fld b 2 1) (fld b 3 1)
      pure { st with styleMap := dictSet st.styleMap name (1, flag &&& 0x0fff) }
    else do
      let name ← userStyleName bv dec data
      pure { st with styleMap := dictSet st.styleMap name (0, flag &&& 0x0fff) }

end Xlrd
