import Verif.Model.Globals
import Verif.Model.Bof

/-!
# Sheets of old files: `xlrd/sheet.py` 929-938, 1084-1104, 1353-1498, 1585-1700

Files of BIFF2 to BIFF4 consist of one sheet stream, and the sheets of a BIFF4W file are embedded in the globals.  There the records
about fonts, formats and the like belong to the sheet, so reading a sheet changes the book.  `verbosity` is 0.

Simplified: where the code decodes text with `bk.encoding or bk.derive_encoding()`, the encoding is determined here before the first byte of
the text is looked at; this only affects which exception is raised.  A COLINFO record puts one object into several columns, and a COLWIDTH
or COLUMNDEFAULT record of the same sheet would change it for all of them; here every column has its own.  (COLINFO belongs to BIFF3 and
later, the other two to BIFF2.)
-/
namespace Xlrd

/-! biffh.py 113-213: record codes -/
abbrev XL_BLANK_B2 : Nat := 0x01
abbrev XL_BOOLERR_B2 : Nat := 0x05
abbrev XL_BUILTINFMTCOUNT : Nat := 0x56
abbrev XL_COLUMNDEFAULT : Nat := 0x20
abbrev XL_COLWIDTH : Nat := 0x24
abbrev XL_EFONT : Nat := 0x45
abbrev XL_FORMAT2 : Nat := 0x1e
abbrev XL_INTEGER : Nat := 0x02
abbrev XL_IXFE : Nat := 0x44
abbrev XL_LABEL_B2 : Nat := 0x04
abbrev XL_NUMBER_B2 : Nat := 0x03
abbrev XL_ROW_B2 : Nat := 0x08
abbrev XL_WINDOW2_B2 : Nat := 0x3e
abbrev XL_XF2 : Nat := 0x43
abbrev XL_XF3 : Nat := 0x243
abbrev XL_XF4 : Nat := 0x443

/-- What opening takes from outside: the options of `open_workbook`, the fuel and the recursion limit of the compound
document reader, `str.lower`, the codecs, `str.rstrip`, and the parts modelled elsewhere (see `BookEnv`, `SheetEnv`). -/
structure OpenEnv where
  fuel : Nat
  depth : Nat
  lower : PyStr → PyStr
  codec : PyStr → Bytes → R PyStr
  rstrip : PyStr → PyStr
  evalNames : Book → R Unit
  override : PyStr
  fi : Bool
  ragged : Bool
  onDemand : Bool
  ignore : Bool

/-- The environment of the handlers that only look at one record. -/
def OpenEnv.recEnv (env : OpenEnv) (bv : Nat) : BookEnv :=
  { bv := bv, fi := env.fi, override := env.override, base := 0, codec := env.codec, rstrip := env.rstrip, lower := env.lower,
    sheethdr := fun _ _ _ _ => .error .attr, evalNames := env.evalNames }

/-- `bk._rich_text_runlist_map.get(i)` -/
def richGet (b : Book) (i : Int) : Option (List (Nat × Nat)) :=
  if 0 ≤ i then (b.sst[i.toNat]?).bind Prod.snd else none

/-- `bk.encoding` as a decoder, for files before BIFF8 (where it is set when the globals have been read). -/
def libDec (env : OpenEnv) (b : Book) (x : Bytes) : R PyStr :=
  match b.encoding with
  | none => .error .type
  | some e => env.codec e x

/-- What a sheet takes from the book (sheet.py 320-395, 789-811). -/
def OpenEnv.sheetEnv (env : OpenEnv) (bv : Nat) (b : Book) : SheetEnv where
  cfg :=
    { fmtInfo := env.fi, ragged := env.ragged, maxRows := if bv ≥ 80 then 65536 else 16384, maxCols := 256,
      typeMap := fun i => if 0 ≤ i then b.fmt.typeMap i.toNat else none }
  bv := bv
  dec := libDec env b
  sst := b.sst.map Prod.fst
  richMap := richGet b
  nearest := fun rgb => .ok (nearestColourIndex b.fmt.colourMap rgb)
  countries := b.countries

/-- A book and one of its sheets while the sheet is read: `biff_version` (it may become 20), the book, the sheet, and the attributes
`_ixfe` and `_cell_attr_to_xfx` of the sheet. -/
structure OldSt where
  bv : Nat
  book : Book
  sheet : SheetSt := {}
  ixfe : Option Nat := none
  attrXf : Bytes → Option Nat := fun _ => none

/-- The environment of the sheet at this point. -/
def OldSt.env (env : OpenEnv) (o : OldSt) : SheetEnv := env.sheetEnv o.bv o.book

/-- A handler of the book. -/
def OldSt.onBook (o : OldSt) (r : R Book) : R OldSt := do
  let b ← r
  pure { o with book := b }

/-- A handler of the sheet. -/
def OldSt.onSheet (o : OldSt) (r : R SheetSt) : R OldSt := do
  let s ← r
  pure { o with sheet := s }

/-- `bk.encoding or bk.derive_encoding()`, unless the text does not need it. -/
def OldSt.withEncoding (env : OpenEnv) (o : OldSt) (needed : Bool) : R OldSt :=
  if needed then o.onBook (ensureEncoding (env.recEnv o.bv) o.book) else .ok o

/-- `self.put_cell(...)` -/
def OldSt.put (env : OpenEnv) (o : OldSt) (r c : Nat) (ct : Option Nat) (v : Val) (xf : Nat) : R OldSt :=
  o.onSheet (o.sheet.put (o.env env) r c ct v xf)

/-! ## BIFF2: cell attributes instead of XF indexes -/

/-- sheet.py 1650-1700 `fake_XF_from_BIFF20_cell_attr` -/
def fakeXf (attr : Bytes) (style : Bool) : R XF := do
  let b ← unpackN 3 attr
  let prot := fld b 0 1
  let ff := fld b 1 1
  let etc := fld b 2 1
  pure { formatKey := ff &&& 0x3F, fontIndex := (ff &&& 0xC0) >>> 6,
         cellLocked := upk prot 6 0x40, formulaHidden := upk prot 7 0x80,
         horAlign := etc &&& 0x07,
         leftColourIndex := (thinBorder etc 0x08).1, leftLineStyle := (thinBorder etc 0x08).2,
         rightColourIndex := (thinBorder etc 0x10).1, rightLineStyle := (thinBorder etc 0x10).2,
         topColourIndex := (thinBorder etc 0x20).1, topLineStyle := (thinBorder etc 0x20).2,
         bottomColourIndex := (thinBorder etc 0x40).1, bottomLineStyle := (thinBorder etc 0x40).2,
         fillPattern := if etc &&& 0x80 ≠ 0 then 17 else 0,
         backgroundColourIndex := 9, patternColourIndex := 8, parentStyleIndex := if style then 0 else 0x0FFF, vertAlign := 2, rotation := 0,
         formatFlag := 1, fontFlag := 1, alignmentFlag := 1, borderFlag := 1, backgroundFlag := 1, protectionFlag := 1 }

/-- sheet.py 1630-1637: an unknown format key gets a format. -/
def ensureFormat (st : FmtSt) (key : Nat) : FmtSt :=
  match st.formatMap key with
  | some _ => st
  | none =>
    let f : Format := ⟨key, FUN, some "General".toList⟩
    { st with formatMap := dictSet st.formatMap key f, formatList := st.formatList ++ [f] }

/-- sheet.py 1619-1648 `insert_new_BIFF20_xf`; the type map is shared with the book. -/
def insertXf (o : OldSt) (attr : Bytes) (style : Bool) : R (Nat × OldSt) := do
  let k := o.book.fmt.xfList.length
  let x ← fakeXf attr style
  let st := ensureFormat o.book.fmt x.formatKey
  let st := { st with
    xfList := st.xfList ++ [{ x with xfIndex := k }]
    typeMap := dictSet st.typeMap k (cellTypeOf st.formatMap x.formatKey XL_CELL_NUMBER) }
  pure (k, { o with book := { o.book with fmt := st }, attrXf := dictSet o.attrXf attr k })

/-- sheet.py 1612-1614: the first `16 - i` of sixteen XFs, numbered from `i` on, all but the last one styles. -/
def insertStyles : Nat → Nat → OldSt → R OldSt
  | 0, _, o => .ok o
  | n + 1, i, o => do
    let (_, o) ← insertXf o [0x40, 0, 0] (decide (i < 15))
    insertStyles n (i + 1) o

/-- sheet.py 1611-1614: sixteen XFs come first. -/
def withStyles (o : OldSt) : R OldSt := if o.book.fmt.xfList = [] then insertStyles 16 0 o else .ok o

/-- sheet.py 1602-1617: the XF of a cell with these attributes, a new one if they have not been seen before. -/
def attrIndex (o : OldSt) (attr : Bytes) : R (Nat × OldSt) := do
  let slot ← byteAt attr 0
  pyAssert (decide (slot &&& 0x3F = 0))
  match o.attrXf attr with
  | some x => pure (x, o)
  | none => do
    let o ← withStyles o
    insertXf o attr false

/-- sheet.py 1588-1591: the number in the record; `attr` is `none` for None. -/
def recordedXf (attr : Option Bytes) : Option Nat → R Nat
  | some x => .ok x
  | none => match attr with
    | none => .error .type
    | some a => do
      let x ← byteAt a 0
      pure (x &&& 0x3F)

/-- sheet.py 1585-1617 `fixed_BIFF2_xfindex`; `attr` is `none` for None. -/
def fixXf (o : OldSt) (attr : Option Bytes) (trueXfx : Option Nat) : R (Nat × OldSt) :=
  if o.bv = 21 ∧ o.book.fmt.xfList ≠ [] then do
    let x ← recordedXf attr trueXfx
    if x = 0x3F then
      match o.ixfe with
      | none => .error .xlrd
      | some i => pure (i, o)
    else pure (x, o)
  else
    let o := if o.bv = 21 then { o with bv := 20 } else o
    match attr with
    | none => .error .type
    | some a => attrIndex o a

/-! ## BIFF2 records -/

/-- sheet.py 1379-1381: the whole record must have fifteen bytes. -/
def recNumberB2 (env : OpenEnv) (o : OldSt) (data : Bytes) : R OldSt := do
  let b ← unpackN 15 data
  let (x, o) ← fixXf o (some (slice b 4 7)) none
  o.put env (fld b 0 2) (fld b 2 2) none (.num (f64OfBits (fld b 7 8))) x

/-- sheet.py 1382-1384: the whole record must have nine bytes. -/
def recInteger (env : OpenEnv) (o : OldSt) (data : Bytes) : R OldSt := do
  let b ← unpackN 9 data
  let (x, o) ← fixXf o (some (slice b 4 7)) none
  o.put env (fld b 0 2) (fld b 2 2) none (.num (.fin (fld b 7 2 : Nat))) x

/-- sheet.py 1385-1388 -/
def recLabelB2 (env : OpenEnv) (o : OldSt) (data : Bytes) : R OldSt := do
  let b ← unpackN 7 (slice data 0 7)
  let o ← o.withEncoding env true
  let t ← unpackString (libDec env o.book) data 7 1
  let (x, o) ← fixXf o (some (slice b 4 7)) none
  o.put env (fld b 0 2) (fld b 2 2) (some XL_CELL_TEXT) (.text t) x

/-- sheet.py 1389-1393: the whole record must have nine bytes. -/
def recBoolErrB2 (env : OpenEnv) (o : OldSt) (data : Bytes) : R OldSt := do
  let b ← unpackN 9 data
  let ty ← idx [XL_CELL_BOOLEAN, XL_CELL_ERROR] (fld b 8 1)
  let (x, o) ← fixXf o (some (slice b 4 7)) none
  o.put env (fld b 0 2) (fld b 2 2) (some ty) (.int (fld b 7 1)) x

/-- sheet.py 1394-1397 -/
def recBlankB2 (env : OpenEnv) (o : OldSt) (data : Bytes) : R OldSt := do
  if env.fi then
    let b ← unpackN 7 (sliceTo data 7)
    let (x, o) ← fixXf o (some (slice b 4 7)) none
    o.put env (fld b 0 2) (fld b 2 2) (some XL_CELL_BLANK) emptyVal x
  else pure o

/-- formatting.py 257-260 `handle_efont`: the colour of the last font. -/
def handleEfont (fi : Bool) (st : FmtSt) (data : Bytes) : R FmtSt :=
  if !fi then .ok st
  else do
    let c ← unpackH data
    match st.fontList.getLast? with
    | none => .error .index
    | some f => pure { st with fontList := st.fontList.dropLast ++ [{ f with colourIndex := c }] }

/-- sheet.py 1409-1417: the default XF of a row. -/
def rowXfB2 (o : OldSt) (len : Nat) (data : Bytes) (bits2 : Nat) : R (Int × OldSt) :=
  if bits2 &&& 1 = 0 then .ok (-1, o)
  else if len = 18 then do
    let x ← unpackH (slice data 16 18)
    let (x, o) ← fixXf o none (some x)
    pure ((x : Int), o)
  else do
    let (x, o) ← fixXf o (some (slice data 13 16)) none
    pure ((x : Int), o)

/-- sheet.py 1422-1432: the attributes of a row; those that are not set here are None. -/
def rowinfoB2 (bits1 bits2 : Nat) (xf : Int) : Rowinfo :=
  { height := bits1 &&& 0x7fff, hasDefaultHeight := (bits1 >>> 15) &&& 1, hasDefaultXfIndex := bits2 &&& 1, xfIndex := xf,
    outlineLevel := 0, outlineGroupStartsEnds := 0, hidden := 0, heightMismatch := 0, additionalSpaceAbove := 0, additionalSpaceBelow := 0,
    unset := true }

/-- sheet.py 1400-1441 -/
def recRowB2 (env : OpenEnv) (o : OldSt) (len : Nat) (data : Bytes) : R OldSt := do
  if env.fi then
    let b ← unpackN 11 (slice data 0 11)
    if fld b 0 2 < (o.env env).cfg.maxRows then
      let (x, o) ← rowXfB2 o len data (fld b 10 1)
      pure { o with sheet := { o.sheet with rowinfo := dictSet o.sheet.rowinfo (fld b 0 2 : Nat) (rowinfoB2 (fld b 6 2) (fld b 10 1) x) } }
    else pure o
  else pure o

/-- sheet.py 2340-2400: a new `Colinfo`. -/
def newColinfo : Colinfo := { width := 0, xfIndex := -1, hidden := 0, bit1Flag := 0, outlineLevel := 0, collapsed := 0 }

/-- sheet.py 1452-1458: the columns `c, ..., c + n - 1`. -/
def setWidths (w : Nat) (d : Int → Option Colinfo) : Nat → Nat → Int → Option Colinfo
  | 0, _ => d
  | n + 1, c => setWidths w (dictSet d (c : Int) { (d c).getD newColinfo with width := w }) n (c + 1)

/-- sheet.py 1442-1464 -/
def recColWidth (env : OpenEnv) (o : OldSt) (data : Bytes) : R OldSt := do
  if env.fi then
    let b ← unpackN 4 (sliceTo data 4)
    let first := fld b 0 1
    let last := fld b 1 1
    if first ≤ last then
      pure { o with sheet := { o.sheet with colinfo := setWidths (fld b 2 2) o.sheet.colinfo (last + 1 - first) first } }
    else pure o
  else pure o

/-- sheet.py 1480-1489: the columns `c, ..., c + n - 1`, the attributes from byte `off` on. -/
def columnDefaults (data : Bytes) : Nat → Nat → Nat → OldSt → R OldSt
  | 0, _, _, o => .ok o
  | n + 1, c, off, o => do
    let (x, o) ← fixXf o (some (slice data off (off + 3))) none
    let ci := { (o.sheet.colinfo c).getD newColinfo with xfIndex := (x : Int) }
    columnDefaults data n (c + 1) (off + 3) { o with sheet := { o.sheet with colinfo := dictSet o.sheet.colinfo (c : Int) ci } }

/-- sheet.py 1465-1489 -/
def recColumnDefault (env : OpenEnv) (o : OldSt) (data : Bytes) : R OldSt := do
  if env.fi then
    let b ← unpackN 4 (sliceTo data 4)
    let first := fld b 0 2
    let last := min (fld b 2 2) 256
    columnDefaults data (last - first) first 4 o
  else pure o

/-- sheet.py 1490-1503.  In Python 3 the items of `data[0:5]` are integers, and an integer is never equal to `b'\0'`, so each option for
which there is a byte becomes 1. -/
def recWindow2B2 (env : OpenEnv) (o : OldSt) (data : Bytes) : R OldSt := do
  let n := (slice data 0 5).length
  let b ← unpackN 5 (slice data 5 10)
  let c ← unpackN 3 (slice data 10 13)
  let rgb := (fld c 0 1, fld c 1 1, fld c 2 1)
  let k ← (o.env env).nearest rgb
  let w := List.replicate n 1 ++ o.sheet.window2.drop n
  pure { o with sheet := { o.sheet with window2 := w.set 5 (fld b 4 1), firstVisibleRowx := fld b 0 2, firstVisibleColx := fld b 2 2,
                                        gridlineColourRgb := some rgb, gridlineColourIndex := k } }

/-! ## Records of the book -/

/-- formatting.py 525-573 `handle_format` with its first lines, for either record type. -/
def oldFormat (env : OpenEnv) (o : OldSt) (data : Bytes) (format2 : Bool) : R Book := do
  let b ← ensureEncoding (env.recEnv o.bv) o.book
  let f ← handleFormat o.bv (libDec env b) b.fmt data format2
  pure { b with fmt := f }

/-- `book.xf_epilogue()` -/
def runEpilogue (env : OpenEnv) (b : Book) : Book := { b with fmt := xfEpilogue env.fi b.fmt, xfDone := true }

/-- sheet.py 1359-1362 -/
def oldStyle (env : OpenEnv) (o : OldSt) (data : Bytes) : R Book :=
  bookStyle (env.recEnv o.bv) (if o.book.xfDone then o.book else runEpilogue env o.book) data

/-- book.py 785-790 `handle_builtinfmtcount` (the count is not used) -/
def handleBuiltinfmtcount (b : Book) (data : Bytes) : R Book := do
  let _ ← unpackH (slice data 0 2)
  pure b

/-- The records of sheet.py 1355-1375, 1398-1399. -/
def oldBookRecord (env : OpenEnv) (o : OldSt) (rc : Nat) (data : Bytes) : R Book :=
  if rc = XL_FORMAT then oldFormat env o data false
  else if rc = XL_FORMAT2 then oldFormat env o data true
  else if rc = XL_FONT ∨ rc = XL_FONT_B3B4 then bookFont (env.recEnv o.bv) o.book data
  else if rc = XL_STYLE then oldStyle env o data
  else if rc = XL_PALETTE then bookPalette (env.recEnv o.bv) o.book data
  else if rc = XL_BUILTINFMTCOUNT then handleBuiltinfmtcount o.book data
  else if rc = XL_XF4 ∨ rc = XL_XF3 ∨ rc = XL_XF2 then bookXf (env.recEnv o.bv) o.book data
  else if rc = XL_DATEMODE then handleDatemode o.book data
  else if rc = XL_CODEPAGE then handleCodepage (env.recEnv o.bv) o.book data
  else if rc = XL_FILEPASS then .error .xlrd
  else if rc = XL_WRITEACCESS then handleWriteaccess (env.recEnv o.bv) o.book data
  else do
    let f ← handleEfont env.fi o.book.fmt data
    pure { o.book with fmt := f }

/-- The codes of `oldBookRecord`. -/
abbrev oldBookCodes : List Nat :=
  [XL_FORMAT, XL_FORMAT2, XL_FONT, XL_FONT_B3B4, XL_STYLE, XL_PALETTE, XL_BUILTINFMTCOUNT, XL_XF4, XL_XF3, XL_XF2, XL_DATEMODE, XL_CODEPAGE,
   XL_FILEPASS, XL_WRITEACCESS, XL_EFONT]

/-- The records of sheet.py 1376-1397, 1400-1503. -/
def oldSheetRecord (env : OpenEnv) (o : OldSt) (rc len : Nat) (data : Bytes) : R OldSt :=
  if rc = XL_IXFE then do
    let x ← unpackH data
    pure { o with ixfe := some x }
  else if rc = XL_NUMBER_B2 then recNumberB2 env o data
  else if rc = XL_INTEGER then recInteger env o data
  else if rc = XL_LABEL_B2 then recLabelB2 env o data
  else if rc = XL_BOOLERR_B2 then recBoolErrB2 env o data
  else if rc = XL_BLANK_B2 then recBlankB2 env o data
  else if rc = XL_ROW_B2 then recRowB2 env o len data
  else if rc = XL_COLWIDTH then recColWidth env o data
  else if rc = XL_COLUMNDEFAULT then recColumnDefault env o data
  else recWindow2B2 env o data

/-- The codes of `oldSheetRecord`. -/
abbrev oldSheetCodes : List Nat :=
  [XL_IXFE, XL_NUMBER_B2, XL_INTEGER, XL_LABEL_B2, XL_BOOLERR_B2, XL_BLANK_B2, XL_ROW_B2, XL_COLWIDTH, XL_COLUMNDEFAULT, XL_WINDOW2_B2]

/-! ## The record loop -/

/-- sheet.py 946, 950: the result of a formula is a text in a STRING record. -/
def textResult (res : Bytes) : Bool := decide (slice res 6 8 = [0xFF, 0xFF]) && decide (fld res 0 1 = 0)

/-- sheet.py 935-938, 946-1000 for BIFF2. -/
def recFormulaB2 (env : OpenEnv) (mem : Bytes) (o : OldSt) (pos : Int) (data : Bytes) : R (OldSt × Int) := do
  let b ← unpackN 16 (slice data 0 16)
  let (x, o) ← fixXf o (some (slice b 4 7)) none
  let o ← o.withEncoding env (textResult (slice b 7 15))
  let (ty, v, pos) ← formulaResult (o.env env) mem pos (slice b 7 15)
  let o ← o.put env (fld b 0 2) (fld b 2 2) ty v x
  pure (o, pos)

/-- sheet.py 929-1000 -/
def oldFormula (env : OpenEnv) (bv : Nat) (mem : Bytes) (o : OldSt) (pos : Int) (data : Bytes) : R (OldSt × Int) :=
  if bv ≥ 30 then do
    let o ← o.withEncoding env (decide (bv < 80) && textResult (slice data 6 14))
    let (s, pos) ← recFormula (o.env env) mem o.sheet pos data
    pure ({ o with sheet := s }, pos)
  else recFormulaB2 env mem o pos data

/-- sheet.py 1084-1104: a DIMENSION record ends the XFs of a file of BIFF2 to BIFF4. -/
def oldDimension (env : OpenEnv) (bv : Nat) (o : OldSt) (len : Nat) (data : Bytes) : R OldSt := do
  let o ← o.onSheet (recDimension (o.env env) o.sheet len data)
  pure (if len ≠ 0 ∧ (bv = 21 ∨ bv = 30 ∨ bv = 40) ∧ o.book.fmt.xfList ≠ [] ∧ o.book.xfDone = false then
    { o with book := runEpilogue env o.book } else o)

/-- sheet.py 819-1502: one record other than EOF; `bv` is the version at the beginning of the sheet.  The tests of the code are on distinct
codes, so their order does not matter. -/
def oldRecord (env : OpenEnv) (bv : Nat) (mem : Bytes) (o : OldSt) (pos : Int) (rc len : Nat) (data : Bytes) : R (OldSt × Int) :=
  if rc ∈ XL_FORMULA_OPCODES then oldFormula env bv mem o pos data
  else if rc ∈ bofcodes then do pure (o, ← recEmbedded mem pos data)
  else if rc = XL_COUNTRY then do pure (← o.onBook (handleCountry o.book data), pos)
  else if rc ∈ otherCodes then do
    let o ← o.withEncoding env (decide (rc = XL_NOTE ∧ bv < 80))
    let (e, pos) ← extraRecord (o.env env) mem o.sheet.ext pos rc data
    pure ({ o with sheet := { o.sheet with ext := e } }, pos)
  else if rc = XL_DIMENSION ∨ rc = XL_DIMENSION2 then do pure (← oldDimension env bv o len data, pos)
  else if bv ≤ 45 ∧ rc ∈ oldBookCodes then do pure (← o.onBook (oldBookRecord env o rc data), pos)
  else if bv ≤ 45 ∧ rc ∈ oldSheetCodes then do pure (← oldSheetRecord env o rc len data, pos)
  else do
    let o ← o.withEncoding env (decide ((rc = XL_LABEL ∨ rc = XL_RSTRING) ∧ bv < 80))
    pure (← o.onSheet (plainRecord (o.env env) o.sheet rc len data), pos)

/-- sheet.py 812-1502: the record loop, up to the EOF record.  `fuel` bounds the number of records. -/
def oldLoop (env : OpenEnv) (bv : Nat) (mem : Bytes) : Nat → OldSt → Int → R OldSt
  | 0, _, _ => .error .recursion
  | fuel + 1, o, pos => do
    let ((rc, len, data), pos) ← getRecordParts mem pos
    if rc = XL_EOF then pure o
    else do
      let (o, pos) ← oldRecord env bv mem o pos rc len data
      oldLoop env bv mem fuel o pos

/-- sheet.py 789-1509 `Sheet.read` on a new sheet at position `pos` of a book. -/
def oldRead (env : OpenEnv) (bv : Nat) (mem : Bytes) (b : Book) (pos : Int) : R OldSt := do
  let o ← oldLoop env bv mem (mem.length + 1) { bv := bv, book := b } pos
  o.onSheet (sheetFinish (o.env env) o.sheet)

/-! ## BIFF4W: sheets in the globals -/

/-- book.py 655-664 `initialise_format_info` -/
def initialiseFormatInfo (b : Book) : Book :=
  { b with
    fmt := { b.fmt with formatMap := fun _ => none, formatList := [], xfcount := 0, actualfmtcount := 0,
                        typeMap := fun k => if k = 0 then some XL_CELL_NUMBER else none, xfList := [], fontList := [] }
    xfDone := false }

/-- book.py 1134-1152 `handle_sheethdr`: the position is that after the record, the new one is where the length in the record leads.  The
version of the book stays as it is (only a BIFF2 file changes it). -/
def handleSheethdr (env : OpenEnv) (bv : Nat) (mem : Bytes) (b : Book) (data : Bytes) (pos : Int) : R (Book × Int) := do
  let b ← deriveEncoding (env.recEnv bv) b
  let len ← unpacki (sliceTo data 4)
  let name ← unpackString (libDec env b) data 4 1
  let n := b.embedded.length
  let shown ← idx b.sheetNames (n : Int)
  pyAssert (decide (name = shown))
  let b := initialiseFormatInfo b
  let (_, pos1) ← getbof mem pos XL_WORKSHEET
  let vis ← idx b.sheetVisibility (n : Int)
  let o ← oldRead env bv mem b pos1
  pure ({ o.book with embedded := o.book.embedded ++ [⟨shown, n, vis, o.sheet⟩] }, pos + len)

/-- The environment of the globals. -/
def OpenEnv.bookEnv (env : OpenEnv) (bv : Nat) (base : Int) : BookEnv :=
  { env.recEnv bv with base := base, sheethdr := handleSheethdr env bv }

end Xlrd
