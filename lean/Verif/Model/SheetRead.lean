import Verif.Model.Access
import Verif.Model.Records
import Verif.Model.Rk
import Verif.Model.Drawing

/-!
# Reading a sheet: `xlrd/sheet.py` 320-397, 789-1583

The record loop of `Sheet.read` for files of BIFF version 5 and later (`bv >= 50`); the records of
sheet.py 1353-1498, which only exist in older files, are not modelled here.  `verbosity` is 0.  Records
about drawings, notes and hyperlinks are in `Verif.Model.Drawing`.
-/
namespace Xlrd

/-! biffh.py 113-213: record codes -/
abbrev XL_ARRAY : Nat := 0x0221
abbrev XL_ARRAY2 : Nat := 0x0021
abbrev XL_BLANK : Nat := 0x0201
abbrev XL_BOOLERR : Nat := 0x205
abbrev XL_CF : Nat := 0x01B1
abbrev XL_COLINFO : Nat := 0x7D
abbrev XL_CONDFMT : Nat := 0x01B0
abbrev XL_COUNTRY : Nat := 0x8C
abbrev XL_DEFAULTROWHEIGHT : Nat := 0x0225
abbrev XL_DEFCOLWIDTH : Nat := 0x55
abbrev XL_DIMENSION : Nat := 0x200
abbrev XL_DIMENSION2 : Nat := 0x0
abbrev XL_EOF : Nat := 0x0a
abbrev XL_FEAT11 : Nat := 0x872
abbrev XL_GCW : Nat := 0xab
abbrev XL_HLINK : Nat := 0x01B8
abbrev XL_QUICKTIP : Nat := 0x0800
abbrev XL_HORIZONTALPAGEBREAKS : Nat := 0x1b
abbrev XL_LABEL : Nat := 0x204
abbrev XL_LABELRANGES : Nat := 0x15f
abbrev XL_LABELSST : Nat := 0xfd
abbrev XL_MERGEDCELLS : Nat := 0xE5
abbrev XL_MSO_DRAWING : Nat := 0x00EC
abbrev XL_MULRK : Nat := 0xbd
abbrev XL_MULBLANK : Nat := 0xbe
abbrev XL_NOTE : Nat := 0x1c
abbrev XL_NUMBER : Nat := 0x203
abbrev XL_OBJ : Nat := 0x5D
abbrev XL_PANE : Nat := 0x41
abbrev XL_RK : Nat := 0x27e
abbrev XL_ROW : Nat := 0x208
abbrev XL_RSTRING : Nat := 0xd6
abbrev XL_SCL : Nat := 0x00A0
abbrev XL_SHRFMLA : Nat := 0x04bc
abbrev XL_STANDARDWIDTH : Nat := 0x99
abbrev XL_STRING : Nat := 0x207
abbrev XL_STRING_B2 : Nat := 0x7
abbrev XL_TABLEOP : Nat := 0x236
abbrev XL_TABLEOP2 : Nat := 0x37
abbrev XL_TABLEOP_B2 : Nat := 0x36
abbrev XL_TXO : Nat := 0x1b6
abbrev XL_VERTICALPAGEBREAKS : Nat := 0x1a
abbrev XL_WINDOW2 : Nat := 0x023E

/-- biffh.py 216 -/
abbrev bofcodes : List Nat := [0x0809, 0x0409, 0x0209, 0x0009]
/-- biffh.py 218 -/
abbrev XL_FORMULA_OPCODES : List Nat := [0x0006, 0x0406, 0x0206]
/-- sheet.py 798-801 -/
abbrev XL_SHRFMLA_ETC_ETC : List Nat := [XL_SHRFMLA, XL_ARRAY, XL_TABLEOP, XL_TABLEOP2, XL_ARRAY2, XL_TABLEOP_B2]

/-- What `Sheet.read` takes from the book: the settings, the BIFF version, the codec of
`bk.encoding or bk.derive_encoding()`, the shared strings with their rich-text runs, the colour search
of `nearest_colour_index(book.colour_map, ...)`, and the countries of the book. -/
structure SheetEnv where
  cfg : SheetCfg
  bv : Nat
  dec : Bytes → R PyStr
  sst : List PyStr
  richMap : Int → Option (List (Nat × Nat))
  nearest : Nat × Nat × Nat → R Nat
  countries : Nat × Nat

/-- The attributes of a `Sheet` set while reading (sheet.py 320-397). -/
structure SheetSt where
  store : Store := Store.empty
  rich : Nat × Nat → Option (List (Nat × Nat)) := fun _ => none
  rowinfo : Int → Option Rowinfo := fun _ => none
  colinfo : Int → Option Colinfo := fun _ => none
  defcolwidth : Option Nat := none
  standardwidth : Option Nat := none
  gcw : List Nat := List.replicate 256 0
  dimnrows : Int := 0
  dimncols : Nat := 0
  rowLabelRanges : List Range4 := []
  colLabelRanges : List Range4 := []
  defaultRowHeight : Option Nat := none
  defaultRowHeightMismatch : Nat := 0
  defaultRowHidden : Nat := 0
  defaultSpaceAbove : Nat := 0
  defaultSpaceBelow : Nat := 0
  merged : List Range4 := []
  /-- the twelve attributes of `_WINDOW2_options` (sheet.py 22-46), in that order -/
  window2 : List Nat := [0, 1, 1, 0, 1, 1, 0, 1, 0, 0, 0, 0]
  firstVisibleRowx : Nat := 0
  firstVisibleColx : Nat := 0
  gridlineColourIndex : Nat := 0x40
  gridlineColourRgb : Option (Nat × Nat × Nat) := none
  cachedPageBreak : Nat := 0
  cachedNormal : Nat := 0
  scl : Option Nat := none
  cookedPageBreak : Nat := 60
  cookedNormal : Nat := 100
  vertSplitPos : Nat := 0
  horzSplitPos : Nat := 0
  horzSplitFirstVisible : Nat := 0
  vertSplitFirstVisible : Nat := 0
  splitActivePane : Nat := 0
  hasPane : Bool := false
  hbreaks : List (Nat × Nat × Nat) := []
  vbreaks : List (Nat × Nat × Nat) := []
  /-- hyperlinks and notes -/
  ext : Extras := {}

/-- `d[k] = v` for a dictionary -/
def dictSet {κ α : Type} [DecidableEq κ] (d : κ → Option α) (k : κ) (v : α) : κ → Option α :=
  fun x => if x = k then some v else d x

/-- `self.put_cell(...)` -/
def SheetSt.put (env : SheetEnv) (s : SheetSt) (r c : Nat) (ct : Option Nat) (v : Val) (xf : Nat) : R SheetSt := do
  let st ← putCell env.cfg s.store r c ct v (xf : Int)
  pure { s with store := st }

/-! ## Cell records -/

/-- sheet.py 819-826 -/
def recNumber (env : SheetEnv) (s : SheetSt) (data : Bytes) : R SheetSt := do
  let b ← unpackN 14 (sliceTo data 14)
  s.put env (fld b 0 2) (fld b 2 2) none (.num (f64OfBits (fld b 6 8))) (fld b 4 2)

/-- sheet.py 831-834: `do_sst_rich_text` is false when formatting is off or the map is empty. -/
def sstRich (env : SheetEnv) (s : SheetSt) (r c : Nat) (i : Int) : SheetSt :=
  if env.cfg.fmtInfo then
    match env.richMap i with
    | some (run :: runs) => { s with rich := dictSet s.rich (r, c) (run :: runs) }
    | _ => s
  else s

/-- sheet.py 827-834 -/
def recLabelSst (env : SheetEnv) (s : SheetSt) (data : Bytes) : R SheetSt := do
  let b ← unpackN 10 data
  let i := sgn 32 (fld b 6 4)
  let t ← idx env.sst i
  let s ← s.put env (fld b 0 2) (fld b 2 2) (some XL_CELL_TEXT) (.text t) (fld b 4 2)
  pure (sstRich env s (fld b 0 2) (fld b 2 2) i)

/-- sheet.py 837-840 -/
def labelText (env : SheetEnv) (data : Bytes) : R PyStr :=
  if env.bv < 80 then unpackString env.dec data 6 2 else unpackUnicode data 6 2

/-- sheet.py 835-841 -/
def recLabel (env : SheetEnv) (s : SheetSt) (data : Bytes) : R SheetSt := do
  let b ← unpackN 6 (slice data 0 6)
  let t ← labelText env data
  s.put env (fld b 0 2) (fld b 2 2) (some XL_CELL_TEXT) (.text t) (fld b 4 2)

/-- sheet.py 848-851 (`w = 1`) and 857-860 (`w = 2`): `n` pairs of `w`-byte fields. -/
def runList (w : Nat) (data : Bytes) : Nat → Int → R (List (Nat × Nat) × Int)
  | 0, pos => .ok ([], pos)
  | n + 1, pos => do
    let b ← unpackN (2 * w) (slice data pos (pos + 2 * w))
    let (rs, pos) ← runList w data n (pos + 2 * w)
    pure ((fld b 0 w, fld b w w) :: rs, pos)

/-- sheet.py 844-861: text and runs of an RSTRING record. -/
def rstringText (env : SheetEnv) (data : Bytes) : R (PyStr × List (Nat × Nat)) :=
  if env.bv < 80 then do
    let (t, pos) ← unpackStringUpdatePos env.dec data 6 2 none
    let nrt ← byteAt data pos
    let (rs, pos) ← runList 1 data nrt (pos + 1)
    pyAssert (decide (pos = data.length))
    pure (t, rs)
  else do
    let (t, pos) ← unpackUnicodeUpdatePos data 6 2 none
    let nrt ← unpackH (slice data pos (pos + 2))
    let (rs, pos) ← runList 2 data nrt (pos + 2)
    pyAssert (decide (pos = data.length))
    pure (t, rs)

/-- sheet.py 842-863 -/
def recRString (env : SheetEnv) (s : SheetSt) (data : Bytes) : R SheetSt := do
  let b ← unpackN 6 (slice data 0 6)
  let (t, runs) ← rstringText env data
  let s ← s.put env (fld b 0 2) (fld b 2 2) (some XL_CELL_TEXT) (.text t) (fld b 4 2)
  pure { s with rich := dictSet s.rich (fld b 0 2, fld b 2 2) runs }

/-- sheet.py 864-867 -/
def recRk (env : SheetEnv) (s : SheetSt) (data : Bytes) : R SheetSt := do
  let b ← unpackN 6 (sliceTo data 6)
  let d ← unpackRK (slice data 6 10)
  s.put env (fld b 0 2) (fld b 2 2) none (.num d) (fld b 4 2)

/-- sheet.py 872-876: `n` cells from column `c` on. -/
def mulRkLoop (env : SheetEnv) (data : Bytes) (r : Nat) : Nat → Nat → Int → SheetSt → R SheetSt
  | 0, _, _, s => .ok s
  | n + 1, c, pos, s => do
    let xf ← unpackH (slice data pos (pos + 2))
    let d ← unpackRK (slice data (pos + 2) (pos + 6))
    let s ← s.put env r c none (.num d) xf
    mulRkLoop env data r n (c + 1) (pos + 6) s

/-- sheet.py 868-876 -/
def recMulRk (env : SheetEnv) (s : SheetSt) (data : Bytes) : R SheetSt := do
  let b ← unpackN 4 (slice data 0 4)
  let last ← unpackH (sliceFrom data (-2))
  mulRkLoop env data (fld b 0 2) (last + 1 - fld b 2 2) (fld b 2 2) 4 s

/-- sheet.py 1001-1007 -/
def recBoolErr (env : SheetEnv) (s : SheetSt) (data : Bytes) : R SheetSt := do
  let b ← unpackN 8 (sliceTo data 8)
  let ty ← idx [XL_CELL_BOOLEAN, XL_CELL_ERROR] (fld b 7 1)
  s.put env (fld b 0 2) (fld b 2 2) (some ty) (.int (fld b 6 1)) (fld b 4 2)

/-- sheet.py 1067-1071 -/
def recBlank (env : SheetEnv) (s : SheetSt) (data : Bytes) : R SheetSt := do
  if env.cfg.fmtInfo then
    let b ← unpackN 6 (sliceTo data 6)
    s.put env (fld b 0 2) (fld b 2 2) (some XL_CELL_BLANK) emptyVal (fld b 4 2)
  else pure s

/-- sheet.py 1081-1083: `n` cells from column `c` on, the XF indexes from item `k` on. -/
def mulBlankLoop (env : SheetEnv) (data : Bytes) (r : Nat) : Nat → Nat → Nat → SheetSt → R SheetSt
  | 0, _, _, s => .ok s
  | n + 1, c, k, s => do
    let s ← s.put env r c (some XL_CELL_BLANK) emptyVal (fld data (2 * k) 2)
    mulBlankLoop env data r n (c + 1) (k + 1) s

/-- sheet.py 1072-1083; `len` is `data_len`. -/
def recMulBlank (env : SheetEnv) (s : SheetSt) (len : Nat) (data : Bytes) : R SheetSt := do
  if env.cfg.fmtInfo then
    let nitems := len / 2
    let b ← unpackN (2 * nitems) data
    if nitems < 2 then .error .value
    else do
      let first := fld b 2 2
      let last := fld b (2 * (nitems - 1)) 2
      pyAssert (decide ((nitems : Int) = last + 4 - first))
      mulBlankLoop env b (fld b 0 2) (last + 1 - first) first 2 s
  else pure s

/-- sheet.py 957-964: the record between the FORMULA and the STRING record. -/
def beforeString (rc : Nat) (data : Bytes) : R Unit :=
  if rc = XL_ARRAY then (unpackN 14 (sliceTo data 14)).map fun _ => ()
  else if rc = XL_SHRFMLA then (unpackN 10 (sliceTo data 10)).map fun _ => ()
  else if rc ∉ XL_SHRFMLA_ETC_ETC then .error .xlrd
  else .ok ()

/-- sheet.py 953-974: skip an optional SHRFMLA, ARRAY or TABLEOP record and fetch the STRING record. -/
def fetchString (mem : Bytes) (pos : Int) : R (Bytes × Int) := do
  let ((rc, _, data), pos) ← getRecordParts mem pos
  if rc = XL_STRING ∨ rc = XL_STRING_B2 then pure (data, pos)
  else do
    beforeString rc data
    let ((rc, _, data), pos) ← getRecordParts mem pos
    if rc = XL_STRING ∨ rc = XL_STRING_B2 then pure (data, pos) else .error .xlrd

/-- sheet.py 946-1000: the result of a formula: type (`none` = number), value and position. -/
def formulaResult (env : SheetEnv) (mem : Bytes) (pos : Int) (res : Bytes) : R (Option Nat × Val × Int) :=
  if slice res 6 8 = [0xFF, 0xFF] then do
    let first ← byteAt res 0
    if first = 0 then do
      let (data2, pos) ← fetchString mem pos
      let (t, pos) ← stringRecordContents env.bv env.dec mem pos data2
      pure (some XL_CELL_TEXT, .text t, pos)
    else if first = 1 then do pure (some XL_CELL_BOOLEAN, .int (← byteAt res 2), pos)
    else if first = 2 then do pure (some XL_CELL_ERROR, .int (← byteAt res 2), pos)
    else if first = 3 then pure (some XL_CELL_TEXT, .text [], pos)
    else .error .xlrd
  else do pure (none, .num (← unpackd res), pos)

/-- sheet.py 929-1000 -/
def recFormula (env : SheetEnv) (mem : Bytes) (s : SheetSt) (pos : Int) (data : Bytes) : R (SheetSt × Int) := do
  let b ← unpackN 16 (slice data 0 16)
  let (ty, v, pos) ← formulaResult env mem pos ((b.drop 6).take 8)
  let s ← s.put env (fld b 0 2) (fld b 2 2) ty v (fld b 4 2)
  pure (s, pos)

/-! ## Rows, columns and the rest -/

/-- sheet.py 910-921: the attributes of a row.  `bits2` is a signed field in the code; only bits below 30
are used, so it is read unsigned here.  (Equal rows share one object in the code.) -/
def rowinfoOf (bits1 bits2 : Nat) : Rowinfo :=
  { height := bits1 &&& 0x7fff
    hasDefaultHeight := (bits1 >>> 15) &&& 1
    outlineLevel := bits2 &&& 7
    outlineGroupStartsEnds := (bits2 >>> 4) &&& 1
    hidden := (bits2 >>> 5) &&& 1
    heightMismatch := (bits2 >>> 6) &&& 1
    hasDefaultXfIndex := (bits2 >>> 7) &&& 1
    xfIndex := if (bits2 >>> 7) &&& 1 = 0 then -1 else (((bits2 >>> 16) &&& 0xfff : Nat) : Int)
    additionalSpaceAbove := (bits2 >>> 28) &&& 1
    additionalSpaceBelow := (bits2 >>> 29) &&& 1 }

/-- sheet.py 877-928 -/
def recRow (env : SheetEnv) (s : SheetSt) (data : Bytes) : R SheetSt := do
  if env.cfg.fmtInfo then
    let b ← unpackN 16 (slice data 0 16)
    if fld b 0 2 < env.cfg.maxRows then
      pure { s with rowinfo := dictSet s.rowinfo (fld b 0 2 : Nat) (rowinfoOf (fld b 6 2) (fld b 12 4)) }
    else pure s
  else pure s

/-- biffh.py 240-242 `upkbits`, one entry -/
def upk (src n mask : Nat) : Nat := (src &&& mask) >>> n

/-- sheet.py 1029-1031: one object for the columns `c, ..., c + n - 1` below 256. -/
def setCols (d : Int → Option Colinfo) (ci : Colinfo) : Nat → Nat → Int → Option Colinfo
  | 0, _ => d
  | n + 1, c => if c > 255 then d else setCols (dictSet d (c : Int) ci) ci n (c + 1)

/-- sheet.py 1008-1043 -/
def recColinfo (env : SheetEnv) (s : SheetSt) (data : Bytes) : R SheetSt := do
  if env.cfg.fmtInfo then
    let b ← unpackN 10 (sliceTo data 10)
    let first := fld b 0 2
    let last := fld b 2 2
    let flags := fld b 8 2
    if first ≤ last ∧ last ≤ 256 then
      let ci : Colinfo :=
        { width := fld b 4 2, xfIndex := (fld b 6 2 : Nat), hidden := upk flags 0 0x0001, bit1Flag := upk flags 1 0x0002,
          outlineLevel := upk flags 8 0x0700, collapsed := upk flags 12 0x1000 }
      pure { s with colinfo := setCols s.colinfo ci (last + 1 - first) first }
    else pure s
  else pure s

/-- sheet.py 1044-1046 -/
def recDefColWidth (s : SheetSt) (data : Bytes) : R SheetSt := do
  let w ← unpackH (sliceTo data 2)
  pure { s with defcolwidth := some w }

/-- sheet.py 1047-1052 -/
def recStandardWidth (s : SheetSt) (data : Bytes) : R SheetSt := do
  let w ← unpackH (sliceTo data 2)
  pure { s with standardwidth := some w }

/-- sheet.py 1053-1066.  The 32 bits of each signed integer are the bits of the unsigned one. -/
def recGcw (env : SheetEnv) (s : SheetSt) (len : Nat) (data : Bytes) : R SheetSt := do
  if env.cfg.fmtInfo then
    pyAssert (decide (len = 34))
    pyAssert (decide (slice data 0 2 = [0x20, 0x00]))
    let b ← unpackN 32 (slice data 2 34)
    pure { s with gcw := (List.range 8).flatMap fun k => (List.range 32).map fun j => (fld b (4 * k) 4 >>> j) &&& 1 }
  else pure s

/-- sheet.py 1090-1093: rows and columns of a DIMENSION record. -/
def dimTuple (bv : Nat) (data : Bytes) : R (Int × Nat) :=
  if bv < 80 then do
    let b ← unpackN 6 (slice data 2 8)
    pure ((fld b 0 2 : Nat), fld b 4 2)
  else do
    let b ← unpackN 8 (slice data 4 12)
    pure (sgn 32 (fld b 0 4), fld b 6 2)

/-- sheet.py 1084-1104 (the XF epilogue there is for `bv <= 40`) -/
def recDimension (env : SheetEnv) (s : SheetSt) (len : Nat) (data : Bytes) : R SheetSt :=
  if len = 0 then pure s
  else do
    let (nr, nc) ← dimTuple env.bv data
    pure { s with store := { s.store with nrows := 0, ncols := 0 }, dimnrows := nr, dimncols := nc }

/-- sheet.py 1142-1150 -/
def recLabelRanges (s : SheetSt) (len : Nat) (data : Bytes) : R SheetSt := do
  let (rs, pos) ← unpackCellRangeAddressList s.rowLabelRanges data 0 8
  let (cs, pos) ← unpackCellRangeAddressList s.colLabelRanges data pos 8
  pyAssert (decide (pos = len))
  pure { s with rowLabelRanges := rs, colLabelRanges := cs }

/-- sheet.py 1165-1192 -/
def recCondFmt (env : SheetEnv) (s : SheetSt) (data : Bytes) : R SheetSt := do
  if env.cfg.fmtInfo then
    pyAssert (decide (env.bv ≥ 80))
    let _ ← unpackN 12 (slice data 0 12)
    let _ ← unpackCellRangeAddressList [] data 12 8
    pure s
  else pure s

/-- sheet.py 1208-1210, 1225: the font block of a CF record. -/
def cfFont (flags : Nat) (data : Bytes) : R Int :=
  if (flags >>> 26) &&& 1 ≠ 0 then do
    let _ ← unpackN 118 (slice data 12 130)
    pure 130
  else pure 12

/-- sheet.py 1193-1240.  `flags` is signed in the code; bits 26, 28, 29 are used. -/
def recCf (env : SheetEnv) (s : SheetSt) (len : Nat) (data : Bytes) : R SheetSt := do
  if env.cfg.fmtInfo then
    let b ← unpackN 10 (slice data 0 10)
    let flags := fld b 6 4
    let pos ← cfFont flags data
    let pos := if (flags >>> 28) &&& 1 ≠ 0 then pos + 8 else pos
    let pos := if (flags >>> 29) &&& 1 ≠ 0 then pos + 4 else pos
    pyAssert (decide (pos + fld b 2 2 + fld b 4 2 = len))
    pure s
  else pure s

/-- sheet.py 1242-1255: option bits and height, depending on the length. -/
def rowHeightBits (s : SheetSt) (len : Nat) (data : Bytes) : R (Nat × Option Nat) :=
  if len = 4 then do
    let b ← unpackN 4 (sliceTo data 4)
    pure (fld b 0 2, some (fld b 2 2))
  else if len = 2 then do
    let h ← unpackH data
    pure (0, some h)
  else pure (0, s.defaultRowHeight)

/-- sheet.py 1241-1259 -/
def recDefaultRowHeight (s : SheetSt) (len : Nat) (data : Bytes) : R SheetSt := do
  let (bits, h) ← rowHeightBits s len data
  pure { s with defaultRowHeight := h, defaultRowHeightMismatch := bits &&& 1, defaultRowHidden := (bits >>> 1) &&& 1,
                defaultSpaceAbove := (bits >>> 2) &&& 1, defaultSpaceBelow := (bits >>> 3) &&& 1 }

/-- sheet.py 1260-1268 -/
def recMergedCells (env : SheetEnv) (s : SheetSt) (len : Nat) (data : Bytes) : R SheetSt := do
  if env.cfg.fmtInfo then
    let (rs, pos) ← unpackCellRangeAddressList s.merged data 0 8
    pyAssert (decide (pos = len))
    pure { s with merged := rs }
  else pure s

/-- sheet.py 1301-1303: the `n` attributes, lowest bit first. -/
def windowBits : Nat → Nat → List Nat
  | 0, _ => []
  | n + 1, options => (options &&& 1) :: windowBits n (options >>> 1)

/-- sheet.py 1269-1303 -/
def recWindow2 (env : SheetEnv) (s : SheetSt) (len : Nat) (data : Bytes) : R SheetSt :=
  if env.bv ≥ 80 ∧ len ≥ 14 then do
    let b ← unpackN 14 (sliceTo data 14)
    pure { s with firstVisibleRowx := fld b 2 2, firstVisibleColx := fld b 4 2, gridlineColourIndex := fld b 6 2,
                  cachedPageBreak := fld b 10 2, cachedNormal := fld b 12 2, window2 := windowBits 12 (fld b 0 2) }
  else do
    pyAssert (decide (env.bv ≥ 30))
    let b ← unpackN 6 (sliceTo data 6)
    let c ← unpackN 3 (slice data 6 9)
    let rgb := (fld c 0 1, fld c 1 1, fld c 2 1)
    let k ← env.nearest rgb
    pure { s with firstVisibleRowx := fld b 2 2, firstVisibleColx := fld b 4 2, gridlineColourRgb := some rgb,
                  gridlineColourIndex := k, window2 := windowBits 12 (fld b 0 2) }

/-- sheet.py 1304-1317 -/
def recScl (s : SheetSt) (data : Bytes) : R SheetSt := do
  let b ← unpackN 4 data
  let num := fld b 0 2
  let den := fld b 2 2
  let result := if den ≠ 0 then num * 100 / den else 0
  let result := if 10 ≤ result ∧ result ≤ 400 then result else 100
  pure { s with scl := some result }

/-- sheet.py 1318-1326 -/
def recPane (s : SheetSt) (data : Bytes) : R SheetSt := do
  let b ← unpackN 9 (sliceTo data 9)
  pure { s with vertSplitPos := fld b 0 2, horzSplitPos := fld b 2 2, horzSplitFirstVisible := fld b 4 2,
                vertSplitFirstVisible := fld b 6 2, splitActivePane := fld b 8 1, hasPane := true }

/-- sheet.py 1331-1339, 1344-1352: the loop `while pos < data_len`; `n` is the number of breaks, which the
assertion before the loop makes the number of passes. -/
def breakLoop (bv last : Nat) (data : Bytes) : Nat → Int → R (List (Nat × Nat × Nat))
  | 0, _ => .ok []
  | n + 1, pos =>
    if bv < 80 then do
      let b ← unpackH (slice data pos (pos + 2))
      let bs ← breakLoop bv last data n (pos + 2)
      pure ((b, 0, last) :: bs)
    else do
      let b ← unpackN 6 (slice data pos (pos + 6))
      let bs ← breakLoop bv last data n (pos + 6)
      pure ((fld b 0 2, fld b 2 2, fld b 4 2) :: bs)

/-- sheet.py 1328-1339 and 1341-1352; `last` is the upper limit used before BIFF8. -/
def pageBreaks (bv last len : Nat) (data : Bytes) : R (List (Nat × Nat × Nat)) := do
  let n ← unpackH (sliceTo data 2)
  pyAssert (decide (n * (2 + 4 * (if bv ≥ 80 then 1 else 0)) + 2 = len))
  breakLoop bv last data n 2

/-- sheet.py 1327-1339 -/
def recHBreaks (env : SheetEnv) (s : SheetSt) (len : Nat) (data : Bytes) : R SheetSt := do
  if env.cfg.fmtInfo then
    let bs ← pageBreaks env.bv 255 len data
    pure { s with hbreaks := s.hbreaks ++ bs }
  else pure s

/-- sheet.py 1340-1352 -/
def recVBreaks (env : SheetEnv) (s : SheetSt) (len : Nat) (data : Bytes) : R SheetSt := do
  if env.cfg.fmtInfo then
    let bs ← pageBreaks env.bv 65535 len data
    pure { s with vbreaks := s.vbreaks ++ bs }
  else pure s

/-- sheet.py 1130-1139: skip an embedded substream. -/
def skipEmbedded (mem : Bytes) : Nat → Int → R Int
  | 0, _ => .error .recursion
  | fuel + 1, pos => do
    let ((rc, _, _), pos) ← getRecordParts mem pos
    if rc = XL_EOF then pure pos else skipEmbedded mem fuel pos

/-- sheet.py 1130-1139 -/
def recEmbedded (mem : Bytes) (pos : Int) (data : Bytes) : R Int := do
  let _ ← unpackN 4 (slice data 0 4)
  skipEmbedded mem (mem.length + 1) pos

/-- The records of `extraRecord`. -/
abbrev otherCodes : List Nat :=
  [XL_HLINK, XL_QUICKTIP, XL_OBJ, XL_MSO_DRAWING, XL_TXO, XL_NOTE, XL_FEAT11, XL_COUNTRY]

/-- sheet.py 1105-1108, 1114-1129, 1140-1141: records about drawings, notes and hyperlinks, and COUNTRY (book.py 843-848). -/
def extraRecord (env : SheetEnv) (mem : Bytes) (e : Extras) (pos : Int) (rc : Nat) (data : Bytes) : R (Extras × Int) :=
  if rc = XL_HLINK then do pure (← handleHlink e data, pos)
  else if rc = XL_QUICKTIP then do pure (← handleQuicktip e data, pos)
  else if rc = XL_OBJ then do
    let id ← handleObj env.bv data
    pure ({ e with saved := some id }, pos)
  else if rc = XL_TXO then recTxo env.bv mem e data pos
  else if rc = XL_NOTE then handleNote env.bv env.dec mem e data pos
  else if rc = XL_COUNTRY then do
    let b ← unpackN 4 (slice data 0 4)
    let cur := e.countries.getD env.countries
    pyAssert (decide (cur = (0, 0) ∨ cur = (fld b 0 2, fld b 2 2)))
    pure ({ e with countries := some (fld b 0 2, fld b 2 2) }, pos)
  else pure (e, pos)

/-- Records whose handler does not move the position. -/
def plainRecord (env : SheetEnv) (s : SheetSt) (rc len : Nat) (data : Bytes) : R SheetSt :=
  if rc = XL_NUMBER then recNumber env s data
  else if rc = XL_LABELSST then recLabelSst env s data
  else if rc = XL_LABEL then recLabel env s data
  else if rc = XL_RSTRING then recRString env s data
  else if rc = XL_RK then recRk env s data
  else if rc = XL_MULRK then recMulRk env s data
  else if rc = XL_ROW then recRow env s data
  else if rc = XL_BOOLERR then recBoolErr env s data
  else if rc = XL_COLINFO then recColinfo env s data
  else if rc = XL_DEFCOLWIDTH then recDefColWidth s data
  else if rc = XL_STANDARDWIDTH then recStandardWidth s data
  else if rc = XL_GCW then recGcw env s len data
  else if rc = XL_BLANK then recBlank env s data
  else if rc = XL_MULBLANK then recMulBlank env s len data
  else if rc = XL_DIMENSION ∨ rc = XL_DIMENSION2 then recDimension env s len data
  else if rc = XL_LABELRANGES then recLabelRanges s len data
  else if rc = XL_ARRAY then do let _ ← unpackN 14 (sliceTo data 14); pure s
  else if rc = XL_SHRFMLA then do let _ ← unpackN 10 (sliceTo data 10); pure s
  else if rc = XL_CONDFMT then recCondFmt env s data
  else if rc = XL_CF then recCf env s len data
  else if rc = XL_DEFAULTROWHEIGHT then recDefaultRowHeight s len data
  else if rc = XL_MERGEDCELLS then recMergedCells env s len data
  else if rc = XL_WINDOW2 then recWindow2 env s len data
  else if rc = XL_SCL then recScl s data
  else if rc = XL_PANE then recPane s data
  else if rc = XL_HORIZONTALPAGEBREAKS then recHBreaks env s len data
  else if rc = XL_VERTICALPAGEBREAKS then recVBreaks env s len data
  else pure s

/-- sheet.py 819-1502: one record other than EOF.  The tests of the code are on distinct codes, so their
order does not matter. -/
def sheetRecord (env : SheetEnv) (mem : Bytes) (s : SheetSt) (pos : Int) (rc len : Nat) (data : Bytes) : R (SheetSt × Int) :=
  if rc ∈ XL_FORMULA_OPCODES then recFormula env mem s pos data
  else if rc ∈ bofcodes then do pure (s, ← recEmbedded mem pos data)
  else if rc ∈ otherCodes then do
    let (e, pos) ← extraRecord env mem s.ext pos rc data
    pure ({ s with ext := e }, pos)
  else do pure (← plainRecord env s rc len data, pos)

/-- sheet.py 812-1502: the record loop, up to the EOF record.  `fuel` bounds the number of records. -/
def sheetLoop (env : SheetEnv) (mem : Bytes) : Nat → SheetSt → Int → R SheetSt
  | 0, _, _ => .error .recursion
  | fuel + 1, s, pos => do
    let ((rc, len, data), pos) ← getRecordParts mem pos
    if rc = XL_EOF then pure s
    else do
      let (s, pos) ← sheetRecord env mem s pos rc len data
      sheetLoop env mem fuel s pos

/-- What the record loop has put into `countries` of the book when it ends or raises (book.py 843-848): the loop of `sheetLoop` again. -/
def sheetCountries (env : SheetEnv) (mem : Bytes) : Nat → SheetSt → Int → Option (Nat × Nat)
  | 0, s, _ => s.ext.countries
  | fuel + 1, s, pos =>
    match getRecordParts mem pos with
    | .error _ => s.ext.countries
    | .ok ((rc, len, data), pos) =>
      if rc = XL_EOF then s.ext.countries
      else match sheetRecord env mem s pos rc len data with
        | .error _ => s.ext.countries
        | .ok (s, pos) => sheetCountries env mem fuel s pos

/-- sheet.py 1540-1583 `update_cooked_mag_factors`. -/
def updateCooked (s : SheetSt) : SheetSt :=
  if s.window2.getD 11 0 ≠ 0 then
    let pb := match s.scl with | none => 100 | some x => x
    let zoom := s.cachedNormal
    let zoom := if 10 ≤ zoom ∧ zoom ≤ 400 then zoom else pb
    { s with cookedPageBreak := pb, cookedNormal := zoom }
  else
    let nv := match s.scl with | none => 100 | some x => x
    let zoom := s.cachedPageBreak
    let zoom := if zoom = 0 then 60 else if 10 ≤ zoom ∧ zoom ≤ 400 then zoom else nv
    { s with cookedNormal := nv, cookedPageBreak := zoom }

/-- A range as used by `tidy_dimensions`. -/
def toCRange (r : Range4) : CRange := ⟨r.1, r.2.1, r.2.2.1, r.2.2.2⟩

/-- sheet.py 1506-1507 -/
def sheetFinish (env : SheetEnv) (s : SheetSt) : R SheetSt := do
  let st ← tidyDimensions env.cfg s.store (s.merged.map toCRange)
  pure (updateCooked { s with store := st })

/-- sheet.py 789-1509 `Sheet.read` on a new sheet at position `pos`. -/
def sheetRead (env : SheetEnv) (mem : Bytes) (pos : Int) : R SheetSt := do
  let s ← sheetLoop env mem (mem.length + 1) {} pos
  sheetFinish env s

/-- What the accessors see of a loaded sheet. -/
def SheetSt.view (env : SheetEnv) (s : SheetSt) : SheetView :=
  ⟨s.store, env.cfg.fmtInfo, env.bv, s.rowinfo, s.colinfo, s.standardwidth, s.defcolwidth, s.gcw⟩

/-- A `Sheet` object: its name, its number, its visibility and what `read` found. -/
structure LSheet where
  name : PyStr
  number : Int
  visibility : Nat
  st : SheetSt

end Xlrd
