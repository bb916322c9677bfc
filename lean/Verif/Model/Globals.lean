import Verif.Model.Formatting

/-!
# The workbook globals: `xlrd/book.py` `parse_globals` and the handlers of its records

`verbosity` is 0.  `Book` holds the attributes that these functions set; an exception abandons the load, so
only the state after successful calls matters.
-/
namespace Xlrd

/-! Record codes (biffh.py 111-216) -/
abbrev XL_SST : Nat := 0xfc
abbrev XL_FONT : Nat := 0x31
abbrev XL_FONT_B3B4 : Nat := 0x231
abbrev XL_FORMAT : Nat := 0x41e
abbrev XL_XF : Nat := 0xe0
abbrev XL_BOUNDSHEET : Nat := 0x85
abbrev XL_DATEMODE : Nat := 0x22
abbrev XL_CODEPAGE : Nat := 0x42
abbrev XL_EXTERNNAME : Nat := 0x23
abbrev XL_EXTERNSHEET : Nat := 0x17
abbrev XL_FILEPASS : Nat := 0x2f
abbrev XL_WRITEACCESS : Nat := 0x5c
abbrev XL_SHEETSOFFSET : Nat := 0x8e
abbrev XL_SHEETHDR : Nat := 0x8f
abbrev XL_SUPBOOK : Nat := 0x1ae
abbrev XL_NAME : Nat := 0x18
abbrev XL_PALETTE : Nat := 0x92
abbrev XL_STYLE : Nat := 0x293

/-! book.py 30 -/
abbrev SUPBOOK_INTERNAL : Nat := 1
abbrev SUPBOOK_EXTERNAL : Nat := 2
abbrev SUPBOOK_ADDIN : Nat := 3
abbrev SUPBOOK_DDEOLE : Nat := 4

/-- book.py 132-267 `Name`, without the results of evaluating its formula. -/
structure NameObj where
  nameIndex : Nat
  optionFlags : Nat
  hidden : Nat
  func : Nat
  vbasic : Nat
  macroFlag : Nat
  complex : Nat
  builtin : Nat
  funcgroup : Nat
  binary : Nat
  extnSheetNum : Nat
  excelSheetIndex : Nat
  scope : Option Int
  name : PyStr
  rawFormula : Bytes
  basicFormulaLen : Nat
  deriving DecidableEq, Repr

/-- book.py 563-596: the attributes of a `Book` that `parse_globals` uses.  The shared strings and the runs of
`_rich_text_runlist_map` are one list. `rawUser` is `user_name` while `raw_user_name` is set. -/
structure Book where
  fmt : FmtSt := {}
  encoding : Option PyStr := none
  codepage : Option Nat := none
  userName : PyStr := []
  rawUser : Option Bytes := none
  countries : Nat × Nat := (0, 0)
  datemode : Nat := 0
  sheetNames : List PyStr := []
  shAbsPosn : List Int := []
  sheetVisibility : List Nat := []
  allSheetsMap : List Int := []
  allSheetsCount : Nat := 0
  sheetNumFromName : PyStr → Option Nat := fun _ => none
  sheetsoffset : Option Int := none
  supbookTypes : List (Option Nat) := []
  supbookCount : Nat := 0
  supbookLocalsInx : Option Nat := none
  supbookAddinsInx : Option Nat := none
  addinFuncNames : List PyStr := []
  externsheetInfo : List (Nat × Nat × Nat) := []
  externsheetTypeB57 : List Nat := []
  extnshtNameFromNum : Nat → Option PyStr := fun _ => none
  extnshtCount : Nat := 0
  sst : List (PyStr × Option (List (Nat × Nat))) := []
  nameObjs : List NameObj := []
  nameAndScopeMap : PyStr × Int → Option Nat := fun _ => none
  nameMap : PyStr → Option (List Nat) := fun _ => none
  /-- `_xf_epilogue_done` -/
  xfDone : Bool := false
  /-- `_sheet_list` while the globals of a BIFF4W file are read; its length is `_sheethdr_count` -/
  embedded : List LSheet := []

/-- What the functions take from outside: `biff_version`, `formatting_info`, `encoding_override` (empty for
None), `base`, the codecs, `str.rstrip`, `str.lower`, and the parts modelled elsewhere: the SHEETHDR handler of BIFF4W
and the evaluation of name formulas (which may raise, and otherwise sets only attributes of `Name` objects that are
not in `NameObj`). -/
structure BookEnv where
  bv : Nat
  fi : Bool
  override : PyStr
  base : Int
  codec : PyStr → Bytes → R PyStr
  rstrip : PyStr → PyStr
  lower : PyStr → PyStr
  sheethdr : Bytes → Book → Bytes → Int → R (Book × Int)
  evalNames : Book → R Unit

/-- `unicode(b, self.encoding)`; `str(b, None)` is a TypeError. -/
def Book.dec (env : BookEnv) (b : Book) (x : Bytes) : R PyStr :=
  match b.encoding with
  | none => .error .type
  | some e => env.codec e x

/-! ## Encoding -/

/-- biffh.py 621-631 -/
def encodingFromCodepage : List (Nat × String) :=
  [(1200, "utf_16_le"), (10000, "mac_roman"), (10006, "mac_greek"), (10007, "mac_cyrillic"), (10029, "mac_latin2"),
   (10079, "mac_iceland"), (10081, "mac_turkish"), (32768, "mac_roman"), (32769, "cp1252")]

/-- book.py 806-814: the encoding for a codepage, and the new codepage. -/
def codepageEncoding (bv cp : Nat) : PyStr × Nat :=
  match itemsGet encodingFromCodepage cp with
  | some e => (e.toList, cp)
  | none =>
    if 300 ≤ cp ∧ cp ≤ 1999 then ("cp".toList ++ natDec cp, cp)
    else if bv ≥ 80 then ("utf_16_le".toList, 1200)
    else ("unknown_codepage_".toList ++ natDec cp, cp)

/-- book.py 793-818: `encoding` and `codepage` are set. -/
def chooseEncoding (env : BookEnv) (b : Book) : Book :=
  if env.override ≠ [] then { b with encoding := some env.override }
  else match b.codepage with
    | none =>
      if env.bv < 80 then { b with encoding := some "iso-8859-1".toList }
      else { b with codepage := some 1200 }
    | some cp => { b with encoding := some (codepageEncoding env.bv cp).1, codepage := some (codepageEncoding env.bv cp).2 }

/-- book.py 819-828: the codec must be able to decode `b'trial'`. -/
def trialDecode (env : BookEnv) (b : Book) : R Unit :=
  if b.codepage ≠ some 1200 then do let _ ← b.dec env [0x74, 0x72, 0x69, 0x61, 0x6c]; pure ()
  else pure ()

/-- book.py 829-834: a user name that came too early. -/
def decodeUserName (env : BookEnv) (b : Book) : R Book :=
  match b.rawUser with
  | none => .ok b
  | some raw => do
    let s ← unpackString (b.dec env) raw 0 1
    pure { b with userName := env.rstrip s, rawUser := none }

/-- book.py 792-835 `derive_encoding` -/
def deriveEncoding (env : BookEnv) (b : Book) : R Book := do
  let b := chooseEncoding env b
  trialDecode env b
  decodeUserName env b

/-- `if not self.encoding: self.derive_encoding()` -/
def ensureEncoding (env : BookEnv) (b : Book) : R Book :=
  match b.encoding with
  | none => deriveEncoding env b
  | some _ => .ok b

/-! ## Handlers -/

/-- book.py 837-841 `handle_codepage` -/
def handleCodepage (env : BookEnv) (b : Book) (data : Bytes) : R Book := do
  let cp ← unpackH (slice data 0 2)
  deriveEncoding env { b with codepage := some cp }

/-- book.py 843-848 `handle_country` -/
def handleCountry (b : Book) (data : Bytes) : R Book := do
  let d ← unpackN 4 (slice data 0 4)
  let c := (fld d 0 2, fld d 2 2)
  pyAssert (b.countries = (0, 0) || b.countries = c)
  pure { b with countries := c }

/-- book.py 850-855 `handle_datemode` -/
def handleDatemode (b : Book) (data : Bytes) : R Book := do
  let m ← unpackH (slice data 0 2)
  pyAssert (m = 0 || m = 1)
  pure { b with datemode := m }

/-- book.py 857-869 `handle_externname` -/
def handleExternname (env : BookEnv) (b : Book) (data : Bytes) : R Book :=
  if env.bv ≥ 80 then do
    let _ ← unpackN 6 (sliceTo data 6)
    let (name, _) ← unpackUnicodeUpdatePos data 6 1 none
    let t ← idx b.supbookTypes (-1)
    pure (if t = some SUPBOOK_ADDIN then { b with addinFuncNames := b.addinFuncNames ++ [name] } else b)
  else .ok b

/-- book.py 879-887: CONTINUE records until there are enough bytes; every pass consumes at least four
bytes of `mem`, so `fuel > mem.length` is not exhausted. -/
def externContinue (mem : Bytes) (reqd : Nat) : Nat → Bytes → Int → R (Bytes × Int)
  | 0, _, _ => .error .recursion
  | fuel + 1, data, pos =>
    if data.length < reqd then do
      let ((code, _, data2), pos) ← getRecordParts mem pos
      if code ≠ XL_CONTINUE then .error .xlrd
      else externContinue mem reqd fuel (data ++ data2) pos
    else .ok (data, pos)

/-- book.py 889-893: `k` references from `pos` on. -/
def externRefs (data : Bytes) : Nat → Int → R (List (Nat × Nat × Nat))
  | 0, _ => .ok []
  | k + 1, pos => do
    let b ← unpackN 6 (slice data pos (pos + 6))
    let rest ← externRefs data k (pos + 6)
    pure ((fld b 0 2, fld b 2 2, fld b 4 2) :: rest)

/-- book.py 888-899 (BIFF8, all bytes collected) -/
def externApply8 (b : Book) (data : Bytes) : R Book := do
  let n ← unpackH (slice data 0 2)
  let refs ← externRefs data n 2
  pure { b with externsheetInfo := b.externsheetInfo ++ refs }

/-- book.py 912-915 -/
def externName57 (env : BookEnv) (b : Book) (data : Bytes) (nc ty : Nat) : R Book :=
  if ty = 3 then do
    let name ← b.dec env (slice data 2 ((nc : Int) + 2))
    pure { b with extnshtNameFromNum := dictSet b.extnshtNameFromNum b.extnshtCount name }
  else pure b

/-- book.py 900-920 (before BIFF8) -/
def externApply57 (env : BookEnv) (b : Book) (data : Bytes) : R Book := do
  let d ← unpackN 2 (sliceTo data 2)
  let nc := fld d 0 1
  let ty := fld d 1 1
  let b ← externName57 env b data nc ty
  pure { b with externsheetTypeB57 := b.externsheetTypeB57 ++ [if 1 ≤ ty ∧ ty ≤ 4 then ty else 0] }

/-- book.py 872-873 -/
def externBegin (env : BookEnv) (b : Book) : R Book := do
  let b ← deriveEncoding env b
  pure { b with extnshtCount := b.extnshtCount + 1 }

/-- book.py 871-920 `handle_externsheet` -/
def handleExternsheet (env : BookEnv) (mem : Bytes) (b : Book) (data : Bytes) (pos : Int) : R (Book × Int) := do
  let b ← externBegin env b
  if env.bv ≥ 80 then do
    let n ← unpackH (slice data 0 2)
    let (data, pos) ← externContinue mem (n * 6 + 2) (mem.length + 1) data pos
    let b ← externApply8 b data
    pure (b, pos)
  else do
    let b ← externApply57 env b data
    pure (b, pos)

/-- book.py 755-758 -/
def boundsheetName (env : BookEnv) (b : Book) (data : Bytes) : R PyStr :=
  if env.bv < 80 then unpackString (b.dec env) data 6 1 else unpackUnicode data 6 1

/-- book.py 733-783 `handle_boundsheet`: position, visibility, type and name. -/
def boundsheetFields (env : BookEnv) (b : Book) (data : Bytes) : R (Int × Nat × Nat × PyStr) :=
  if env.bv = 45 then do
    let name ← unpackString (b.dec env) data 0 1
    if b.shAbsPosn.length = 0 then
      match b.sheetsoffset with
      | none => .error .attr
      | some o => pure (o + env.base, 0, 0, name)
    else pure (-1, 0, 0, name)
  else do
    let d ← unpackN 6 (slice data 0 6)
    let name ← boundsheetName env b data
    pure (sgn 32 (fld d 0 4) + env.base, fld d 4 1, fld d 5 1, name)

/-- book.py 765-783 -/
def addSheet (b : Book) (posn : Int) (vis ty : Nat) (name : PyStr) : Book :=
  if ty ≠ 0 then { b with allSheetsCount := b.allSheetsCount + 1, allSheetsMap := b.allSheetsMap ++ [-1] }
  else { b with allSheetsCount := b.allSheetsCount + 1
                allSheetsMap := b.allSheetsMap ++ [(b.sheetNames.length : Int)]
                sheetNames := b.sheetNames ++ [name], shAbsPosn := b.shAbsPosn ++ [posn]
                sheetVisibility := b.sheetVisibility ++ [vis]
                sheetNumFromName := dictSet b.sheetNumFromName name b.sheetNames.length }

/-- book.py 733-783 `handle_boundsheet` -/
def handleBoundsheet (env : BookEnv) (b : Book) (data : Bytes) : R Book := do
  let b ← deriveEncoding env b
  let (posn, vis, ty, name) ← boundsheetFields env b data
  pure (addSheet b posn vis ty name)

/-- book.py 34-49 `builtin_name_from_code.get(name, "??Unknown??")`; the codes are one character. -/
def builtinNames : List PyStr :=
  ["Consolidate_Area", "Auto_Open", "Auto_Close", "Extract", "Database", "Criteria", "Print_Area", "Print_Titles", "Recorder",
   "Data_Form", "Auto_Activate", "Auto_Deactivate", "Sheet_Title", "_FilterDatabase"].map String.toList

def builtinNameFromCode (code : PyStr) : PyStr :=
  match code with
  | [c] => match builtinNames[c.toNat]? with
    | some n => n
    | none => "??Unknown??".toList
  | _ => "??Unknown??".toList

/-- book.py 974-979: the internal name and the position after it. -/
def nameText (env : BookEnv) (b : Book) (data : Bytes) (nameLen : Nat) : R (PyStr × Int) :=
  if env.bv < 80 then unpackStringUpdatePos (b.dec env) data 14 2 (some (nameLen : Int))
  else unpackUnicodeUpdatePos data 14 2 (some (nameLen : Int))

/-- book.py 945-997 `handle_name` -/
def handleName (env : BookEnv) (b : Book) (data : Bytes) : R Book :=
  if env.bv < 50 then .ok b
  else do
    let b ← deriveEncoding env b
    let d ← unpackN 14 (slice data 0 14)
    let flags := fld d 0 2
    let (internal, pos) ← nameText env b data (fld d 3 1)
    pure { b with nameObjs := b.nameObjs ++ [{
      nameIndex := b.nameObjs.length, optionFlags := flags,
      hidden := upk flags 0 1, func := upk flags 1 2, vbasic := upk flags 2 4, macroFlag := upk flags 3 8, complex := upk flags 4 0x10,
      builtin := upk flags 5 0x20, funcgroup := upk flags 6 0xFC0, binary := upk flags 12 0x1000,
      extnSheetNum := fld d 6 2, excelSheetIndex := fld d 8 2, scope := none,
      name := if upk flags 5 0x20 ≠ 0 then builtinNameFromCode internal else internal,
      rawFormula := sliceFrom data pos, basicFormulaLen := fld d 4 2 }] }

/-- book.py 1117-1130: the sheet names of an external book are read and dropped; `struct.error` ends the loop. -/
def supbookSheets (data : Bytes) : Nat → Int → R Unit
  | 0, _ => .ok ()
  | n + 1, pos =>
    match unpackUnicodeUpdatePos data pos 2 none with
    | .ok (_, pos) => supbookSheets data n pos
    | .error .struct => .ok ()
    | .error e => .error e

/-- book.py 1097-1115: the type of a SUPBOOK record, after reading what has to be read. -/
def supbookType (data : Bytes) (numSheets : Nat) : R Nat :=
  if slice data 2 4 = [0x01, 0x04] then .ok SUPBOOK_INTERNAL
  else if slice data 0 4 = [0x01, 0x00, 0x01, 0x3A] then .ok SUPBOOK_ADDIN
  else do
    let (_, pos) ← unpackUnicodeUpdatePos data 2 2 none
    if numSheets = 0 then pure SUPBOOK_DDEOLE
    else do
      supbookSheets data numSheets pos
      pure SUPBOOK_EXTERNAL

/-- book.py 1086-1132 `handle_supbook` -/
def handleSupbook (b : Book) (data : Bytes) : R Book := do
  let n ← unpackH (slice data 0 2)
  let t ← supbookType data n
  pure { b with supbookTypes := b.supbookTypes ++ [some t], supbookCount := b.supbookCount + 1
                supbookLocalsInx := if t = SUPBOOK_INTERNAL then some b.supbookCount else b.supbookLocalsInx
                supbookAddinsInx := if t = SUPBOOK_ADDIN then some b.supbookCount else b.supbookAddinsInx }

/-- book.py 1154-1158 `handle_sheetsoffset` -/
def handleSheetsoffset (b : Book) (data : Bytes) : R Book := do
  let o ← unpacki data
  pure { b with sheetsoffset := some o }

/-- `bytes.strip()` -/
def isSpaceByte (x : UInt8) : Bool := x = 32 || (9 ≤ x && x ≤ 13)
def bytesStrip (b : Bytes) : Bytes := ((b.dropWhile isSpaceByte).reverse.dropWhile isSpaceByte).reverse

/-- book.py 1193-1197 -/
def writeaccess8 (data : Bytes) : R PyStr :=
  match unpackUnicode data 0 2 with
  | .error .unicode => unpackUnicode (bytesStrip data) 0 2
  | r => r

/-- book.py 1185-1201 `handle_writeaccess`; a name that is still raw when another one is decoded cannot
occur, because setting the encoding decodes it. -/
def handleWriteaccess (env : BookEnv) (b : Book) (data : Bytes) : R Book :=
  if env.bv < 80 then
    match b.encoding with
    | none => .ok { b with rawUser := some data }
    | some _ => do
      let s ← unpackString (b.dec env) data 0 1
      pure { b with userName := env.rstrip s }
  else do
    let s ← writeaccess8 data
    pure { b with userName := env.rstrip s }

/-- formatting.py 262-331 `handle_font` with its first lines. -/
def bookFont (env : BookEnv) (b : Book) (data : Bytes) : R Book :=
  if !env.fi then .ok b
  else do
    let b ← ensureEncoding env b
    let f ← handleFont env.bv env.fi (b.dec env) b.fmt data
    pure { b with fmt := f }

/-- formatting.py 525-573 `handle_format` with its first lines. -/
def bookFormat (env : BookEnv) (b : Book) (data : Bytes) : R Book := do
  let b ← ensureEncoding env b
  let f ← handleFormat env.bv (b.dec env) b.fmt data false
  pure { b with fmt := f }

def bookXf (env : BookEnv) (b : Book) (data : Bytes) : R Book := do
  let f ← handleXf env.bv env.fi b.fmt data
  pure { b with fmt := f }

def bookPalette (env : BookEnv) (b : Book) (data : Bytes) : R Book := do
  let f ← handlePalette env.fi b.fmt data
  pure { b with fmt := f }

def bookStyle (env : BookEnv) (b : Book) (data : Bytes) : R Book := do
  let f ← handleStyle env.bv env.fi (b.dec env) b.fmt data
  pure { b with fmt := f }

/-! ## Epilogues -/

/-- book.py 1023-1040: `scope` of a name. -/
def nameScope (env : BookEnv) (b : Book) (o : NameObj) : R Int :=
  if env.bv ≥ 80 then
    if o.excelSheetIndex = 0 then .ok (-1)
    else match b.allSheetsMap[o.excelSheetIndex - 1]? with
      | some s => .ok (if s = -1 then -2 else s)
      | none => .ok (-3)
  else
    if o.extnSheetNum = 0 then .ok (-1)
    else match b.extnshtNameFromNum o.extnSheetNum with
      | none => .error .key
      | some sheet => .ok (match b.sheetNumFromName sheet with
        | some n => (n : Int)
        | none => -2)

/-- book.py 1015-1041 -/
def setScopes (env : BookEnv) (b : Book) : List NameObj → R (List NameObj)
  | [] => .ok []
  | o :: os => do
    let s ← nameScope env b o
    let rest ← setScopes env b os
    pure ({ o with scope := some s } :: rest)

/-- book.py 1071-1074: `alist.sort()` on `(scope, namex, nobj)` -/
def sortByScope (l : List (Int × Nat)) : List (Int × Nat) :=
  l.mergeSort fun a b => decide (a.1 < b.1 ∨ (a.1 = b.1 ∧ a.2 ≤ b.2))

/-- book.py 1055-1070: one name entered into the two maps (`scope` has been set). -/
def enterName (lower : PyStr → PyStr) (m : (PyStr × Int → Option Nat) × (PyStr → Option (List (Int × Nat)))) (o : NameObj) :
    (PyStr × Int → Option Nat) × (PyStr → Option (List (Int × Nat))) :=
  let key := lower o.name
  let s := o.scope.getD 0
  (dictSet m.1 (key, s) o.nameIndex,
   dictSet m.2 key (match m.2 key with
     | some l => l ++ [(s, o.nameIndex)]
     | none => [(s, o.nameIndex)]))

/-- book.py 1005-1076 `names_epilogue` (`nobj.name_index` is the index in the list). -/
def namesEpilogue (env : BookEnv) (b : Book) : R Book := do
  let os ← setScopes env b b.nameObjs
  let b := { b with nameObjs := os }
  env.evalNames b
  let m := os.foldl (enterName env.lower) (fun _ => none, fun _ => none)
  pure { b with nameAndScopeMap := m.1, nameMap := fun k => (m.2 k).map fun l => (sortByScope l).map Prod.snd }

/-- book.py 1250-1261: what happens at the EOF record. -/
def globalsEof (env : BookEnv) (b : Book) : R Book := do
  let b := { b with fmt := xfEpilogue env.fi b.fmt }
  let b ← namesEpilogue env b
  let b := { b with fmt := paletteEpilogue b.fmt }
  ensureEncoding env b

/-! ## The record loop -/

/-- book.py 1212-1265: the records that are dealt with alone.  The codes are distinct, so the order of
the tests does not matter; with verbosity 0 unexpected BOF records are ignored like unknown records. -/
def globalsRecord (env : BookEnv) (b : Book) (rc : Nat) (data : Bytes) : R Book :=
  if rc = XL_FONT ∨ rc = XL_FONT_B3B4 then bookFont env b data
  else if rc = XL_FORMAT then bookFormat env b data
  else if rc = XL_XF then bookXf env b data
  else if rc = XL_BOUNDSHEET then handleBoundsheet env b data
  else if rc = XL_DATEMODE then handleDatemode b data
  else if rc = XL_CODEPAGE then handleCodepage env b data
  else if rc = XL_COUNTRY then handleCountry b data
  else if rc = XL_EXTERNNAME then handleExternname env b data
  else if rc = XL_FILEPASS then .error .xlrd
  else if rc = XL_WRITEACCESS then handleWriteaccess env b data
  else if rc = XL_SHEETSOFFSET then handleSheetsoffset b data
  else if rc = XL_SUPBOOK then handleSupbook b data
  else if rc = XL_NAME then handleName env b data
  else if rc = XL_PALETTE then bookPalette env b data
  else if rc = XL_STYLE then bookStyle env b data
  else .ok b

/-- book.py 1160-1180: the shared strings are set. -/
def globalsSst (mem : Bytes) (b : Book) (data : Bytes) (pos : Int) : R (Book × Int) := do
  let (t, pos) ← handleSst mem pos data
  pure ({ b with sst := t }, pos)

/-- book.py 1207-1265: one record other than EOF; SST, EXTERNSHEET and SHEETHDR read on. -/
def globalsStep (env : BookEnv) (mem : Bytes) (b : Book) (rc : Nat) (data : Bytes) (pos : Int) : R (Book × Int) :=
  if rc = XL_SST then globalsSst mem b data pos
  else if rc = XL_EXTERNSHEET then handleExternsheet env mem b data pos
  else if rc = XL_SHEETHDR then env.sheethdr mem b data pos
  else do
    let b ← globalsRecord env b rc data
    pure (b, pos)

/-- book.py 1207-1265: the loop.  Every pass consumes at least four bytes, except that a SHEETHDR record (of BIFF4W) with a negative length
leads back to bytes already read; then the code may need more passes than there is fuel, or never stop. -/
def globalsLoop (env : BookEnv) (mem : Bytes) : Nat → Book → Int → R (Book × Int)
  | 0, _, _ => .error .recursion
  | fuel + 1, b, pos => do
    let ((rc, _, data), pos) ← getRecordParts mem pos
    if rc = XL_EOF then do
      let b ← globalsEof env b
      pure (b, pos)
    else do
      let (b, pos) ← globalsStep env mem b rc data pos
      globalsLoop env mem fuel b pos

/-- book.py 563-596: a new book. -/
abbrev newBook : Book := {}

/-- book.py 1203-1265 `parse_globals` -/
def parseGlobals (env : BookEnv) (mem : Bytes) (b : Book) (pos : Int) : R (Book × Int) := do
  let f ← initialiseColourMap env.bv env.fi b.fmt
  globalsLoop env mem (mem.length + 1) { b with fmt := f } pos

end Xlrd
