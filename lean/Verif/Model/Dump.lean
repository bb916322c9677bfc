import Verif.Model.Py
import Verif.Model.CompDoc
import Verif.Model.Open

/-!
# Dumps of records

`biffh.py` 354-619 (`biff_rec_name_dict`, `hex_char_dump`, `biff_dump`, `biff_count_records`) and `__init__.py` 188-213 (`dump`, `count_records`).  What is
written is a list of lines.  The message of `hex_char_dump` to `sys.stdout` for an impossible case is left out.
-/
namespace Xlrd

/-- biffh.py 354-513 `_brecstrg` -/
def recNameTable : List (Nat × String) :=
  [(0x0000, "DIMENSIONS_B2"), (0x0001, "BLANK_B2"), (0x0002, "INTEGER_B2_ONLY"), (0x0003, "NUMBER_B2"), (0x0004, "LABEL_B2"),
   (0x0005, "BOOLERR_B2"), (0x0006, "FORMULA"), (0x0007, "STRING_B2"), (0x0008, "ROW_B2"), (0x0009, "BOF_B2"),
   (0x000A, "EOF"), (0x000B, "INDEX_B2_ONLY"), (0x000C, "CALCCOUNT"), (0x000D, "CALCMODE"), (0x000E, "PRECISION"),
   (0x000F, "REFMODE"), (0x0010, "DELTA"), (0x0011, "ITERATION"), (0x0012, "PROTECT"), (0x0013, "PASSWORD"),
   (0x0014, "HEADER"), (0x0015, "FOOTER"), (0x0016, "EXTERNCOUNT"), (0x0017, "EXTERNSHEET"), (0x0018, "NAME_B2,5+"),
   (0x0019, "WINDOWPROTECT"), (0x001A, "VERTICALPAGEBREAKS"), (0x001B, "HORIZONTALPAGEBREAKS"), (0x001C, "NOTE"), (0x001D, "SELECTION"),
   (0x001E, "FORMAT_B2-3"), (0x001F, "BUILTINFMTCOUNT_B2"), (0x0020, "COLUMNDEFAULT_B2_ONLY"), (0x0021, "ARRAY_B2_ONLY"), (0x0022, "DATEMODE"),
   (0x0023, "EXTERNNAME"), (0x0024, "COLWIDTH_B2_ONLY"), (0x0025, "DEFAULTROWHEIGHT_B2_ONLY"), (0x0026, "LEFTMARGIN"), (0x0027, "RIGHTMARGIN"),
   (0x0028, "TOPMARGIN"), (0x0029, "BOTTOMMARGIN"), (0x002A, "PRINTHEADERS"), (0x002B, "PRINTGRIDLINES"), (0x002F, "FILEPASS"),
   (0x0031, "FONT"), (0x0032, "FONT2_B2_ONLY"), (0x0036, "TABLEOP_B2"), (0x0037, "TABLEOP2_B2"), (0x003C, "CONTINUE"),
   (0x003D, "WINDOW1"), (0x003E, "WINDOW2_B2"), (0x0040, "BACKUP"), (0x0041, "PANE"), (0x0042, "CODEPAGE"),
   (0x0043, "XF_B2"), (0x0044, "IXFE_B2_ONLY"), (0x0045, "EFONT_B2_ONLY"), (0x004D, "PLS"), (0x0051, "DCONREF"),
   (0x0055, "DEFCOLWIDTH"), (0x0056, "BUILTINFMTCOUNT_B3-4"), (0x0059, "XCT"), (0x005A, "CRN"), (0x005B, "FILESHARING"),
   (0x005C, "WRITEACCESS"), (0x005D, "OBJECT"), (0x005E, "UNCALCED"), (0x005F, "SAVERECALC"), (0x0063, "OBJECTPROTECT"),
   (0x007D, "COLINFO"), (0x007E, "RK2_mythical_?"), (0x0080, "GUTS"), (0x0081, "WSBOOL"), (0x0082, "GRIDSET"),
   (0x0083, "HCENTER"), (0x0084, "VCENTER"), (0x0085, "BOUNDSHEET"), (0x0086, "WRITEPROT"), (0x008C, "COUNTRY"),
   (0x008D, "HIDEOBJ"), (0x008E, "SHEETSOFFSET"), (0x008F, "SHEETHDR"), (0x0090, "SORT"), (0x0092, "PALETTE"),
   (0x0099, "STANDARDWIDTH"), (0x009B, "FILTERMODE"), (0x009C, "FNGROUPCOUNT"), (0x009D, "AUTOFILTERINFO"), (0x009E, "AUTOFILTER"),
   (0x00A0, "SCL"), (0x00A1, "SETUP"), (0x00AB, "GCW"), (0x00BD, "MULRK"), (0x00BE, "MULBLANK"),
   (0x00C1, "MMS"), (0x00D6, "RSTRING"), (0x00D7, "DBCELL"), (0x00DA, "BOOKBOOL"), (0x00DD, "SCENPROTECT"),
   (0x00E0, "XF"), (0x00E1, "INTERFACEHDR"), (0x00E2, "INTERFACEEND"), (0x00E5, "MERGEDCELLS"), (0x00E9, "BITMAP"),
   (0x00EB, "MSO_DRAWING_GROUP"), (0x00EC, "MSO_DRAWING"), (0x00ED, "MSO_DRAWING_SELECTION"), (0x00EF, "PHONETIC"), (0x00FC, "SST"),
   (0x00FD, "LABELSST"), (0x00FF, "EXTSST"), (0x013D, "TABID"), (0x015F, "LABELRANGES"), (0x0160, "USESELFS"),
   (0x0161, "DSF"), (0x01AE, "SUPBOOK"), (0x01AF, "PROTECTIONREV4"), (0x01B0, "CONDFMT"), (0x01B1, "CF"),
   (0x01B2, "DVAL"), (0x01B6, "TXO"), (0x01B7, "REFRESHALL"), (0x01B8, "HLINK"), (0x01BC, "PASSWORDREV4"),
   (0x01BE, "DV"), (0x01C0, "XL9FILE"), (0x01C1, "RECALCID"), (0x0200, "DIMENSIONS"), (0x0201, "BLANK"),
   (0x0203, "NUMBER"), (0x0204, "LABEL"), (0x0205, "BOOLERR"), (0x0206, "FORMULA_B3"), (0x0207, "STRING"),
   (0x0208, "ROW"), (0x0209, "BOF"), (0x020B, "INDEX_B3+"), (0x0218, "NAME"), (0x0221, "ARRAY"),
   (0x0223, "EXTERNNAME_B3-4"), (0x0225, "DEFAULTROWHEIGHT"), (0x0231, "FONT_B3B4"), (0x0236, "TABLEOP"), (0x023E, "WINDOW2"),
   (0x0243, "XF_B3"), (0x027E, "RK"), (0x0293, "STYLE"), (0x0406, "FORMULA_B4"), (0x0409, "BOF"),
   (0x041E, "FORMAT"), (0x0443, "XF_B4"), (0x04BC, "SHRFMLA"), (0x0800, "QUICKTIP"), (0x0809, "BOF"),
   (0x0862, "SHEETLAYOUT"), (0x0867, "SHEETPROTECTION"), (0x0868, "RANGEPROTECTION")]

/-- biffh.py 515-518, `biff_rec_name_dict.get(rc)` (the codes in the table are different). -/
def recName? (rc : Nat) : Option PyStr := (recNameTable.lookup rc).map String.toList

/-- A hexadecimal digit, in lower or upper case. -/
def hexLow (d : Nat) : Char := if d < 10 then digitChar d else Char.ofNat (87 + d)
def hexUp (d : Nat) : Char := if d < 10 then digitChar d else Char.ofNat (55 + d)

/-- `"%02x" % n` for `n < 256`, `"%04x" % n` and `"%04X" % n` for `n < 65536` -/
def hex2 (n : Nat) : PyStr := [hexLow (n / 16), hexLow (n % 16)]
def hex4 (n : Nat) : PyStr := [hexLow (n / 4096), hexLow (n / 256 % 16), hexLow (n / 16 % 16), hexLow (n % 16)]
def hex4Up (n : Nat) : PyStr := [hexUp (n / 4096), hexUp (n / 256 % 16), hexUp (n / 16 % 16), hexUp (n % 16)]

/-- `"%5d" % s`, `"%-48s" % s`: filled up with blanks on the left or on the right. -/
def padL (w : Nat) (s : PyStr) : PyStr := List.replicate (w - s.length) ' ' ++ s
def padR (w : Nat) (s : PyStr) : PyStr := s ++ List.replicate (w - s.length) ' '

/-- biffh.py 546-547, 575-576, 580-581, 587-588, 591-592: `"%5d: "`, or nothing. -/
def numPrefix (numbered : Bool) (n : Int) : PyStr := if numbered then padL 5 (intDec n) ++ ": ".toList else []

/-- biffh.py 540-545: a byte as a character. -/
def dumpChar (b : UInt8) : Char :=
  if b.toNat = 0 then '~' else if 0x20 ≤ b.toNat ∧ b.toNat ≤ 0x7E then Char.ofNat b.toNat else '?'

/-- biffh.py 536-549: the line for at most 16 bytes. -/
def hexLine (numbered : Bool) (n : Int) (sub : Bytes) : PyStr :=
  numPrefix numbered n ++ "     ".toList ++ padR 48 (sub.flatMap fun b => hex2 b.toNat ++ [' ']) ++ ' ' :: sub.map dumpChar

/-- biffh.py 526-550: the loop; the first argument bounds the number of passes. -/
def hexLoop (strg : Bytes) (ofs : Nat) (base : Int) (numbered : Bool) (endpos : Nat) : Nat → Nat → List PyStr
  | 0, _ => []
  | fuel + 1, pos =>
    if pos < endpos then
      let endsub := min (pos + 16) endpos
      let sub := slice strg pos endsub
      if endsub - pos ≠ sub.length then []
      else hexLine numbered (base + pos - ofs) sub :: hexLoop strg ofs base numbered endpos fuel endsub
    else []

/-- biffh.py 521-550 `hex_char_dump` -/
def hexCharDump (strg : Bytes) (ofs dlen : Nat) (base : Int) (numbered : Bool) : List PyStr :=
  let endpos := min (ofs + dlen) strg.length
  hexLoop strg ofs base numbered endpos (endpos + 1) ofs

/-- The variables of `biff_dump` that change, and the lines written. -/
structure DumpSt where
  pos : Nat
  dummies : Nat := 0
  savpos : Nat := 0
  length : Nat := 0
  lines : List PyStr := []

/-- biffh.py 574-577, 586-589: the line about zero bytes, if there are any. -/
def zeroLine (numbered : Bool) (adj : Int) (savpos dummies : Nat) : List PyStr :=
  if dummies ≠ 0 then [numPrefix numbered (adj + savpos) ++ "---- ".toList ++ natDec dummies ++ " zero bytes skipped ----".toList] else []

/-- biffh.py 579-582: the line for a record. -/
def recLine (numbered : Bool) (n : Int) (rc length : Nat) : PyStr :=
  numPrefix numbered n ++ hex4 rc ++ ' ' :: (recName? rc).getD "<UNKNOWN>".toList ++ " len = ".toList ++ hex4 length ++ " (".toList ++ natDec length ++ ")".toList

/-- biffh.py 559-585: the loop of `biff_dump`; the first argument bounds the number of passes. -/
def dumpLoop (mem : Bytes) (streamEnd : Nat) (adj : Int) (numbered : Bool) : Nat → DumpSt → R DumpSt
  | 0, _ => .error .recursion
  | fuel + 1, st =>
    if st.pos + 4 ≤ streamEnd then do
      let b ← unpackN 4 (slice mem st.pos (st.pos + 4 : Nat))
      let rc := fld b 0 2
      let length := fld b 2 2
      if rc = 0 ∧ length = 0 then
        if sliceFrom mem st.pos = List.replicate (streamEnd - st.pos) 0 then
          pure { st with dummies := streamEnd - st.pos, savpos := st.pos, pos := streamEnd, length := length }
        else
          dumpLoop mem streamEnd adj numbered fuel
            { st with dummies := if st.dummies ≠ 0 then st.dummies + 4 else 4, savpos := if st.dummies ≠ 0 then st.savpos else st.pos, pos := st.pos + 4, length := length }
      else
        dumpLoop mem streamEnd adj numbered fuel
          { pos := st.pos + 4 + length, dummies := 0, savpos := st.savpos, length := length
            lines := st.lines ++ zeroLine numbered adj st.savpos st.dummies ++ recLine numbered (adj + st.pos) rc length ::
              hexCharDump mem (st.pos + 4) length (adj + (st.pos + 4 : Nat)) numbered }
    else pure st

/-- biffh.py 590-596: what follows the last record. -/
def dumpTail (mem : Bytes) (streamEnd : Nat) (adj : Int) (numbered : Bool) (st : DumpSt) : List PyStr :=
  if st.pos < streamEnd then
    (numPrefix numbered (adj + st.pos) ++ "---- Misc bytes at end ----".toList) :: hexCharDump mem st.pos (streamEnd - st.pos) (adj + st.pos) numbered
  else if streamEnd < st.pos then ["Last dumped record has length (".toList ++ natDec st.length ++ ") that is too large".toList]
  else []

/-- biffh.py 552-596 `biff_dump` -/
def biffDump (mem : Bytes) (streamOffset streamLen : Nat) (base : Int) (unnumbered : Bool) : R (List PyStr) := do
  let streamEnd := streamOffset + streamLen
  let adj := base - streamOffset
  let st ← dumpLoop mem streamEnd adj (!unnumbered) (streamLen + 1) { pos := streamOffset }
  pure (st.lines ++ zeroLine (!unnumbered) adj st.savpos st.dummies ++ dumpTail mem streamEnd adj (!unnumbered) st)

/-! ## Counting -/

/-- biffh.py 604-611: the name under which a record is counted. -/
def countName (rc length : Nat) : PyStr :=
  if rc = 0 ∧ length = 0 then "<Dummy (zero)>".toList
  else match recName? rc with
    | some n => n
    | none => "Unknown_0x".toList ++ hex4Up rc

/-- biffh.py 612-615: one more in a dictionary (as a list of items). -/
def tallyAdd (name : PyStr) : List (PyStr × Nat) → List (PyStr × Nat)
  | [] => [(name, 1)]
  | (n, k) :: t => if n = name then (n, k + 1) :: t else (n, k) :: tallyAdd name t

/-- biffh.py 602-616: the loop of `biff_count_records`. -/
def countLoop (mem : Bytes) (streamEnd : Nat) : Nat → Nat → List (PyStr × Nat) → R (List (PyStr × Nat))
  | 0, _, _ => .error .recursion
  | fuel + 1, pos, tally =>
    if pos + 4 ≤ streamEnd then do
      let b ← unpackN 4 (slice mem pos (pos + 4 : Nat))
      let rc := fld b 0 2
      let length := fld b 2 2
      if rc = 0 ∧ length = 0 ∧ sliceFrom mem pos = List.replicate (streamEnd - pos) 0 then pure tally
      else countLoop mem streamEnd fuel (pos + length + 4) (tallyAdd (countName rc length) tally)
    else pure tally

/-- Comparison of strings by code points, as Python does it. -/
def strLe : PyStr → PyStr → Bool
  | [], _ => true
  | _ :: _, [] => false
  | a :: s, b :: t => decide (a.toNat < b.toNat) || (decide (a.toNat = b.toNat) && strLe s t)

/-- biffh.py 617: `sorted` (the names are different, so that the counts are never compared). -/
def sortInsert (x : PyStr × Nat) : List (PyStr × Nat) → List (PyStr × Nat)
  | [] => [x]
  | y :: t => if strLe x.1 y.1 then x :: y :: t else y :: sortInsert x t
def sortItems : List (PyStr × Nat) → List (PyStr × Nat)
  | [] => []
  | x :: t => sortInsert x (sortItems t)

/-- biffh.py 598-619 `biff_count_records` -/
def biffCountRecords (mem : Bytes) (streamOffset streamLen : Nat) : R (List PyStr) := do
  let tally ← countLoop mem (streamOffset + streamLen) (streamLen + 1) streamOffset []
  pure ((sortItems tally).map fun x => padL 8 (natDec x.2) ++ ' ' :: x.1)

/-! ## Files -/

/-- book.py 632-640, with the length of the stream: see `findStream`. -/
def findStreamLen (fuel : Nat) (lower : PyStr → PyStr) : CompDoc → List PyStr → Option (R (Bytes × Int × Int))
  | _, [] => some (.error .xlrd)
  | cd, q :: qs =>
    match locateNamedStream fuel lower cd q with
    | none => none
    | some (.error e) => some (.error e)
    | some (.ok ((some (x :: mem), base, len), _)) => some (.ok (x :: mem, base, len))
    | some (.ok (_, cd)) => findStreamLen fuel lower cd qs

/-- book.py 598-653 `biff2_8_load`, with the length of the stream: see `loadStream`. -/
def loadStreamLen (env : OpenEnv) (file : Bytes) : Option (R (Bytes × Int × Int)) :=
  if file = [] then some (.error .xlrd)
  else if sliceTo file 8 ≠ SIGNATURE then some (.ok (file, 0, (file.length : Int)))
  else match compDocInit env.fuel env.depth file env.ignore with
    | none => none
    | some (.error e) => some (.error e)
    | some (.ok cd) => findStreamLen env.fuel env.lower cd ["Workbook".toList, "Book".toList]

/-- __init__.py 188-199 `dump`.  The places and lengths of streams are not negative (`C20_locate_stream`). -/
def dumpFile (env : OpenEnv) (file : Bytes) (unnumbered : Bool) : Option (R (List PyStr)) :=
  match loadStreamLen env file with
  | none => none
  | some (.error e) => some (.error e)
  | some (.ok (mem, base, len)) => some (biffDump mem base.toNat len.toNat 0 unnumbered)

/-- __init__.py 202-213 `count_records` -/
def countRecords (env : OpenEnv) (file : Bytes) : Option (R (List PyStr)) :=
  match loadStreamLen env file with
  | none => none
  | some (.error e) => some (.error e)
  | some (.ok (mem, base, len)) => some (biffCountRecords mem base.toNat len.toNat)

end Xlrd
