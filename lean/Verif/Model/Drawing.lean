import Verif.Model.Records

/-!
# Hyperlinks and notes of a sheet: `xlrd/sheet.py` 1746-1866, 1907-2062

The record handlers of `Sheet` for HLINK, QUICKTIP, OBJ, TXO and NOTE records, with `DEBUG` and `OBJ_MSO_DEBUG` off
(then `handle_msodrawingetc` and `handle_feat11` do nothing).  Of an OBJ record only `id` and `autofilter` are used later, and of a
TXO record only the text and the runs.
-/
namespace Xlrd

/-- `Hyperlink.url_or_path`: text, or bytes in an unknown encoding. -/
inductive LinkPath
  | text (s : PyStr)
  | raw (b : Bytes)
  deriving DecidableEq

/-- sheet.py 2163-2215 `Hyperlink` -/
structure Hyperlink where
  frowx : Nat
  lrowx : Nat
  fcolx : Nat
  lcolx : Nat
  type : Option PyStr := none
  urlOrPath : Option LinkPath := none
  desc : Option PyStr := none
  target : Option PyStr := none
  textmark : Option PyStr := none
  quicktip : Option PyStr := none
  deriving DecidableEq

/-- sheet.py 2124-2125 `MSTxo` -/
structure Txo where
  text : PyStr
  runs : List (Nat × Nat)
  deriving DecidableEq

/-- sheet.py 2128-2160 `Note` -/
structure Note where
  rowx : Nat
  colx : Nat
  text : PyStr
  runs : List (Nat × Nat)
  author : PyStr
  shown : Nat
  rowHidden : Nat
  colHidden : Nat
  deriving DecidableEq

/-- The local variables `saved_obj_id` (`none` = not yet assigned) and `txos` of `Sheet.read` and the attributes `hyperlink_list`,
`hyperlink_map` and `cell_note_map`.  The map holds numbers in the list, since its values are the same objects.  `countries` is what
a COUNTRY record of the sheet has put into `countries` of the book (`none`: there has been none). -/
structure Extras where
  links : List Hyperlink := []
  linkMap : Nat × Nat → Option Nat := fun _ => none
  saved : Option (Option Nat) := none
  txos : Nat → Option Txo := fun _ => none
  notes : Nat × Nat → Option Note := fun _ => none
  countries : Option (Nat × Nat) := none

/-! ## Hyperlinks -/

/-- sheet.py 1758-1763 `get_nul_terminated_unicode` -/
def nulTerminated (buf : Bytes) (ofs : Int) : R (PyStr × Int) := do
  let n ← unpackI (slice buf ofs (ofs + 4))
  let nb : Int := n * 2
  let uc ← utf16leDecode (slice buf (ofs + 4) (ofs + 4 + nb))
  pure (uc.dropLast, ofs + 4 + nb)

/-- The same if a flag is set. -/
def optNul (flag : Bool) (buf : Bytes) (ofs : Int) : R (Option PyStr × Int) :=
  if flag then do
    let (t, ofs) ← nulTerminated buf ofs
    pure (some t, ofs)
  else pure (none, ofs)

/-- sheet.py 1752 -/
def hlinkGuid : Bytes := [0xD0, 0xC9, 0xEA, 0x79, 0xF9, 0xBA, 0xCE, 0x11, 0x8C, 0x82, 0x00, 0xAA, 0x00, 0x4B, 0xA9, 0x0B]
/-- sheet.py 1776 -/
def urlMoniker : Bytes := [0xE0, 0xC9, 0xEA, 0x79, 0xF9, 0xBA, 0xCE, 0x11, 0x8C, 0x82, 0x00, 0xAA, 0x00, 0x4B, 0xA9, 0x0B]
/-- sheet.py 1798 -/
def fileMoniker : Bytes := [0x03, 0x03, 0x00, 0x00, 0x00, 0x00, 0x00, 0x00, 0xC0, 0x00, 0x00, 0x00, 0x00, 0x00, 0x00, 0x46]

/-- `s.find('\x00')` -/
def findNul (s : PyStr) : Int := let k := s.findIdx (· = '\x00'); if k < s.length then k else -1

/-- sheet.py 1779-1797: URL moniker -/
def hlinkUrl (data : Bytes) (ofs : Int) : R (PyStr × Int) := do
  let nbytes ← unpackI (slice data ofs (ofs + 4))
  let ofs := ofs + 4
  let url ← utf16leDecode (slice data ofs (ofs + nbytes))
  let endpos := findNul url
  let trueN : Int := 2 * (endpos + 1)
  let extra := (nbytes : Int) - trueN
  pyAssert (decide (extra = 24 ∨ extra = 0))
  pure (slice url 0 endpos, ofs + trueN + extra)

/-- sheet.py 1801-1821: file moniker -/
def hlinkFile (data : Bytes) (ofs : Int) : R (LinkPath × Int) := do
  let b ← unpackN 6 (slice data ofs (ofs + 6))
  let up := fld b 0 2
  let nbytes := sgn 32 (fld b 2 4)
  let ofs := ofs + 6
  let short := (List.replicate up [0x2E, 0x2E, 0x5C]).flatten ++ slice data ofs (ofs + nbytes - 1)
  let ofs := ofs + nbytes + 24
  let sz ← unpacki (slice data ofs (ofs + 4))
  let ofs := ofs + 4
  if sz ≠ 0 then do
    let xl ← unpacki (slice data ofs (ofs + 4))
    let ofs := ofs + 4 + 2
    let t ← utf16leDecode (slice data ofs (ofs + xl))
    pure (.text t, ofs + xl)
  else pure (.raw short, ofs)

/-- sheet.py 1771-1832: type, path and position -/
def hlinkPath (options : Nat) (data : Bytes) (ofs : Int) : R (Option PyStr × Option LinkPath × Int) :=
  if options &&& 1 ≠ 0 ∧ options &&& 0x100 = 0 then do
    let clsid ← unpackN 16 (slice data ofs (ofs + 16))
    let ofs := ofs + 16
    if clsid = urlMoniker then do
      let (t, ofs) ← hlinkUrl data ofs
      pure (some "url".toList, some (.text t), ofs)
    else if clsid = fileMoniker then do
      let (p, ofs) ← hlinkFile data ofs
      pure (some "local file".toList, some p, ofs)
    else pure (none, none, ofs)
  else if options &&& 0x163 = 0x103 then do
    let (t, ofs) ← nulTerminated data ofs
    pure (some "unc".toList, some (.text t), ofs)
  else if options &&& 0x16B = 8 then pure (some "workbook".toList, none, ofs)
  else pure (some "unknown".toList, none, ofs)

/-- sheet.py 1746-1853: the hyperlink of a HLINK record.  `options` is signed in the code; its low bits are used. -/
def hlinkOf (data : Bytes) : R Hyperlink := do
  let b ← unpackN 32 (sliceTo data 32)
  pyAssert (decide (slice b 8 24 = hlinkGuid))
  pyAssert (decide (slice b 24 28 = [0x02, 0x00, 0x00, 0x00]))
  let options := fld b 28 4
  let (desc, ofs) ← optNul (options &&& 0x14 ≠ 0) data 32
  let (target, ofs) ← optNul (options &&& 0x80 ≠ 0) data ofs
  let (ty, path, ofs) ← hlinkPath options data ofs
  let (mark, ofs) ← optNul (options &&& 0x8 ≠ 0) data ofs
  if (data.length : Int) - ofs < 0 then .error .xlrd
  else pure { frowx := fld b 0 2, lrowx := fld b 2 2, fcolx := fld b 4 2, lcolx := fld b 6 2, type := ty, urlOrPath := path,
              desc := desc, target := target, textmark := mark }

/-- sheet.py 1854-1857: the two loops, as one update of the dictionary. -/
def mapLink (m : Nat × Nat → Option Nat) (h : Hyperlink) (k : Nat) : Nat × Nat → Option Nat :=
  fun p => if h.frowx ≤ p.1 ∧ p.1 ≤ h.lrowx ∧ h.fcolx ≤ p.2 ∧ p.2 ≤ h.lcolx then some k else m p

/-- sheet.py 1746-1857 `handle_hlink` -/
def handleHlink (e : Extras) (data : Bytes) : R Extras := do
  let h ← hlinkOf data
  pure { e with links := e.links ++ [h], linkMap := mapLink e.linkMap h e.links.length }

/-- sheet.py 1859-1866 `handle_quicktip` -/
def handleQuicktip (e : Extras) (data : Bytes) : R Extras := do
  let b ← unpackN 10 (sliceTo data 10)
  pyAssert (decide (fld b 0 2 = 0x0800))
  match e.links.getLast? with
  | none => .error .assertion
  | some h => do
    pyAssert (decide ((fld b 2 2, fld b 4 2, fld b 6 2, fld b 8 2) = (h.frowx, h.lrowx, h.fcolx, h.lcolx)))
    pyAssert (decide (sliceFrom data (-2) = [0, 0]))
    let t ← utf16leDecode (slice data 10 (-2))
    pure { e with links := e.links.dropLast ++ [{ h with quicktip := some t }] }

/-! ## Notes -/

/-- sheet.py 1914-1956: the loop over the sub-records from `pos` on; `autofilter` and `id` as set so far. -/
def objLoop (data : Bytes) : Nat → Nat → Option (Nat × Nat) → R (Option (Nat × Nat))
  | 0, _, _ => .error .recursion
  | fuel + 1, pos, o =>
    if pos < data.length then do
      let b ← unpackN 4 (slice data pos (pos + 4))
      let ft := fld b 0 2
      let cb := fld b 2 2
      if ft = 0x15 then do
        pyAssert (decide (pos = 0))
        let c ← unpackN 6 (slice data (pos + 4) (pos + 10))
        objLoop data fuel (pos + cb + 4) (some (fld c 2 2, (fld c 4 2 >>> 8) &&& 1))
      else if ft = 0x00 then
        if (data.drop pos).all (· = 0) then pure o else .error .xlrd
      else if ft = 0x0C then do
        let _ ← unpackN 10 (slice data (pos + 8) (pos + 18))
        objLoop data fuel (pos + cb + 4) o
      else if ft = 0x13 then
        match o with
        | none => .error .attr
        | some (_, a) => if a ≠ 0 then pure o else objLoop data fuel (pos + cb + 4) o
      else objLoop data fuel (pos + cb + 4) o
    else pure o

/-- sheet.py 1907-1961 `handle_obj` and 1117-1119: the new value of `saved_obj_id`.  (An empty record gives an object without `id`.) -/
def handleObj (bv : Nat) (data : Bytes) : R (Option Nat) :=
  if bv < 80 then pure none
  else if data = [] then .error .attr
  else do
    let b ← unpackN 4 (slice data 0 4)
    if fld b 0 2 = 0x15 ∧ fld b 2 2 = 18 then do
      let o ← objLoop data (data.length + 1) 0 none
      match o with
      | none => .error .attr
      | some (id, _) => pure (some id)
    else pure none

/-- sheet.py 2031-2044: the text of a TXO record, from CONTINUE records. -/
def txoText (mem : Bytes) (cch : Nat) : Nat → Nat → PyStr → Int → R (PyStr × Int)
  | 0, _, _, _ => .error .recursion
  | fuel + 1, tot, acc, pos =>
    if tot < cch then do
      let ((rc, len, data), pos) ← getRecordParts mem pos
      pyAssert (decide (rc = XL_CONTINUE))
      let nb ← byteAt data 0
      let nchars : Int := (len : Int) - 1
      if nb ≠ 0 then do
        pyAssert (decide (nchars % 2 = 0))
        let (t, e) ← unpackUnicodeUpdatePos data 0 2 (some (nchars / 2))
        pyAssert (decide (e = len))
        txoText mem cch fuel (tot + (nchars / 2).toNat) (acc ++ t) pos
      else do
        let (t, e) ← unpackUnicodeUpdatePos data 0 2 (some nchars)
        pyAssert (decide (e = len))
        txoText mem cch fuel (tot + nchars.toNat) (acc ++ t) pos
    else pure (acc, pos)

/-- sheet.py 2051-2054: `n` runs from position `p` of a CONTINUE record. -/
def txoRuns1 (data : Bytes) : Nat → Nat → R (List (Nat × Nat))
  | 0, _ => .ok []
  | n + 1, p => do
    let b ← unpackN 8 (slice data p (p + 8))
    let rs ← txoRuns1 data n (p + 8)
    pure ((fld b 0 2, fld b 2 2) :: rs)

/-- sheet.py 2045-2054: the runs of a TXO record. -/
def txoRuns (mem : Bytes) (cb : Nat) : Nat → Nat → List (Nat × Nat) → Int → R (List (Nat × Nat) × Int)
  | 0, _, _, _ => .error .recursion
  | fuel + 1, tot, acc, pos =>
    if tot < cb then do
      let ((rc, len, data), pos) ← getRecordParts mem pos
      pyAssert (decide (rc = XL_CONTINUE))
      pyAssert (decide (len % 8 = 0))
      let rs ← txoRuns1 data (len / 8) 0
      txoRuns mem cb fuel (tot + 8 * (len / 8)) (acc ++ rs) pos
    else pure (acc, pos)

/-- sheet.py 2055-2057: trailing entries that point to the end of the string are removed. -/
def trimRuns (cch : Nat) (rs : List (Nat × Nat)) : List (Nat × Nat) := (rs.reverse.dropWhile fun r => r.1 = cch).reverse

/-- sheet.py 2014-2062 `handle_txo` (`none` before BIFF8) -/
def handleTxo (bv : Nat) (mem : Bytes) (data : Bytes) (pos : Int) : R (Option Txo × Int) :=
  if bv < 80 then pure (none, pos)
  else do
    let b ← unpackN 16 (sliceTo data 16)
    let cch := fld b 10 2
    let (t, pos) ← txoText mem cch (mem.length + 1) 0 [] pos
    let (rs, pos) ← txoRuns mem (fld b 12 2) (mem.length + 1) 0 [] pos
    pure (some ⟨t, trimRuns cch rs⟩, pos)

/-- sheet.py 1122-1126: a TXO record.  The variable `saved_obj_id` does not exist before the first OBJ record, and 0 counts as no id. -/
def recTxo (bv : Nat) (mem : Bytes) (e : Extras) (data : Bytes) (pos : Int) : R (Extras × Int) := do
  let (t, pos) ← handleTxo bv mem data pos
  match t with
  | none => pure (e, pos)
  | some t =>
    match e.saved with
    | none => .error .name
    | some none => pure (e, pos)
    | some (some id) =>
      if id = 0 then pure (e, pos)
      else pure ({ e with txos := fun k => if k = id then some t else e.txos k, saved := some none }, pos)

/-- sheet.py 1976-1984: the further pieces of a note before BIFF8; `expected` bytes are still to come. -/
def notePieces (mem : Bytes) : Nat → Int → Bytes → Int → R (Bytes × Int)
  | 0, _, _, _ => .error .recursion
  | fuel + 1, expected, acc, pos =>
    if expected > 0 then do
      let ((rc, len, data), pos) ← getRecordParts mem pos
      pyAssert (decide (rc = 0x1c))
      let b ← unpackN 6 (sliceTo data 6)
      pyAssert (decide (fld b 0 2 = 0xFFFF))
      pyAssert (decide ((fld b 4 2 : Int) = (len : Int) - 6))
      notePieces mem fuel (expected - fld b 4 2) (acc ++ sliceFrom data 6) pos
    else do
      pyAssert (decide (expected = 0))
      pure (acc, pos)

/-- sheet.py 1969-1996: a note before BIFF8 -/
def noteOld (dec : Bytes → R PyStr) (mem : Bytes) (data : Bytes) (pos : Int) : R (Note × Int) := do
  let b ← unpackN 6 (sliceTo data 6)
  let nb : Int := (data.length : Int) - 6
  pyAssert (decide (nb ≤ fld b 4 2))
  let (raw, pos) ← notePieces mem (mem.length + 1) (fld b 4 2 - nb) (sliceFrom data 6) pos
  let t ← dec raw
  pure (⟨fld b 0 2, fld b 2 2, t, [(0, 0)], [], 0, 0, 0⟩, pos)

/-- sheet.py 1997-2012: a note of BIFF8; `none` if its text is not known -/
def noteNew (txos : Nat → Option Txo) (data : Bytes) : R (Option Note) := do
  let b ← unpackN 8 (sliceTo data 8)
  let flags := fld b 4 2
  let (author, e) ← unpackUnicodeUpdatePos data 8 2 none
  pyAssert (decide ((data.length : Int) - e = 0 ∨ (data.length : Int) - e = 1))
  match txos (fld b 6 2) with
  | none => pure none
  | some t => pure (some ⟨fld b 0 2, fld b 2 2, t.text, t.runs, author, (flags >>> 1) &&& 1, (flags >>> 7) &&& 1, (flags >>> 8) &&& 1⟩)

/-- sheet.py 1963-2012 `handle_note` -/
def handleNote (bv : Nat) (dec : Bytes → R PyStr) (mem : Bytes) (e : Extras) (data : Bytes) (pos : Int) : R (Extras × Int) :=
  if bv < 80 then do
    let (n, pos) ← noteOld dec mem data pos
    pure ({ e with notes := fun p => if p = (n.rowx, n.colx) then some n else e.notes p }, pos)
  else do
    match ← noteNew e.txos data with
    | none => pure (e, pos)
    | some n => pure ({ e with notes := fun p => if p = (n.rowx, n.colx) then some n else e.notes p }, pos)

end Xlrd
