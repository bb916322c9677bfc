import Verif.Model.Codec

/-!
# Record framing and strings: `xlrd/book.py` 665-694, 1389-1474, `xlrd/biffh.py` 250-354,
`xlrd/sheet.py` 1510-1538

Positions are Python integers (`Int`), because some come from signed fields.
-/
namespace Xlrd

/-- biffh.py 128 `XL_CONTINUE` -/
def XL_CONTINUE : Nat := 0x3c

/-- book.py 676-683 `get_record_parts`: (code, length, data) and the new `_position`. -/
def getRecordParts (mem : Bytes) (pos : Int) : R ((Nat × Nat × Bytes) × Int) := do
  let h ← unpackN 4 (slice mem pos (pos + 4))
  let code := fld h 0 2
  let length := fld h 2 2
  let pos := pos + 4
  pure ((code, length, slice mem pos (pos + length)), pos + length)

/-- book.py 685-694 `get_record_parts_conditional`; `none` is `(None, 0, b'')`. -/
def getRecordPartsConditional (mem : Bytes) (pos : Int) (reqd : Nat) : R (Option (Nat × Nat × Bytes) × Int) := do
  let h ← unpackN 4 (slice mem pos (pos + 4))
  let code := fld h 0 2
  let length := fld h 2 2
  if code ≠ reqd then pure (none, pos)
  else
    let pos := pos + 4
    pure (some (code, length, slice mem pos (pos + length)), pos + length)

/-- `unpack('<' + 'BH'[lenlen-1], data[pos:pos+lenlen])[0]` for `lenlen` 1 or 2. -/
def unpackLen (lenlen : Nat) (data : Bytes) (pos : Int) : R Nat := do
  let b ← unpackN lenlen (slice data pos (pos + lenlen))
  pure (fld b 0 lenlen)

/-- biffh.py 250-253 `unpack_string`; `dec` is the codec. -/
def unpackString (dec : Bytes → R PyStr) (data : Bytes) (pos : Int) (lenlen : Nat) : R PyStr := do
  let nchars ← unpackLen lenlen data pos
  let pos := pos + lenlen
  dec (slice data pos (pos + nchars))

/-- biffh.py 255-263 `unpack_string_update_pos`. -/
def unpackStringUpdatePos (dec : Bytes → R PyStr) (data : Bytes) (pos : Int) (lenlen : Nat) (known : Option Int) :
    R (PyStr × Int) := do
  let (nchars, pos) ← match known with
    | some n => pure (n, pos)
    | none => do let n ← unpackLen lenlen data pos; pure ((n : Int), pos + lenlen)
  let newpos := pos + nchars
  let s ← dec (slice data pos newpos)
  pure (s, newpos)

/-- `BYTES_ORD(data[pos])` -/
def byteAt (data : Bytes) (pos : Int) : R Nat := do pure (← idx data pos).toNat

/-- biffh.py 265-303 `unpack_unicode`. -/
def unpackUnicode (data : Bytes) (pos : Int) (lenlen : Nat) : R PyStr := do
  let nchars ← unpackLen lenlen data pos
  if nchars = 0 then pure []
  else do
    let pos := pos + lenlen
    let options ← byteAt data pos
    let pos := pos + 1
    let pos := if options.testBit 3 then pos + 2 else pos
    let pos := if options.testBit 2 then pos + 4 else pos
    if options.testBit 0 then utf16leDecode (slice data pos (pos + 2 * nchars))
    else pure (latin1Decode (slice data pos (pos + nchars)))

/-- biffh.py 305-336 `unpack_unicode_update_pos`. -/
def unpackUnicodeUpdatePos (data : Bytes) (pos : Int) (lenlen : Nat) (known : Option Int) : R (PyStr × Int) := do
  let (nchars, pos) ← match known with
    | some n => pure (n, pos)
    | none => do let n ← unpackLen lenlen data pos; pure ((n : Int), pos + lenlen)
  if nchars = 0 ∧ sliceFrom data pos = [] then pure ([], pos)
  else do
    let options ← byteAt data pos
    let pos := pos + 1
    let (rt, pos) ← if options.testBit 3 then do
        let rt ← unpackH (slice data pos (pos + 2))
        pure ((rt : Int), pos + 2)
      else pure (0, pos)
    let (sz, pos) ← if options.testBit 2 then do
        let sz ← unpacki (slice data pos (pos + 4))
        pure (sz, pos + 4)
      else pure (0, pos)
    let (s, pos) ← if options.testBit 0 then do
        let s ← utf16leDecode (slice data pos (pos + 2 * nchars))
        pure (s, pos + 2 * nchars)
      else pure (latin1Decode (slice data pos (pos + nchars)), pos + nchars)
    let pos := if options.testBit 3 then pos + 4 * rt else pos
    let pos := if options.testBit 2 then pos + sz else pos
    pure (s, pos)

/-- A range `(ra, rb+1, ca, cb+1)` as appended by biffh.py 352. -/
abbrev Range4 := Nat × Nat × Nat × Nat

/-- biffh.py 350-353: `n` ranges of `addrSize` bytes. -/
def unpackRanges (data : Bytes) (addrSize : Nat) : Nat → Int → R (List Range4 × Int)
  | 0, pos => .ok ([], pos)
  | n + 1, pos => do
    let b ← unpackN addrSize (slice data pos (pos + addrSize))
    let r : Range4 :=
      if addrSize = 6 then (fld b 0 2, fld b 2 2 + 1, fld b 4 1, fld b 5 1 + 1)
      else (fld b 0 2, fld b 2 2 + 1, fld b 4 2, fld b 6 2 + 1)
    let (rs, pos) ← unpackRanges data addrSize n (pos + addrSize)
    pure (r :: rs, pos)

/-- biffh.py 338-354 `unpack_cell_range_address_list_update_pos`: the extended output list and the
position.  (On an exception the ranges already appended stay in the list; the callers abandon the load.) -/
def unpackCellRangeAddressList (out : List Range4) (data : Bytes) (pos : Int) (addrSize : Nat) : R (List Range4 × Int) := do
  pyAssert (addrSize = 6 || addrSize = 8)
  let n ← unpackH (slice data pos (pos + 2))
  let (rs, pos) ← unpackRanges data addrSize n (pos + 2)
  pure (out ++ rs, pos)

/-! ## The shared string table -/

/-- Where `unpack_SST_table` reads: `datainx`, `data`, `pos`.  `datalen` is always `len(data)`. -/
structure SstPos where
  inx : Nat
  data : Bytes
  pos : Int

/-- book.py 1443-1447 / 1453-1456: go to the next record. -/
def sstNext (tab : List Bytes) (p : SstPos) (newpos : Int) : R SstPos := do
  let d ← idx tab ((p.inx : Int) + 1)
  pure ⟨p.inx + 1, d, newpos⟩

/-- book.py 1417-1447: the character loop.  `need = nchars - charsgot`.  The recursion stops because every
pass but the last goes to the next record; `k` bounds the records still to come.  A negative
`charsavail` (position beyond the end of the record) is kept as in the code. -/
def sstChars (tab : List Bytes) : Nat → SstPos → Nat → Int → PyStr → R (PyStr × SstPos)
  | k, p, options, need, acc => do
    let (piece, avail, adv) ← if options.testBit 0 then do
        let avail := min (((p.data.length : Int) - p.pos) / 2) need
        let s ← utf16leDecode (slice p.data p.pos (p.pos + 2 * avail))
        pure (s, avail, 2 * avail)
      else
        let avail := min ((p.data.length : Int) - p.pos) need
        pure (latin1Decode (slice p.data p.pos (p.pos + avail)), avail, avail)
    let acc := acc ++ piece
    let p := { p with pos := p.pos + adv }
    if avail = need then pure (acc, p)
    else do
      let p' ← sstNext tab p 1
      let options ← byteAt p'.data 0
      match k with
      | 0 => .error .index
      | k + 1 => sstChars tab k p' options (need - avail) acc

/-- book.py 1449-1459: the rich-text runs. -/
def sstRuns (tab : List Bytes) : Nat → SstPos → R (List (Nat × Nat) × SstPos)
  | 0, p => .ok ([], p)
  | n + 1, p => do
    let p ← if p.pos = p.data.length then sstNext tab p 0 else pure p
    let b ← unpackN 4 (slice p.data p.pos (p.pos + 4))
    let (rs, p) ← sstRuns tab n { p with pos := p.pos + 4 }
    pure ((fld b 0 2, fld b 2 2) :: rs, p)

/-- book.py 1461-1471: skip the phonetic data; `last` is `_unused_i == nstrings - 1`. -/
def sstSkip (tab : List Bytes) (p : SstPos) (phosz : Int) (last : Bool) : R SstPos :=
  let pos := p.pos + phosz
  if pos ≥ p.data.length then
    let pos := pos - p.data.length
    match tab[p.inx + 1]? with
    | some d => .ok ⟨p.inx + 1, d, pos⟩
    | none => do pyAssert last; pure ⟨p.inx + 1, p.data, pos⟩
  else .ok { p with pos := pos }

/-- book.py 1409-1411: the count of rich-text runs, if the flag is set. -/
def sstCount (flag : Bool) (data : Bytes) (pos : Int) : R (Nat × Int) :=
  if flag then do
    let n ← unpackH (slice data pos (pos + 2))
    pure (n, pos + 2)
  else pure (0, pos)

/-- book.py 1412-1414: the size of the phonetic data, if the flag is set. -/
def sstSize (flag : Bool) (data : Bytes) (pos : Int) : R (Int × Int) :=
  if flag then do
    let n ← unpacki (slice data pos (pos + 4))
    pure (n, pos + 4)
  else pure (0, pos)

/-- book.py 1449-1459: the runs, if there are any. -/
def sstRunsOpt (tab : List Bytes) (rtcount : Nat) (p : SstPos) : R (Option (List (Nat × Nat)) × SstPos) :=
  if rtcount ≠ 0 then do
    let (rs, p) ← sstRuns tab rtcount p
    pure (some rs, p)
  else pure (none, p)

/-- book.py 1402-1472: one string: its text, its runs (`none` when `rtcount` is 0) and the position. -/
def sstString (tab : List Bytes) (p : SstPos) (last : Bool) : R (PyStr × Option (List (Nat × Nat)) × SstPos) := do
  let nchars ← unpackH (slice p.data p.pos (p.pos + 2))
  let options ← byteAt p.data (p.pos + 2)
  let pos := p.pos + 3
  let (rtcount, pos) ← sstCount (options.testBit 3) p.data pos
  let (phosz, pos) ← sstSize (options.testBit 2) p.data pos
  let (s, p) ← sstChars tab tab.length { p with pos := pos } options nchars []
  let (runs, p) ← sstRunsOpt tab rtcount p
  let p ← sstSkip tab p phosz last
  pure (s, runs, p)

/-- book.py 1402: the loop over the strings, `n` of them left.  The dictionary `richtext_runs` is
returned as the list of its values, one per string. -/
def sstLoop (tab : List Bytes) : Nat → SstPos → R (List (PyStr × Option (List (Nat × Nat))))
  | 0, _ => .ok []
  | n + 1, p => do
    let (s, runs, p) ← sstString tab p (n = 0)
    let rest ← sstLoop tab n p
    pure ((s, runs) :: rest)

/-- book.py 1389-1474 `unpack_SST_table`. -/
def unpackSstTable (tab : List Bytes) (nstrings : Int) : R (List (PyStr × Option (List (Nat × Nat)))) := do
  let d ← idx tab 0
  sstLoop tab nstrings.toNat ⟨0, d, 8⟩

/-- book.py 1170-1177: collect the CONTINUE records.  Every pass consumes at least four bytes; `fuel`
is out of reach when it exceeds the length of the file (see `C25`). -/
def sstContinues (mem : Bytes) : Nat → Int → R (List Bytes × Int)
  | 0, _ => .error .recursion
  | fuel + 1, pos => do
    let (rec?, pos) ← getRecordPartsConditional mem pos XL_CONTINUE
    match rec? with
    | none => pure ([], pos)
    | some (_, _, data) => do
      let (ds, pos) ← sstContinues mem fuel pos
      pure (data :: ds, pos)

/-- book.py 1160-1183 `handle_sst`: the table and the new `_position`. -/
def handleSst (mem : Bytes) (pos : Int) (data : Bytes) : R (List (PyStr × Option (List (Nat × Nat))) × Int) := do
  let unique ← unpacki (slice data 4 8)
  let (more, pos) ← sstContinues mem (mem.length + 1) pos
  let t ← unpackSstTable (data :: more) unique
  pure (t, pos)

/-! ## The string result of a formula -/

/-- sheet.py 1521-1525: the text in one record from `offset` on; `dec` is the codec of files before BIFF8. -/
def stringChunk (bv : Nat) (dec : Bytes → R PyStr) (data : Bytes) (offset : Int) : R PyStr :=
  if bv ≥ 80 then do
    let flag ← byteAt data offset
    if flag.testBit 0 then utf16leDecode (sliceFrom data (offset + 1))
    else pure (latin1Decode (sliceFrom data (offset + 1)))
  else dec (sliceFrom data offset)

/-- sheet.py 1520-1538: the loop of `string_record_contents`; `fuel` bounds the CONTINUE records. -/
def stringRecLoop (bv : Nat) (dec : Bytes → R PyStr) (mem : Bytes) (expected : Nat) :
    Nat → Bytes → Int → Int → PyStr → R (PyStr × Int)
  | 0, _, _, _, _ => .error .recursion
  | fuel + 1, data, offset, pos, acc => do
    let chunk ← stringChunk bv dec data offset
    let acc := acc ++ chunk                     -- nchars_found is always len(result)
    if acc.length = expected then pure (acc, pos)
    else if acc.length > expected then .error .xlrd
    else do
      let ((rc, _, data), pos) ← getRecordParts mem pos
      if rc ≠ XL_CONTINUE then .error .xlrd
      else stringRecLoop bv dec mem expected fuel data 0 pos acc

/-- sheet.py 1510-1538 `string_record_contents`; the book's `_position` is `pos`. -/
def stringRecordContents (bv : Nat) (dec : Bytes → R PyStr) (mem : Bytes) (pos : Int) (data : Bytes) : R (PyStr × Int) := do
  let lenlen := if bv ≥ 30 then 2 else 1
  let b ← unpackN lenlen (sliceTo data lenlen)
  stringRecLoop bv dec mem (fld b 0 lenlen) (mem.length + 1) data lenlen pos []

end Xlrd
