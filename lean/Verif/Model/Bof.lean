import Verif.Model.SheetRead

/-!
# BOF records: `xlrd/book.py` `getbof`
-/
namespace Xlrd

/-- book.py 28 -/
def MY_EOF : Nat := 0xF00BAAA
/-- biffh.py 104-106 -/
abbrev XL_WORKBOOK_GLOBALS : Nat := 0x5
abbrev XL_WORKBOOK_GLOBALS_4W : Nat := 0x100
abbrev XL_WORKSHEET : Nat := 0x10

/-- book.py 666-674 `get2bytes`: the value and the new position. -/
def get2bytes (mem : Bytes) (pos : Int) : Nat × Int :=
  let b := slice mem pos (pos + 2)
  (if b.length < 2 then MY_EOF else fld b 0 2, pos + b.length)

/-- biffh.py 215 `boflen` -/
def boflen (opcode : Nat) : Nat :=
  if opcode = 0x0809 then 8 else if opcode = 0x0409 then 6 else if opcode = 0x0209 then 6 else 4

/-- book.py 1314-1325: the version of a BIFF5 or later BOF record from its version field, build and year. -/
def bofVersion8 (version2 build year : Nat) : Nat :=
  if version2 = 0x0600 then 80
  else if version2 = 0x0500 then (if year < 1994 ∨ build ∈ [2412, 3218, 3321] then 50 else 70)
  else if version2 = 0x0000 ∨ version2 = 0x0007 ∨ version2 = 0x0200 then 21
  else if version2 = 0x0300 then 30
  else if version2 = 0x0400 then 40
  else 0

/-- book.py 1309-1327: the version before the BIFF4W test.  `data` is the padded record. -/
def bofVersionRaw (opcode : Nat) (data : Bytes) : R Nat := do
  let version1 := opcode >>> 8
  let b ← unpackN 4 (slice data 0 4)
  if version1 = 0x08 then
    let y ← unpackN 4 (slice data 4 8)
    pure (bofVersion8 (fld b 0 2) (fld y 0 2) (fld y 2 2))
  else if version1 = 0x04 then pure 40
  else if version1 = 0x02 then pure 30
  else if version1 = 0x00 then pure 21
  else pure 0

/-- book.py 1335-1345: does the stream type fit what is required? -/
def bofCheck (rqd version streamtype : Nat) : R Nat :=
  if (rqd = XL_WORKBOOK_GLOBALS ∧ (streamtype = XL_WORKBOOK_GLOBALS ∨ (version = 45 ∧ streamtype = XL_WORKBOOK_GLOBALS_4W))) ∨
      streamtype = rqd then .ok version
  else if version < 50 ∧ streamtype = XL_WORKSHEET then .ok version
  else .error .xlrd

/-- book.py 1272-1346 `getbof`: the version and the position after the record. -/
def getbof (mem : Bytes) (pos : Int) (rqd : Nat) : R (Nat × Int) := do
  let (opcode, pos) := get2bytes mem pos
  if opcode = MY_EOF then .error .xlrd
  else if opcode ∉ bofcodes then .error .xlrd
  else do
    let (length, pos) := get2bytes mem pos
    if length = MY_EOF then .error .xlrd
    else if ¬ (4 ≤ length ∧ length ≤ 20) then .error .xlrd
    else do
      let data := slice mem pos (pos + length)
      if data.length < length then .error .xlrd
      else do
        let data' := data ++ List.replicate (boflen opcode - length) 0
        let v ← bofVersionRaw opcode data'
        let b ← unpackN 4 (slice data' 0 4)
        let streamtype := fld b 2 2
        let v := if v = 40 ∧ streamtype = XL_WORKBOOK_GLOBALS_4W then 45 else v
        let v ← bofCheck rqd v streamtype
        pure (v, pos + data.length)

end Xlrd
