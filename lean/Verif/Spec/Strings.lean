import Verif.Model.Py

/-!
# How records and strings are written

The layout of BIFF records, strings and the shared string table, as a writer produces it.
Independent of the decoding code.
-/
namespace Xlrd.Spec

def le16 (n : Nat) : Bytes := [UInt8.ofNat (n % 256), UInt8.ofNat (n / 256 % 256)]

def le32 (n : Nat) : Bytes := le16 (n % 65536) ++ le16 (n / 65536)

/-- A record: code, length, payload. -/
def encRec (code : Nat) (payload : Bytes) : Bytes := le16 code ++ le16 payload.length ++ payload

def encRecs (rs : List (Nat × Bytes)) : Bytes := rs.flatMap fun r => encRec r.1 r.2

/-- UTF-16 code units of a character. -/
def unitsOf (c : Char) : List Nat :=
  if c.toNat < 0x10000 then [c.toNat]
  else [0xD800 + (c.toNat - 0x10000) / 0x400, 0xDC00 + (c.toNat - 0x10000) % 0x400]

def utf16 (s : PyStr) : List Nat := s.flatMap unitsOf

/-- Code units written with two bytes each, or one. -/
def encUnits (wide : Bool) (us : List Nat) : Bytes :=
  if wide then us.flatMap le16 else us.map UInt8.ofNat

/-- The units fit the width. -/
def Fits (wide : Bool) (us : List Nat) : Prop := ∀ u ∈ us, u < if wide then 65536 else 256

/-- An options byte with the given meaning of bits 0, 2 and 3; the other bits are free. -/
def Flags (opt : Nat) (wide rich phon : Bool) : Prop :=
  opt < 256 ∧ opt.testBit 0 = wide ∧ opt.testBit 3 = rich ∧ opt.testBit 2 = phon

/-- A length field of one or two bytes. -/
def encLen (lenlen n : Nat) : Bytes := if lenlen = 1 then [UInt8.ofNat n] else le16 n

def encRun (r : Nat × Nat) : Bytes := le16 r.1 ++ le16 r.2

/-- A Unicode string inside one record. -/
structure UStr where
  text : PyStr
  opt : Nat
  wide : Bool
  runs : Option (List (Nat × Nat))
  phon : Option Bytes

/-- What follows the length field. -/
def UStr.body (u : UStr) : Bytes :=
  [UInt8.ofNat u.opt] ++
  (match u.runs with | some rs => le16 rs.length | none => []) ++
  (match u.phon with | some p => le32 p.length | none => []) ++
  encUnits u.wide (utf16 u.text) ++
  (match u.runs with | some rs => rs.flatMap encRun | none => []) ++
  (match u.phon with | some p => p | none => [])

structure UStr.Ok (u : UStr) : Prop where
  flags : Flags u.opt u.wide u.runs.isSome u.phon.isSome
  fits : Fits u.wide (utf16 u.text)
  runs : ∀ rs, u.runs = some rs → rs.length < 65536
  phon : ∀ p, u.phon = some p → p.length < 2 ^ 31

/-- A cell range address: first row, last row, first column, last column (all inclusive), with 1- or
2-byte columns. -/
def encRange (addrSize : Nat) (r : Nat × Nat × Nat × Nat) : Bytes :=
  le16 r.1 ++ le16 r.2.1 ++
    (if addrSize = 6 then [UInt8.ofNat r.2.2.1, UInt8.ofNat r.2.2.2] else le16 r.2.2.1 ++ le16 r.2.2.2)

/-! ## The shared string table -/

/-- Bytes of the table with record breaks (`none`). -/
abbrev Items := List (Option Bytes)

/-- The records: the current one and those after it. -/
def recordsOf : Items → Bytes × List Bytes
  | [] => ([], [])
  | some b :: rest => (b ++ (recordsOf rest).1, (recordsOf rest).2)
  | none :: rest => ([], (recordsOf rest).1 :: (recordsOf rest).2)

/-- The part of a string's characters that lies in one record, with the options byte that introduces it. -/
structure Seg where
  opt : Nat
  wide : Bool
  units : List Nat

def Seg.bytes (s : Seg) : Bytes := encUnits s.wide s.units

/-- A shared string with its splitting into records. -/
structure SStr where
  text : PyStr
  seg : Seg                             -- characters in the record where the string starts
  segs : List Seg                       -- characters in each following record
  rich : Bool                           -- rich-text flag
  runs : List (Nat × Nat)               -- runs in the record where the characters end
  runss : List (List (Nat × Nat))       -- runs in each following record
  hasPhon : Bool
  phon : Bytes                          -- phonetic data in the record where the runs end
  phons : List Bytes                    -- phonetic data in each following record
  brk : Bool                            -- a new record starts after the string

def SStr.allRuns (s : SStr) : List (Nat × Nat) := s.runs ++ s.runss.flatten

def SStr.allPhon (s : SStr) : Bytes := s.phon ++ s.phons.flatten

def SStr.header (s : SStr) : Bytes :=
  le16 (utf16 s.text).length ++ [UInt8.ofNat s.seg.opt] ++ (if s.rich then le16 s.allRuns.length else []) ++
    (if s.hasPhon then le32 s.allPhon.length else [])

def segItems (segs : List Seg) : Items := segs.flatMap fun s => [none, some (UInt8.ofNat s.opt :: s.bytes)]

def runItems (runss : List (List (Nat × Nat))) : Items := runss.flatMap fun rs => [none, some (rs.flatMap encRun)]

def phonItems (ps : List Bytes) : Items := ps.flatMap fun p => [none, some p]

def SStr.items (s : SStr) : Items :=
  [some s.header, some s.seg.bytes] ++ segItems s.segs ++ [some (s.runs.flatMap encRun)] ++ runItems s.runss ++
    [some s.phon] ++ phonItems s.phons ++ (if s.brk then [none] else [])

/-- A legal layout of a string: the parts make up the text, flags and lengths are right, and a record
is only started for characters, runs or phonetic data that remain. -/
structure SStr.Legal (s : SStr) : Prop where
  text : s.seg.units ++ s.segs.flatMap Seg.units = utf16 s.text
  len : (utf16 s.text).length < 65536
  flags : Flags s.seg.opt s.seg.wide s.rich s.hasPhon
  fits : Fits s.seg.wide s.seg.units
  segs : ∀ g ∈ s.segs, g.opt < 256 ∧ g.opt.testBit 0 = g.wide ∧ Fits g.wide g.units ∧ g.units ≠ []
  runLen : s.allRuns.length < 65536
  runs : ∀ r ∈ s.allRuns, r.1 < 65536 ∧ r.2 < 65536
  runss : ∀ g ∈ s.runss, g ≠ []
  rich : s.rich = false → s.allRuns = []
  phonLen : s.allPhon.length < 2 ^ 31
  phons : ∀ p ∈ s.phons, p ≠ []
  phon : s.hasPhon = false → s.allPhon = []

/-- What the decoder supports: no surrogate pair is split between records, and phonetic data crosses at
most one record boundary, and not when a record ends after it. -/
structure SStr.Handled (s : SStr) : Prop where
  pairs : ∃ ts : List PyStr, (s.seg :: s.segs).map Seg.units = ts.map utf16
  phons : s.phons = [] ∨ (s.phons.length = 1 ∧ s.brk = false)

/-- The records of the whole table; `hdr` is the eight bytes of counts. -/
def sstRecords (hdr : Bytes) (ss : List SStr) : List Bytes :=
  let r := recordsOf (some hdr :: ss.flatMap SStr.items)
  r.1 :: r.2

/-- What the reader should get for a string. -/
def SStr.value (s : SStr) : PyStr × Option (List (Nat × Nat)) :=
  (s.text, if s.allRuns = [] then none else some s.allRuns)

/-! ## String results of formulas -/

/-- One record's part of the text: options byte and characters. -/
def Seg.payload (g : Seg) : Bytes := UInt8.ofNat g.opt :: g.bytes

/-- Every character is in the basic multilingual plane. -/
def Bmp (t : PyStr) : Prop := ∀ c ∈ t, c.toNat < 0x10000

end Xlrd.Spec
