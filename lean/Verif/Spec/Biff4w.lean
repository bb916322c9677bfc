import Verif.Spec.OldFile

/-!
# BIFF4 workbooks (.XLW)

The globals hold BOUNDSHEET records with the names of the sheets, and each worksheet as a whole: a SHEETHDR record with its length and its name, then its records.
-/
namespace Xlrd.Spec

/-- Records of the globals, then a worksheet: its SHEETHDR record (`text` is the name with its length, `more` what follows it), its BOF record, its records, and bytes that
are skipped. -/
structure SheetPart where
  before : List GItem
  name : PyStr
  text : Bytes
  more : Bytes
  op : Nat
  bof : Bytes
  file : OldFile
  skipped : Bytes

def SheetPart.sheet (x : SheetPart) : Bytes := encRec x.op x.bof ++ encRecs (x.file.records 45) ++ x.skipped
def SheetPart.hdr (x : SheetPart) : Bytes := le32 x.sheet.length ++ x.text ++ x.more
def SheetPart.bytes (x : SheetPart) : Bytes := encRecs (x.before.flatMap GItem.recs) ++ encRec 0x8f x.hdr ++ x.sheet

/-- The records that are about the whole file, in file order: those of the globals and those that stand in the sheets. -/
def SheetPart.book (x : SheetPart) : List GItem := x.before ++ x.file.book
def bookOf (parts : List SheetPart) : List GItem := parts.flatMap (·.book)

/-- BIFF4 has no shared strings. -/
def NoSst (items : List GItem) : Prop := ∀ d more, GItem.sst d more ∉ items

/-- `dec` decodes byte strings after given records of this part. -/
structure SheetPart.Ok (dec : List GItem → Bytes → R PyStr) (x : SheetPart) : Prop where
  items : GlobalsOk 45 x.before
  sst : NoSst x.before
  text : TextField 45 (dec x.before) 1 x.name x.text
  short : x.hdr.length < 65536
  length : x.sheet.length < 2 ^ 31
  bof : BofRecord 40 0x10 x.op x.bof
  file : x.file.Ok 45 (dec x.book) []

/-- A BIFF4 workbook: BOF record, the parts, more records of the globals, EOF record, then anything. -/
structure Biff4w (dec : List GItem → Bytes → R PyStr) (file : Bytes) (parts : List SheetPart) (last : List GItem) : Prop where
  bytes : ∃ op bof eof rest, BofRecord 45 0x100 op bof ∧ eof.length < 65536 ∧
    file = encRec op bof ++ parts.flatMap SheetPart.bytes ++ encGlobals last eof ++ rest
  parts : ∀ pre x post, parts = pre ++ x :: post → x.Ok fun items => dec (bookOf pre ++ items)
  last : GlobalsOk 45 last ∧ NoSst last

/-- The BOUNDSHEET records: just names. -/
def SheetNames4 (dec : List GItem → Bytes → R PyStr) (items : List GItem) (names : List PyStr) : Prop :=
  Collected (· = 0x85) (fun pre d s => ∃ txt tail, TextField 45 (dec pre) 1 s txt ∧ d = txt ++ tail) items names

/-- The XF records of a sheet, each with a format described by an earlier FORMAT record of the sheet. -/
def SheetXfs (dec : List GItem → Bytes → R PyStr) (items : List GItem) (xfs : List XF) : Prop :=
  Collected (· = xfCode 45) (fun pre d x => XfRecord x 45 d ∧ ∃ fmts, OldFormats 45 dec pre fmts ∧ x.formatKey < fmts.length) items xfs

end Xlrd.Spec
