import Verif.Spec.SheetItems
import Verif.Spec.Globals
import Verif.Spec.Open

/-!
# Files of BIFF3 and BIFF4

Such a file is one worksheet; the records about fonts, formats and the like stand among the settings of the sheet, before the DIMENSION record.
-/
namespace Xlrd.Spec

/-- The codes of FORMAT, XF and FONT records. -/
def formatCode (v : Nat) : Nat := if v ≤ 30 then 0x1e else 0x41e
def xfCode (v : Nat) : Nat := if v < 30 then 0x43 else if v ≤ 30 then 0x243 else 0x443
def fontCode (v : Nat) : Nat := if v < 30 then 0x31 else 0x231

/-- Records about the whole file: FORMAT, XF, FONT, STYLE, PALETTE, BUILTINFMTCOUNT, DATEMODE, CODEPAGE, WRITEACCESS, COUNTRY. -/
def bookCodes (v : Nat) : List Nat := [formatCode v, xfCode v, fontCode v, 0x293, 0x92, 0x56, 0x22, 0x42, 0x5c, 0x8c]

/-- Codes that mean something in a file of BIFF2 to BIFF4 but not in a worksheet of a later version. -/
def oldCodes : List Nat :=
  [0x41e, 0x1e, 0x31, 0x231, 0x293, 0x92, 0x56, 0x443, 0x243, 0x43, 0x22, 0x42, 0x2f, 0x5c, 0x45,
   0x44, 0x3, 0x2, 0x4, 0x5, 0x1, 0x8, 0x24, 0x20, 0x3e, 0x8c, 0x200, 0x0]

/-- A setting of the sheet alone. -/
def SheetItem.isSetting : SheetItem → Bool
  | .cell _ => false
  | .window _ => false
  | .extra _ => false
  | .embedded .. => false
  | _ => true

/-- A worksheet item, or a record about the whole file. -/
inductive OldItem
  | book (code : Nat) (data : Bytes)
  | sheet (x : SheetItem)

def OldItem.records (v : Nat) : OldItem → List (Nat × Bytes)
  | .book c d => [(c, d)]
  | .sheet x => x.records v

structure OldFile where
  head : List OldItem
  dim : DimRec
  body : List SheetItem
  eof : Bytes

def OldFile.settings (x : OldFile) : List SheetItem := x.head.filterMap fun i => match i with | .sheet y => some y | _ => none
/-- The records about the whole file, in file order. -/
def OldFile.book (x : OldFile) : List GItem := x.head.filterMap fun i => match i with | .book c d => some (.one c d) | _ => none
/-- The sheet without them. -/
def OldFile.layout (x : OldFile) : Layout := ⟨x.settings, some x.dim, x.body, x.eof⟩

def OldFile.records (v : Nat) (x : OldFile) : List (Nat × Bytes) :=
  x.head.flatMap (·.records v) ++ [(0x200, x.dim.bytes v)] ++ x.body.flatMap (·.records v) ++ [(0xa, x.eof)]

/-- A sheet item in such a file. -/
def SheetItem.OldOk (v : Nat) (dec : Bytes → R PyStr) (sst : List PyStr) (x : SheetItem) : Prop :=
  x.Ok v dec sst ∧ ∀ c d, x = .unknown c d → c ∉ oldCodes

/-- The records are well formed, no FORMAT or XF record follows a STYLE record, and every length fits. -/
structure OldFile.Ok (v : Nat) (dec : Bytes → R PyStr) (sst : List PyStr) (x : OldFile) : Prop where
  codes : ∀ c d, OldItem.book c d ∈ x.head → c ∈ bookCodes v
  settings : ∀ y ∈ x.settings, y.isSetting = true
  items : ∀ y ∈ x.settings ++ x.body, y.OldOk v dec sst
  styles : ∀ pre d post, x.head = pre ++ .book 0x293 d :: post → ∀ d', OldItem.book (xfCode v) d' ∉ post ∧ OldItem.book (formatCode v) d' ∉ post
  short : ∀ q ∈ x.records v, q.2.length < 65536

/-! ## Number formats and extended formats -/

/-- A FORMAT record of BIFF3 (the format string) or BIFF4 (two bytes more before it). -/
def OldFormatRecord (v : Nat) (dec : Bytes → R PyStr) (s : PyStr) (data : Bytes) : Prop :=
  ∃ pad txt tail, pad.length = (if v ≤ 30 then 0 else 2) ∧ TextField v dec 1 s txt ∧ data = pad ++ txt ++ tail

/-- The FORMAT records; they are numbered in file order. -/
def OldFormats (v : Nat) (dec : List GItem → Bytes → R PyStr) (items : List GItem) (fmts : List PyStr) : Prop :=
  Collected (· = formatCode v) (fun pre d s => OldFormatRecord v (dec pre) s d) items fmts

/-- The XF records.  An XF whose format has not been described by an earlier FORMAT record gets format 0. -/
def OldXfs (v : Nat) (dec : List GItem → Bytes → R PyStr) (items : List GItem) (xfs : List XF) : Prop :=
  Collected (· = xfCode v) (fun pre d x => ∃ raw fmts, XfRecord raw v d ∧ OldFormats v dec pre fmts ∧
    x = { raw with formatKey := if raw.formatKey < fmts.length then raw.formatKey else 0 }) items xfs

/-! ## Whole files -/

/-- A file of BIFF3 or BIFF4: the BOF record of a worksheet, the records of `F`, then anything.  `dec` decodes byte strings after given records. -/
structure OldWorkbook (v : Nat) (dec : List GItem → Bytes → R PyStr) (file : Bytes) (F : OldFile) : Prop where
  version : v = 30 ∨ v = 40
  bytes : ∃ op bof rest, BofRecord v 0x10 op bof ∧ file = encRec op bof ++ encRecs (F.records v) ++ rest
  ok : F.Ok v (dec F.book) []

end Xlrd.Spec
