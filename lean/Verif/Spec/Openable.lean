import Verif.Spec.OldRefExpr
import Verif.Spec.OldScopes
import Verif.Spec.Strings
import Verif.Spec.Cells

/-!
# Globals that can be read

What the records of the workbook globals have to be like so that a workbook can be opened.
-/
namespace Xlrd.Spec

/-- There is an earlier record with code `c` among `items`. -/
def Occurs (c : Nat) (items : List GItem) : Prop := ∃ d, GItem.one c d ∈ items

/-- The first records of the EXTERNSHEET items. -/
def externsOf (items : List GItem) : List Bytes := items.filterMap fun
  | .extern d _ => some d
  | _ => none

/-- A Unicode string with a length field of `l` bytes. -/
def unicodeField (l : Nat) (u : UStr) : Bytes := encLen l (utf16 u.text).length ++ u.body
def UStr.FitsIn (l : Nat) (u : UStr) : Prop := u.Ok ∧ (utf16 u.text).length < 256 ^ l

/-- A SUPBOOK record: this workbook, the add-in functions, or another document with the names of its sheets. -/
inductive SupbookRecord : Bytes → Prop
  | ours (n : Nat) (tail : Bytes) : SupbookRecord (le16 n ++ [0x01, 0x04] ++ tail)
  | addins (tail : Bytes) : SupbookRecord ([0x01, 0x00, 0x01, 0x3A] ++ tail)
  | other (url : UStr) (names : List UStr) (tail : Bytes) (hu : url.FitsIn 2) (hn : ∀ u ∈ names, u.FitsIn 2) (hl : names.length < 65536) :
      SupbookRecord (le16 names.length ++ unicodeField 2 url ++ names.flatMap (unicodeField 2) ++ tail)

/-- The codes of the records that are dealt with. -/
def knownCodes : List Nat :=
  [0x31, 0x231, 0x41e, 0xe0, 0x85, 0x22, 0x42, 0x8c, 0x23, 0x2f, 0x5c, 0x8e, 0x1ae, 0x18, 0x92, 0x293]

/-- The number of colours in the palette. -/
def paletteSize (v : Nat) : Nat := if v < 50 then 16 else 56

/-- An item that can be read when it comes after `pre`; `items` are all the items.  `dec q` decodes byte strings after the items `q`. -/
inductive Readable (v : Nat) (dec : List GItem → Bytes → R PyStr) (items pre : List GItem) : GItem → Prop
  | font (c : Nat) (d : Bytes) (f : Font) (hc : c = 0x31 ∨ c = 0x231) (h : FontRecord (dec pre) f v d) : Readable v dec items pre (.one c d)
  | format (d : Bytes) (f : Nat × PyStr) (h : FormatRecord v (dec pre) f d) : Readable v dec items pre (.one 0x41e d)
  | xf (d : Bytes) (x : XF) (h : XfRecord x v d) : Readable v dec items pre (.one 0xe0 d)
  | boundsheet (d : Bytes) (s : SheetRec) (h : BoundsheetRecord v (dec pre) s d) : Readable v dec items pre (.one 0x85 d)
  | datemode (m : Nat) (tail : Bytes) (h : m = 0 ∨ m = 1) : Readable v dec items pre (.one 0x22 (le16 m ++ tail))
  | codepage (cp : Nat) (tail : Bytes) (h : cp < 65536) : Readable v dec items pre (.one 0x42 (le16 cp ++ tail))
  /- every COUNTRY record says the same -/
  | country (a b : Nat) (tail : Bytes) (ha : a < 65536) (hb : b < 65536)
      (same : ∀ d, GItem.one 0x8c d ∈ pre → d.take 4 = le16 a ++ le16 b) : Readable v dec items pre (.one 0x8c (le16 a ++ le16 b ++ tail))
  | supbook (d : Bytes) (h : SupbookRecord d) : Readable v dec items pre (.one 0x1ae d)
  /- in BIFF8 an EXTERNNAME record belongs to a SUPBOOK record -/
  | externname8 (opts tail : Bytes) (u : UStr) (h8 : 80 ≤ v) (ho : opts.length = 6) (hu : u.FitsIn 1) (hs : Occurs 0x1ae pre) :
      Readable v dec items pre (.one 0x23 (opts ++ unicodeField 1 u ++ tail))
  | externname (d : Bytes) (h8 : v < 80) : Readable v dec items pre (.one 0x23 d)
  | writeaccess8 (u : UStr) (tail : Bytes) (h8 : 80 ≤ v) (hu : u.FitsIn 2) : Readable v dec items pre (.one 0x5c (unicodeField 2 u ++ tail))
  /- the user name may have to wait for the encoding -/
  | writeaccess (raw tail : Bytes) (h8 : v < 80) (hl : raw.length < 256) (h : ∀ q, q <+: items → ∃ s, dec q raw = .ok s) :
      Readable v dec items pre (.one 0x5c (encLen 1 raw.length ++ raw ++ tail))
  | name (d : Bytes) (o : NameObj) (h : NameRecord v (dec pre) o d) : Readable v dec items pre (.one 0x18 d)
  /- at most one PALETTE record, with at most 56 colours (16 before BIFF5) -/
  | palette (cs : List (Rgb × Nat)) (tail : Bytes) (h : ∀ c ∈ cs, IsRgb c.1 ∧ c.2 < 256) (hl : cs.length ≤ paletteSize v) (ht : tail.length ≤ 4)
      (first : ¬ Occurs 0x92 pre) : Readable v dec items pre (.one 0x92 (encPalette cs tail))
  /- before BIFF8, a CODEPAGE record comes before a STYLE record with text -/
  | style (d : Bytes) (s : StyleRec) (h : StyleRecord v (dec pre) true s d) (hcp : s.builtin = true ∨ 80 ≤ v ∨ (lastCodepage pre).isSome) :
      Readable v dec items pre (.one 0x293 d)
  | normal (first : ¬ Occurs 0x293 pre) : Readable v dec items pre (.one 0x293 [0, 0, 0, 0])
  | sheetsoffset (d : Bytes) (h : d.length = 4) : Readable v dec items pre (.one 0x8e d)
  | extern8 (d : Bytes) (more : List Bytes) (h8 : 80 ≤ v) (h : ExternComplete v d more) : Readable v dec items pre (.extern d more)
  | extern (nc ty : UInt8) (rest : Bytes) (more : List Bytes) (h8 : v < 80) (h : ty = 3 → ∃ s, dec pre (rest.take nc.toNat) = .ok s) :
      Readable v dec items pre (.extern (nc :: ty :: rest) more)
  | sst (total : Nat) (ss : List SStr) (d : Bytes) (more : List Bytes) (hs : ∀ s ∈ ss, s.Legal ∧ s.Handled) (hn : ss.length < 2 ^ 31)
      (h : sstRecords (le32 total ++ le32 ss.length) ss = d :: more) : Readable v dec items pre (.sst d more)
  | unknown (c : Nat) (d : Bytes) (h : c ∉ knownCodes) : Readable v dec items pre (.one c d)

/-- The codec for the byte strings of the workbook can be used: it decodes the word `trial`, or it is UTF-16 by the codepage (for
which no trial is made). -/
def CodecUsable (v : Nat) (override : PyStr) (codec : PyStr → Bytes → R PyStr) (cp : Option Nat) : Prop :=
  (∃ s, codec (textEncoding v override cp) [0x74, 0x72, 0x69, 0x61, 0x6c] = .ok s) ∨
  (override = [] ∧ textEncoding v [] cp = "utf_16_le".toList)

/-- The globals of a workbook that can be opened, apart from the formulas of its names. -/
structure Openable (v : Nat) (override : PyStr) (codec : PyStr → Bytes → R PyStr) (items : List GItem) (names : List NameObj) : Prop where
  usable : ∀ q, q <+: items → CodecUsable v override codec (lastCodepage q)
  readable : ∀ pre it post, items = pre ++ it :: post → Readable v (fun q => codec (textEncoding v override (lastCodepage q))) items pre it
  collected : Names v (fun q => codec (textEncoding v override (lastCodepage q))) items names
  /-- before BIFF8, the scope of a name is given by an EXTERNSHEET record with the name of a sheet -/
  scopes : v < 80 → ∀ o ∈ names, o.extnSheetNum = 0 ∨ ∃ nc rest, (externsOf items)[o.extnSheetNum - 1]? = some (nc :: 3 :: rest)

/-! ## The formulas of the names -/

/-- The names that an expression uses. -/
def RefExpr.uses : RefExpr → List Nat
  | .cell _ _ _ | .area _ _ _ _ _ => []
  | .name k => [k]
  | .paren e | .mem _ e => e.uses
  | .range a b | .isect a b | .union a b => a.uses ++ b.uses

/-- The scope of a name is the workbook or a worksheet. -/
def PlacedName (sheets : List SheetRec) (names : List NameObj) (k : Nat) : Prop :=
  ∃ o, names[k]? = some o ∧ (o.excelSheetIndex = 0 ∨ ∃ s, sheets[o.excelSheetIndex - 1]? = some s ∧ s.isWorksheet = true)

/-- Names that can be evaluated: macros and binary data are not looked at; a formula may be missing, or it is an expression of references.
`level` shows that no name uses itself, and that names are nested at most ten deep. -/
def NamesEvaluable (sups : List SupKind) (sheets : List SheetRec) (refs : List ExtRef) (names : List NameObj) : Prop :=
  ∃ level : Nat → Nat, (∀ i, level i ≤ 10) ∧ ∀ (i : Nat) o, names[i]? = some o →
    o.macroFlag ≠ 0 ∨ o.binary ≠ 0 ∨ o.basicFormulaLen = 0 ∨
    ∃ x l, NameFormula names i x ∧ RefVal (LocalRef sups sheets refs) names x l ∧ ∀ k ∈ x.uses, level k < level i ∧ PlacedName sheets names k

/-- The names that an expression of BIFF5 or BIFF7 uses. -/
def OldRefExpr.uses : OldRefExpr → List Nat
  | .cell _ _ _ | .area _ _ _ _ _ => []
  | .name k _ => [k]
  | .paren e | .mem _ e => e.uses
  | .range a b | .isect a b | .union a b => a.uses ++ b.uses

/-- The scope of a name in BIFF5 or BIFF7 is the workbook or a worksheet. -/
def OldPlacedName (sheets : List SheetRec) (xs : List (Option PyStr)) (names : List NameObj) (k : Nat) : Prop :=
  ∃ o s, names[k]? = some o ∧ OldScope sheets xs o.extnSheetNum s ∧ s ≠ -2

/-- As `NamesEvaluable`, in BIFF5 and BIFF7. -/
def OldNamesEvaluable (sheets : List SheetRec) (xs : List (Option PyStr)) (names : List NameObj) : Prop :=
  ∃ level : Nat → Nat, (∀ i, level i ≤ 10) ∧ ∀ (i : Nat) o, names[i]? = some o →
    o.macroFlag ≠ 0 ∨ o.binary ≠ 0 ∨ o.basicFormulaLen = 0 ∨
    ∃ x l, OldNameFormula names i x ∧ OldRefVal (OldLocal sheets) names x l ∧ ∀ k ∈ x.uses, level k < level i ∧ OldPlacedName sheets xs names k

/-- The names do not stand in the way of opening: all are macros, binary data or without formula; or all can be evaluated. -/
def NamesFine (v : Nat) (dec : List GItem → Bytes → R PyStr) (items : List GItem) (sheets : List SheetRec) (names : List NameObj) : Prop :=
  (∀ o ∈ names, o.macroFlag ≠ 0 ∨ o.binary ≠ 0 ∨ o.basicFormulaLen = 0) ∨
  (v = 80 ∧ ∃ refs, Externs items refs ∧ NamesEvaluable (supbooks items) sheets refs names) ∨
  (v < 80 ∧ ∃ xs, ExternNames dec items xs ∧ OldNamesEvaluable sheets xs names)

/-! ## The sheets -/

/-- The number of records with a code. -/
def recordCount (c : Nat) (items : List GItem) : Nat := items.countP fun it => match it with | .one c' _ => c' = c | _ => false

/-- The cells of a sheet fit: `rows` rows, 256 columns, numbers have XFs that are in the file (XF 0 need not be). -/
structure CellsFit (rows : Nat) (fi : Bool) (nxf : Nat) (cells : List Write) (merged : List CRange) : Prop where
  place : ∀ w ∈ cells, w.row < rows ∧ w.col < 256
  xf : ∀ w ∈ cells, w.ctype = none → w.xf = 0 ∨ 0 ≤ w.xf ∧ w.xf < nxf
  /- the index of an XF is stored in 16 bits, with sign -/
  small : fi = true → ∀ w ∈ cells, -32768 ≤ w.xf ∧ w.xf ≤ 32767
  merged : height cells [] < maxOf (merged.map (·.rhi)) → maxOf (merged.map (·.rhi)) ≤ rows

/-- The shared strings: those of the last SST record with its CONTINUE records, none without such a record. -/
inductive SharedStrings : List GItem → List SStr → Prop
  | without (items : List GItem) (h : ∀ d more, GItem.sst d more ∉ items) : SharedStrings items []
  | table (before after : List GItem) (d : Bytes) (more : List Bytes) (total : Nat) (ss : List SStr) (hlast : ∀ d more, GItem.sst d more ∉ after)
      (hs : ∀ s ∈ ss, s.Legal ∧ s.Handled) (hn : ss.length < 2 ^ 31) (h : sstRecords (le32 total ++ le32 ss.length) ss = d :: more) :
      SharedStrings (before ++ [.sst d more] ++ after) ss

end Xlrd.Spec
