import Verif.Model.Globals
import Verif.Spec.FormatRecords
import Verif.Spec.FormatString

/-!
# The records of the workbook globals

The globals substream is a list of items: a record that stands alone, or an SST or EXTERNSHEET record
with the CONTINUE records that belong to it.
-/
namespace Xlrd.Spec

inductive GItem
  | one (code : Nat) (data : Bytes)
  | sst (data : Bytes) (more : List Bytes)
  | extern (data : Bytes) (more : List Bytes)

/-- The records of an item. -/
def GItem.recs : GItem → List (Nat × Bytes)
  | .one c d => [(c, d)]
  | .sst d more => (0xfc, d) :: more.map fun m => (0x3c, m)
  | .extern d more => (0x17, d) :: more.map fun m => (0x3c, m)

/-- Record lengths are 16-bit numbers. -/
def GItem.Sized (it : GItem) : Prop := ∀ r ∈ it.recs, r.1 < 65536 ∧ r.2.length < 65536

/-- A BIFF8 EXTERNSHEET record goes on in CONTINUE records until it has its 6 bytes per reference; each
of them is needed.  Earlier versions have no continuations. -/
def ExternComplete (bv : Nat) (data : Bytes) (more : List Bytes) : Prop :=
  if bv ≥ 80 then
    ∃ n rest, data = le16 n ++ rest ∧ n < 65536 ∧ 6 * n ≤ (rest ++ more.flatten).length ∧
      ∀ k, k < more.length → (rest ++ (more.take k).flatten).length < 6 * n
  else more = []

/-- SST (0xfc), EXTERNSHEET (0x17), SHEETHDR (0x8f) and EOF (0x0a) do not stand alone. -/
def GItem.Plain (bv : Nat) : GItem → Prop
  | .one c _ => c ≠ 0xfc ∧ c ≠ 0x17 ∧ c ≠ 0x8f ∧ c ≠ 0x0a
  | .sst _ _ => True
  | .extern d more => ExternComplete bv d more

/-- After an SST item no CONTINUE record follows (it would belong to the table). -/
def NoStrayContinue : List GItem → Prop
  | [] => True
  | .sst _ _ :: .one 0x3c _ :: _ => False
  | _ :: rest => NoStrayContinue rest

/-- The globals substream after its BOF record, as a list of items. -/
structure GlobalsOk (bv : Nat) (items : List GItem) : Prop where
  sized : ∀ it ∈ items, it.Sized
  plain : ∀ it ∈ items, it.Plain bv
  stray : NoStrayContinue items

/-- The bytes of the substream, closed by an EOF record. -/
def encGlobals (items : List GItem) (eof : Bytes) : Bytes := encRecs (items.flatMap GItem.recs) ++ encRec 0x0a eof

/-- The values of the records with certain codes, in file order; what the bytes of a record mean may depend on
what came before it. -/
inductive Collected {α : Type} (sel : Nat → Prop) (Rel : List GItem → Bytes → α → Prop) : List GItem → List α → Prop
  | nil : Collected sel Rel [] []
  | take {pre : List GItem} {xs : List α} {c : Nat} {d : Bytes} {x : α} (h : Collected sel Rel pre xs) (hc : sel c) (hx : Rel pre d x) :
      Collected sel Rel (pre ++ [.one c d]) (xs ++ [x])
  | skip {pre : List GItem} {xs : List α} {it : GItem} (h : Collected sel Rel pre xs) (hs : ∀ c d, it = .one c d → ¬ sel c) :
      Collected sel Rel (pre ++ [it]) xs

/-! ## Text encoding -/

/-- The codepage of a CODEPAGE record. -/
def codepageOf : GItem → Option Nat
  | .one 0x42 (x :: y :: _) => some (x.toNat + 256 * y.toNat)
  | _ => none

/-- The last CODEPAGE record counts. -/
def lastCodepage (items : List GItem) : Option Nat := (items.filterMap codepageOf).getLast?

/-- The codec for a codepage. -/
def codepageName (bv cp : Nat) : PyStr :=
  if cp = 1200 then "utf_16_le".toList
  else if cp = 10000 ∨ cp = 32768 then "mac_roman".toList
  else if cp = 10006 then "mac_greek".toList
  else if cp = 10007 then "mac_cyrillic".toList
  else if cp = 10029 then "mac_latin2".toList
  else if cp = 10079 then "mac_iceland".toList
  else if cp = 10081 then "mac_turkish".toList
  else if cp = 32769 then "cp1252".toList
  else if 300 ≤ cp ∧ cp ≤ 1999 then "cp".toList ++ natDec cp
  else if bv ≥ 80 then "utf_16_le".toList
  else "unknown_codepage_".toList ++ natDec cp

/-- The encoding of byte strings: what the caller asks for, else that of the codepage, else the default
of the version. -/
def textEncoding (bv : Nat) (override : PyStr) (cp : Option Nat) : PyStr :=
  if override ≠ [] then override
  else match cp with
    | some cp => codepageName bv cp
    | none => if bv < 80 then "iso-8859-1".toList else "utf_16_le".toList

/-- A text with a length field of `l` bytes in a record: a Unicode string from BIFF8 on, before that bytes
in the workbook's encoding. -/
inductive TextField (bv : Nat) (dec : Bytes → R PyStr) (l : Nat) (s : PyStr) : Bytes → Prop
  | biff8 (u : UStr) (h8 : 80 ≤ bv) (ok : u.Ok) (text : u.text = s) (len : (utf16 s).length < 256 ^ l) :
      TextField bv dec l s (encLen l (utf16 s).length ++ u.body)
  | older (raw : Bytes) (h8 : bv < 80) (text : dec raw = .ok s) (len : raw.length < 256 ^ l) :
      TextField bv dec l s (encLen l raw.length ++ raw)

/-! ## BOUNDSHEET -/

/-- What a BOUNDSHEET record says about a sheet: where its substream starts, its visibility, its type (0 for a
worksheet) and its name. -/
structure SheetRec where
  offset : Nat
  visibility : Nat
  ty : Nat
  name : PyStr

def SheetRec.isWorksheet (s : SheetRec) : Bool := s.ty = 0

/-- A BOUNDSHEET record of BIFF5 to BIFF8. -/
def BoundsheetRecord (bv : Nat) (dec : Bytes → R PyStr) (s : SheetRec) (data : Bytes) : Prop :=
  ∃ txt tail, TextField bv dec 1 s.name txt ∧ s.offset < 2 ^ 31 ∧ s.visibility < 256 ∧ s.ty < 256 ∧
    data = le32 s.offset ++ [UInt8.ofNat s.visibility, UInt8.ofNat s.ty] ++ txt ++ tail

/-! ## Number formats and extended formats -/

/-- A FORMAT record of BIFF5 to BIFF8: the key and the format string. -/
def FormatRecord (bv : Nat) (dec : Bytes → R PyStr) (f : Nat × PyStr) (data : Bytes) : Prop :=
  ∃ txt tail, TextField bv dec (if bv ≥ 80 then 2 else 1) f.2 txt ∧ f.1 < 65536 ∧ data = le16 f.1 ++ txt ++ tail

/-- More date characters than digit place holders among the characters that count. -/
def IsDateFormat (s : PyStr) : Prop :=
  ∃ f : FmtString, f.Ok ∧ f.text = s ∧ (f.active.filter isDigitChar).length < (f.active.filter isDateChar).length

/-- The keys with a built-in format, and those whose built-in format is a date format. -/
def BuiltinKey (k : Nat) : Prop := k ≤ 22 ∨ (27 ≤ k ∧ k ≤ 62) ∨ (67 ≤ k ∧ k ≤ 81)
def BuiltinDate (k : Nat) : Prop := (14 ≤ k ∧ k ≤ 22) ∨ (27 ≤ k ∧ k ≤ 36) ∨ (45 ≤ k ∧ k ≤ 47) ∨ (50 ≤ k ∧ k ≤ 58) ∨ (71 ≤ k ∧ k ≤ 81)

/-- The format string of the last FORMAT record with key `k`. -/
def lastFormat (fmts : List (Nat × PyStr)) (k : Nat) : Option PyStr := ((fmts.filter (·.1 = k)).getLast?).map (·.2)

/-- The format with key `k` is a date format. -/
def DateKey (fmts : List (Nat × PyStr)) (k : Nat) : Prop :=
  match lastFormat fmts k with
  | some s => IsDateFormat s
  | none => BuiltinDate k

/-- The FORMAT records among `items`. -/
def Formats (bv : Nat) (dec : List GItem → Bytes → R PyStr) (items : List GItem) (fmts : List (Nat × PyStr)) : Prop :=
  Collected (· = 0x41e) (fun pre d f => FormatRecord bv (dec pre) f d) items fmts

/-- The XF records among `items`.  An XF whose format is neither built in nor described by an earlier FORMAT
record gets format 0. -/
def Xfs (bv : Nat) (dec : List GItem → Bytes → R PyStr) (items : List GItem) (xfs : List XF) : Prop :=
  Collected (· = 0xe0) (fun pre d x => ∃ raw fmts, XfRecord raw bv d ∧ Formats bv dec pre fmts ∧
    ((BuiltinKey raw.formatKey ∨ (lastFormat fmts raw.formatKey).isSome) ∧ x = raw ∨
     ¬ (BuiltinKey raw.formatKey ∨ (lastFormat fmts raw.formatKey).isSome) ∧ x = { raw with formatKey := 0 })) items xfs

/-- The FONT records among `items`. -/
def Fonts (bv : Nat) (dec : List GItem → Bytes → R PyStr) (items : List GItem) (fonts : List Font) : Prop :=
  Collected (fun c => c = 0x31 ∨ c = 0x231) (fun pre d f => FontRecord (dec pre) f bv d) items fonts

/-- Font number 4 does not exist: the font of the `k`-th FONT record (counted from 0) has this number. -/
def fontNumber (k : Nat) : Nat := if k < 4 then k else k + 1

/-! ## Defined names -/

/-- The bits of the option flags of a NAME record, lowest first. -/
def nameFlags (o : NameObj) (u : Nat) : List (Nat × Nat) :=
  [(o.hidden, 1), (o.func, 1), (o.vbasic, 1), (o.macroFlag, 1), (o.complex, 1), (o.builtin, 1), (o.funcgroup, 6), (o.binary, 1), (u, 3)]

/-- The built-in names; the name of such a record is one character, the index in this list. -/
def builtinNameList : List String :=
  ["Consolidate_Area", "Auto_Open", "Auto_Close", "Extract", "Database", "Criteria", "Print_Area", "Print_Titles", "Recorder",
   "Data_Form", "Auto_Activate", "Auto_Deactivate", "Sheet_Title", "_FilterDatabase"]

/-- The text stored in the record and the name it stands for. -/
def NameShown (o : NameObj) (stored : PyStr) : Prop :=
  if o.builtin = 0 then o.name = stored
  else (∃ c s, stored = [c] ∧ builtinNameList[c.toNat]? = some s ∧ o.name = s.toList) ∨
    ((∀ c, stored = [c] → builtinNameList.length ≤ c.toNat) ∧ o.name = "??Unknown??".toList)

/-- The stored text of a NAME record; its length is stored elsewhere. -/
inductive NameBody (bv : Nat) (dec : Bytes → R PyStr) (s : PyStr) : Nat → Bytes → Prop
  | biff8 (u : UStr) (h8 : 80 ≤ bv) (ok : u.Ok) (text : u.text = s) : NameBody bv dec s (utf16 s).length u.body
  | older (raw : Bytes) (h8 : bv < 80) (text : dec raw = .ok s) : NameBody bv dec s raw.length raw

/-- A NAME record of BIFF5 to BIFF8: option flags, keyboard shortcut, length of the name, length of the formula,
index to EXTERNSHEET, sheet index, four lengths, the name and the formula. -/
def NameRecord (bv : Nat) (dec : Bytes → R PyStr) (o : NameObj) (data : Bytes) : Prop :=
  ∃ (u : Nat) (kb : UInt8) (n : Nat) (lens : Bytes) (stored : PyStr) (body : Bytes),
    FieldsFit (nameFlags o u) ∧ o.optionFlags = packFields (nameFlags o u) ∧ o.optionFlags < 65536 ∧ n < 256 ∧
    o.basicFormulaLen < 65536 ∧ o.extnSheetNum < 65536 ∧ o.excelSheetIndex < 65536 ∧ lens.length = 4 ∧
    NameBody bv dec stored n body ∧ NameShown o stored ∧
    data = le16 o.optionFlags ++ [kb, UInt8.ofNat n] ++ le16 o.basicFormulaLen ++ le16 o.extnSheetNum ++ le16 o.excelSheetIndex ++ lens ++
      body ++ o.rawFormula

/-- The NAME records among `items`. -/
def Names (bv : Nat) (dec : List GItem → Bytes → R PyStr) (items : List GItem) (names : List NameObj) : Prop :=
  Collected (· = 0x18) (fun pre d o => NameRecord bv (dec pre) o d) items names

/-- The BOUNDSHEET records among `items`. -/
def Sheets (bv : Nat) (dec : List GItem → Bytes → R PyStr) (items : List GItem) (sheets : List SheetRec) : Prop :=
  Collected (· = 0x85) (fun pre d s => BoundsheetRecord bv (dec pre) s d) items sheets

/-- The scope of a BIFF8 name: -1 for the workbook, the number of the worksheet, -2 for a sheet that is not a
worksheet, -3 if there is no such sheet. -/
def scopeOf (sheets : List SheetRec) (sheetIndex : Nat) : Int :=
  if sheetIndex = 0 then -1
  else match sheets[sheetIndex - 1]? with
    | none => -3
    | some s => if s.isWorksheet then (((sheets.take (sheetIndex - 1)).filter SheetRec.isWorksheet).length : Int) else -2

/-! ## Settings -/

/-- The values of the DATEMODE records. -/
def Datemodes (items : List GItem) (ms : List Nat) : Prop :=
  Collected (· = 0x22) (fun _ d m => m < 65536 ∧ ∃ tail, d = le16 m ++ tail) items ms

/-- The values of the COUNTRY records: the country of the user interface and that of the system. -/
def Countries (items : List GItem) (cs : List (Nat × Nat)) : Prop :=
  Collected (· = 0x8c) (fun _ d c => c.1 < 65536 ∧ c.2 < 65536 ∧ ∃ tail, d = le16 c.1 ++ le16 c.2 ++ tail) items cs

/-- The user names of the WRITEACCESS records of a BIFF8 file. -/
def UserNames (items : List GItem) (us : List PyStr) : Prop :=
  Collected (· = 0x5c) (fun _ d s => ∃ (u : UStr) (tail : Bytes), u.Ok ∧ u.text = s ∧ (utf16 s).length < 65536 ∧
    d = encLen 2 (utf16 s).length ++ u.body ++ tail) items us

/-- Records with text in the workbook's encoding, or that set it: FONT, FONT of BIFF3 and BIFF4, FORMAT, BOUNDSHEET, CODEPAGE, NAME
and (as an item of its own) EXTERNSHEET. -/
def textCodes : List Nat := [0x31, 0x231, 0x41e, 0x85, 0x42, 0x18]

/-- A record that neither has text in the workbook's encoding nor sets it. -/
def NoText : GItem → Prop
  | .one c _ => c ∉ textCodes
  | .extern _ _ => False
  | .sst _ _ => True

/-- The colours of the PALETTE records. -/
def Palettes (items : List GItem) (ps : List (List Rgb)) : Prop :=
  Collected (· = 0x92) (fun _ d p => ∃ (cs : List (Rgb × Nat)) (tail : Bytes), (∀ c ∈ cs, IsRgb c.1 ∧ c.2 < 256) ∧ cs.length < 65536 ∧
    tail.length ≤ 4 ∧ p = cs.map Prod.fst ∧ d = encPalette cs tail) items ps

/-! ## Styles -/

/-- The names of the built-in styles. -/
def builtinStyles : List String :=
  ["Normal", "RowLevel_", "ColLevel_", "Comma", "Currency", "Percent", "Comma [0]", "Currency [0]", "Hyperlink", "Followed Hyperlink"]

/-- A style: its name, whether it is built in, and its XF. -/
structure StyleRec where
  name : PyStr
  builtin : Bool
  xf : Nat

/-- A STYLE record.  `normal` tells whether a style called Normal is known already: if not, a record of four zero bytes
describes it. -/
inductive StyleRecord (bv : Nat) (dec : Bytes → R PyStr) (normal : Bool) : StyleRec → Bytes → Prop
  | builtin (xf u id level : Nat) (s : String) (tail : Bytes) (hx : xf < 4096) (hu : u < 8) (hi : id < 256) (hl : level < 256)
      (hs : builtinStyles[id]? = some s) :
      StyleRecord bv dec normal ⟨if id = 1 ∨ id = 2 then s.toList ++ natDec (level + 1) else s.toList, true, xf⟩
        (leBytes 2 (packFields [(xf, 12), (u, 3), (1, 1)]) ++ [UInt8.ofNat id, UInt8.ofNat level] ++ tail)
  | user (xf u : Nat) (s : PyStr) (txt tail : Bytes) (hx : xf < 4096) (hu : u < 8) (ht : TextField bv dec (if bv ≥ 80 then 2 else 1) s txt)
      (hlen : 2 ≤ (txt ++ tail).length)
      (hz : normal = true ∨ leBytes 2 (packFields [(xf, 12), (u, 3), (0, 1)]) ++ txt ++ tail ≠ [0, 0, 0, 0]) :
      StyleRecord bv dec normal ⟨s, false, xf⟩ (leBytes 2 (packFields [(xf, 12), (u, 3), (0, 1)]) ++ txt ++ tail)
  | zero (hn : normal = false) : StyleRecord bv dec normal ⟨"Normal".toList, true, 0⟩ [0, 0, 0, 0]

/-- The STYLE records among `items`. -/
inductive Styles (bv : Nat) (dec : List GItem → Bytes → R PyStr) : List GItem → List StyleRec → Prop
  | nil : Styles bv dec [] []
  | take {pre : List GItem} {ss : List StyleRec} {d : Bytes} {s : StyleRec} (h : Styles bv dec pre ss)
      (hs : StyleRecord bv (dec pre) (ss.any fun t => decide (t.name = "Normal".toList)) s d) :
      Styles bv dec (pre ++ [.one 0x293 d]) (ss ++ [s])
  | skip {pre : List GItem} {ss : List StyleRec} {it : GItem} (h : Styles bv dec pre ss) (hs : ∀ d, it ≠ .one 0x293 d) :
      Styles bv dec (pre ++ [it]) ss

end Xlrd.Spec
