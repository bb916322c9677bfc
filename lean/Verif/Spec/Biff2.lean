import Verif.Spec.OldFile

/-!
# Files of BIFF2

Such a file is one worksheet.  A cell record has three bytes of attributes.  If there are XF records (Excel 2.1), six bits of the first byte are the number of one
(63: it stands in the last IXFE record).  If there are none (Excel 2.0), the bytes themselves say how the cell is formatted.
-/
namespace Xlrd.Spec

/-- The attributes of a cell. -/
structure CellAttr where
  a0 : UInt8
  a1 : UInt8
  a2 : UInt8
  deriving DecidableEq

namespace CellAttr
def bytes (a : CellAttr) : Bytes := [a.a0, a.a1, a.a2]
/-- The number of the XF record. -/
def slot (a : CellAttr) : Nat := a.a0.toNat % 64
def locked (a : CellAttr) : Nat := a.a0.toNat / 64 % 2
def hidden (a : CellAttr) : Nat := a.a0.toNat / 128
def format (a : CellAttr) : Nat := a.a1.toNat % 64
def font (a : CellAttr) : Nat := a.a1.toNat / 64
def align (a : CellAttr) : Nat := a.a2.toNat % 8
/-- Bits 3 to 6: thin lines on the left, on the right, above and below; bit 7: shaded. -/
def bit (a : CellAttr) (k : Nat) : Bool := a.a2.toNat.testBit k

/-- The formatting that the attributes stand for, as an XF with number `i`. -/
def xf (a : CellAttr) (i : Nat) : XF :=
  { xfIndex := i, formatKey := a.format, fontIndex := a.font, cellLocked := a.locked, formulaHidden := a.hidden, horAlign := a.align,
    leftLineStyle := if a.bit 3 then 1 else 0, leftColourIndex := if a.bit 3 then 8 else 0,
    rightLineStyle := if a.bit 4 then 1 else 0, rightColourIndex := if a.bit 4 then 8 else 0,
    topLineStyle := if a.bit 5 then 1 else 0, topColourIndex := if a.bit 5 then 8 else 0,
    bottomLineStyle := if a.bit 6 then 1 else 0, bottomColourIndex := if a.bit 6 then 8 else 0,
    fillPattern := if a.bit 7 then 17 else 0, patternColourIndex := 8, backgroundColourIndex := 9,
    vertAlign := 2, parentStyleIndex := 0xFFF,
    formatFlag := 1, fontFlag := 1, alignmentFlag := 1, borderFlag := 1, backgroundFlag := 1, protectionFlag := 1 }
end CellAttr

/-- Attributes that say nothing but that the cell is locked. -/
def plainAttr : CellAttr := ⟨0x40, 0, 0⟩

/-- In a file without XF records the library makes up XFs.  The first sixteen stand for no attributes of the file, but the last of them serves the plain attributes, unless
these are the first to be used.  Other attributes get XFs of their own, in the order of their first use. -/
def ownXfs (as : List CellAttr) : List CellAttr := as.foldl (fun l a => if a ∈ l ∨ a = plainAttr ∧ l ≠ [] then l else l ++ [a]) []

/-- The number of the XF made up for attributes, `as` being all attributes in use. -/
def attrNumber (as : List CellAttr) (a : CellAttr) : Nat := if a ∈ ownXfs as then 16 + (ownXfs as).idxOf a else 15

/-- The default formatting of a row: none, attributes, or (in a record of 18 bytes) the number of an XF record. -/
inductive RowXf
  | no (tail : Bytes)
  | attr (p : UInt8 × UInt8) (a : CellAttr) (junk : Bytes)
  | index (p : Pad5) (x : Nat)

/-- What may stand in a worksheet of BIFF2. -/
inductive B2Item
  | number (r c : Nat) (a : CellAttr) (x : B64)
  | integer (r c : Nat) (a : CellAttr) (n : Nat)
  /-- `t` is written as the bytes `b` -/
  | label (r c : Nat) (a : CellAttr) (t : PyStr) (b junk : Bytes)
  | boolerr (r c : Nat) (a : CellAttr) (isErr : Bool) (v : UInt8)
  | blank (r c : Nat) (a : CellAttr) (junk : Bytes)
  | formula (r c : Nat) (a : CellAttr) (res : FResult) (code : Nat) (flags : UInt8) (junk : Bytes)
  | ixfe (x : Nat)
  | row (r : Nat) (p : Nat × Nat) (height : Nat) (defaultHeight : Bool) (q : Nat) (rest : Nat) (xf : RowXf)
  | colwidth (first last : UInt8) (w : Nat) (junk : Bytes)
  | coldefault (first : Nat) (as : List CellAttr) (junk : Bytes)
  /-- five options of the window, the first row and column shown, the colour of the grid lines -/
  | window (o : Pad5) (top left : Nat) (auto r g b : UInt8) (junk : Bytes)
  /-- a setting as in later versions -/
  | setting (x : SheetItem)

/-- The settings meant. -/
def SheetItem.isPlain : SheetItem → Bool
  | .zoom .. | .pane .. | .hbreaks .. | .vbreaks .. | .defcolwidth .. | .stdwidth .. | .defrowheight .. | .unknown .. => true
  | _ => false

def at2 (r c : Nat) (a : CellAttr) : Bytes := le16 r ++ le16 c ++ a.bytes

def RowXf.flag : RowXf → Nat
  | .no _ => 0
  | _ => 1

def RowXf.bytes : RowXf → Bytes
  | .no tail => tail
  | .attr p a junk => [p.1, p.2] ++ a.bytes ++ junk
  | .index p x => [p.1, p.2.1, p.2.2.1, p.2.2.2.1, p.2.2.2.2] ++ le16 x

def B2Item.records : B2Item → List (Nat × Bytes)
  | .number r c a x => [(0x3, at2 r c a ++ x.bytes)]
  | .integer r c a n => [(0x2, at2 r c a ++ le16 n)]
  | .label r c a _ b junk => [(0x4, at2 r c a ++ [UInt8.ofNat b.length] ++ b ++ junk)]
  | .boolerr r c a isErr v => [(0x5, at2 r c a ++ [v, if isErr then 1 else 0])]
  | .blank r c a junk => [(0x1, at2 r c a ++ junk)]
  | .formula r c a res code flags junk => (code, at2 r c a ++ res.bytes ++ [flags] ++ junk) :: res.records
  | .ixfe x => [(0x44, le16 x)]
  | .row r p h d q rest xf =>
      [(0x8, le16 r ++ le16 p.1 ++ le16 p.2 ++ le16 (h + 32768 * Spec.bit d) ++ le16 q ++ [UInt8.ofNat (xf.flag + 2 * rest)] ++ xf.bytes)]
  | .colwidth first last w junk => [(0x24, [first, last] ++ le16 w ++ junk)]
  | .coldefault first as junk => [(0x20, le16 first ++ le16 (first + as.length) ++ as.flatMap CellAttr.bytes ++ junk)]
  | .window o top left auto r g b junk =>
      [(0x3e, [o.1, o.2.1, o.2.2.1, o.2.2.2.1, o.2.2.2.2] ++ le16 top ++ le16 left ++ [auto, r, g, b] ++ junk)]
  | .setting x => x.records 21

def RowXf.Ok : RowXf → Prop
  | .attr _ _ junk => junk.length ≠ 2
  | .index _ x => x < 65536
  | .no _ => True

def B2Item.Ok (dec : Bytes → R PyStr) : B2Item → Prop
  | .number r c _ x => r < 65536 ∧ c < 65536 ∧ x.Ok
  | .integer r c _ n => r < 65536 ∧ c < 65536 ∧ n < 65536
  | .label r c _ t b _ => r < 65536 ∧ c < 65536 ∧ b.length < 256 ∧ dec b = .ok t
  | .boolerr r c _ _ _ => r < 65536 ∧ c < 65536
  | .blank r c _ _ => r < 65536 ∧ c < 65536
  | .formula r c _ res code _ _ => r < 65536 ∧ c < 65536 ∧ (code = 0x6 ∨ code = 0x206 ∨ code = 0x406) ∧ res.Ok 21 dec
  | .ixfe x => x < 65536
  | .row r p h _ q rest xf => r < 65536 ∧ p.1 < 65536 ∧ p.2 < 65536 ∧ h < 32768 ∧ q < 65536 ∧ rest < 128 ∧ xf.Ok
  | .colwidth _ _ w _ => w < 65536
  | .coldefault first as _ => first + as.length ≤ 256
  | .window _ top left _ _ _ _ _ => top < 65536 ∧ left < 65536
  | .setting x => x.isPlain = true ∧ x.OldOk 21 dec []

/-! ## What the items say -/

/-- Each item with the IXFE record in force. -/
def withIxfe : Option Nat → List B2Item → List (Option Nat × B2Item)
  | _, [] => []
  | i, .ixfe x :: rest => (i, .ixfe x) :: withIxfe (some x) rest
  | i, it :: rest => (i, it) :: withIxfe i rest

/-- The XF for the number `x` of a cell of Excel 2.1: 63 means the number in the IXFE record `i`. -/
def ixfeIndex (i : Option Nat) (x : Nat) : Nat := if x = 63 then i.getD 0 else x

/-- The attributes that an item refers to.  Blank cells, rows and columns count only with formatting information, rows only up to the limit of 16384. -/
def B2Item.attrs (fi : Bool) : B2Item → List CellAttr
  | .number _ _ a _ => [a]
  | .integer _ _ a _ => [a]
  | .label _ _ a _ _ _ => [a]
  | .boolerr _ _ a _ _ => [a]
  | .formula _ _ a _ _ _ _ => [a]
  | .blank _ _ a _ => if fi then [a] else []
  | .row r _ _ _ _ _ (.attr _ a _) => if fi ∧ r < 16384 then [a] else []
  | .coldefault _ as _ => if fi then as else []
  | _ => []

/-- The numbers of XF records that stand in ROW records and count. -/
def B2Item.rowNumbers (fi : Bool) : B2Item → List Nat
  | .row r _ _ _ _ _ (.index _ x) => if fi ∧ r < 16384 then [x] else []
  | _ => []

/-- The cells, `f` giving the XF index of attributes. -/
def B2Item.cells (fi : Bool) (f : CellAttr → Nat) : B2Item → List Write
  | .number r c a x => [⟨r, c, none, .num x.value, f a⟩]
  | .integer r c a n => [⟨r, c, none, .num (.fin n), f a⟩]
  | .label r c a t _ _ => [⟨r, c, some XL_CELL_TEXT, .text t, f a⟩]
  | .boolerr r c a isErr v => [⟨r, c, some (if isErr then XL_CELL_ERROR else XL_CELL_BOOLEAN), .int v.toNat, f a⟩]
  | .blank r c a _ => if fi then [⟨r, c, some XL_CELL_BLANK, .text [], f a⟩] else []
  | .formula r c a res _ _ _ => [⟨r, c, res.value.1, res.value.2, f a⟩]
  | _ => []

/-- The default XF index of a row, -1 for none. -/
def RowXf.xfIndex (f : CellAttr → Nat) (g : Nat → Nat) : RowXf → Int
  | .no _ => -1
  | .attr _ a _ => f a
  | .index _ x => g x

/-- The attributes of rows; `g` gives the XF index for a number in the record. -/
def B2Item.rows (fi : Bool) (f : CellAttr → Nat) (g : Nat → Nat) : B2Item → List (Nat × Rowinfo)
  | .row r _ h d _ _ xf => if fi ∧ r < 16384 then
      [(r, { height := h, hasDefaultHeight := Spec.bit d, hasDefaultXfIndex := xf.flag,
             xfIndex := xf.xfIndex f g,
             outlineLevel := 0, outlineGroupStartsEnds := 0, hidden := 0, heightMismatch := 0, additionalSpaceAbove := 0, additionalSpaceBelow := 0, unset := true })]
    else []
  | _ => []

/-- The widths of columns. -/
def B2Item.widths (fi : Bool) : B2Item → List (Nat × Nat)
  | .colwidth first last w _ => if fi then (List.range (last.toNat + 1 - first.toNat)).map fun k => (first.toNat + k, w) else []
  | _ => []

/-- The default XF indexes of columns. -/
def B2Item.defaults (fi : Bool) (f : CellAttr → Nat) : B2Item → List (Nat × Nat)
  | .coldefault first as _ => if fi then as.mapIdx fun k a => (first + k, f a) else []
  | _ => []

/-- The last entry for a key. -/
def lastEntry {α : Type} (l : List (Nat × α)) (k : Nat) : Option α := (l.reverse.find? (·.1 = k)).map Prod.snd

/-- The attributes of a column. -/
def colAt (widths defaults : List (Nat × Nat)) (c : Nat) : Option Colinfo :=
  match lastEntry widths c, lastEntry defaults c with
  | none, none => none
  | w, x => some { width := w.getD 0, xfIndex := (match x with | some x => (x : Int) | none => -1), hidden := 0, bit1Flag := 0, outlineLevel := 0, collapsed := 0 }

/-! ## A list of items -/

/-- The cells, `f` giving the XF index of attributes after an IXFE record. -/
def cellsB2 (fi : Bool) (f : Option Nat → CellAttr → Nat) (items : List B2Item) : List Write := (withIxfe none items).flatMap fun q => q.2.cells fi (f q.1)
def rowsB2 (fi : Bool) (f : Option Nat → CellAttr → Nat) (items : List B2Item) : List (Nat × Rowinfo) :=
  (withIxfe none items).flatMap fun q => q.2.rows fi (f q.1) (ixfeIndex q.1)
def widthsB2 (fi : Bool) (items : List B2Item) : List (Nat × Nat) := items.flatMap fun x => x.widths fi
def defaultsB2 (fi : Bool) (f : Option Nat → CellAttr → Nat) (items : List B2Item) : List (Nat × Nat) :=
  (withIxfe none items).flatMap fun q => q.2.defaults fi (f q.1)
/-- The attributes in use. -/
def attrsB2 (fi : Bool) (items : List B2Item) : List CellAttr := items.flatMap fun x => x.attrs fi
def settingsB2 (items : List B2Item) : List SheetItem := items.filterMap fun x => match x with | .setting y => some y | _ => none
/-- The first row and column shown, whether the colour of the grid lines is automatic, and this colour. -/
def windowsB2 (items : List B2Item) : List (Nat × Nat × Nat × Rgb) :=
  items.filterMap fun x => match x with | .window _ top left auto r g b _ => some (top, left, auto.toNat, (r.toNat, g.toNat, b.toNat)) | _ => none

/-! ## Files -/

/-- A worksheet item, a record about the whole file, or an EFONT record with a colour for the font of the last FONT record. -/
inductive B2Head
  | book (code : Nat) (data : Bytes)
  | item (x : B2Item)
  | efont (colour : Nat)

def B2Head.records : B2Head → List (Nat × Bytes)
  | .book c d => [(c, d)]
  | .item x => x.records
  | .efont c => [(0x45, le16 c)]

/-- The colours that EFONT records give to the fonts, in the order of the FONT records. -/
def addColour (cs : List (Option Nat)) : B2Head → List (Option Nat)
  | .book c _ => if c = fontCode 21 then cs ++ [none] else cs
  | .item _ => cs
  | .efont c => cs.dropLast ++ [some c]
def fontColours (head : List B2Head) : List (Option Nat) := head.foldl addColour []

structure B2File where
  head : List B2Head
  dim : DimRec
  body : List B2Item
  eof : Bytes

def B2File.records (F : B2File) : List (Nat × Bytes) :=
  F.head.flatMap B2Head.records ++ [(0x0, F.dim.bytes 21)] ++ F.body.flatMap B2Item.records ++ [(0xa, F.eof)]

def B2File.headItems (F : B2File) : List B2Item := F.head.filterMap fun i => match i with | .item x => some x | _ => none
/-- The records about the whole file. -/
def B2File.book (F : B2File) : List GItem := F.head.filterMap fun i => match i with | .book c d => some (.one c d) | _ => none
def B2File.items (F : B2File) : List B2Item := F.headItems ++ F.body

/-- Records that have nothing to do with XFs. -/
def B2Item.isFree : B2Item → Bool
  | .ixfe _ | .colwidth .. | .setting _ => true
  | _ => false

structure B2File.Ok (dec : Bytes → R PyStr) (F : B2File) : Prop where
  codes : ∀ c d, B2Head.book c d ∈ F.head → c ∈ bookCodes 21 ∧ c ≠ 0x293
  efonts : ∀ pre c post, F.head = pre ++ .efont c :: post → c < 65536 ∧ ∃ d, .book (fontCode 21) d ∈ pre
  free : ∀ x ∈ F.headItems, x.isFree = true
  items : ∀ x ∈ F.items, x.Ok dec
  short : ∀ q ∈ F.records, q.2.length < 65536

/-- A file of BIFF2: the BOF record of a worksheet, the records of `F`, then anything. -/
structure B2Workbook (dec : List GItem → Bytes → R PyStr) (file : Bytes) (F : B2File) : Prop where
  bytes : ∃ op bof rest, BofRecord 21 0x10 op bof ∧ file = encRec op bof ++ encRecs F.records ++ rest
  ok : F.Ok (dec F.book)

end Xlrd.Spec
