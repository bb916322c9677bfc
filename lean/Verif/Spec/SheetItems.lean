import Verif.Spec.SheetRecords
import Verif.Model.Access
import Verif.Spec.Drawing

/-!
# The records of a worksheet as a writer produces them

Everything between the BOF and the EOF record of a sheet, and what each record says.
-/
namespace Xlrd.Spec

/-- A ROW record.  `a`, `b`, `r1`, `r2`, `r3` are fields without meaning for the library. -/
structure RowRec where
  row : Nat
  a : Nat × Nat
  height : Nat
  defaultHeight : Bool
  b : Nat × Nat
  outline : Nat
  r1 : Bool
  groupEnd : Bool
  hidden : Bool
  mismatch : Bool
  hasXf : Bool
  r2 : Nat
  xf : Nat
  above : Bool
  below : Bool
  r3 : Nat

def RowRec.Ok (x : RowRec) : Prop :=
  x.row < 65536 ∧ x.a.1 < 65536 ∧ x.a.2 < 65536 ∧ x.height < 32768 ∧ x.b.1 < 65536 ∧ x.b.2 < 65536 ∧ x.outline < 8 ∧
  x.r2 < 256 ∧ x.xf < 4096 ∧ x.r3 < 4

def RowRec.bytes (x : RowRec) : Bytes :=
  le16 x.row ++ le16 x.a.1 ++ le16 x.a.2 ++ le16 (x.height + 32768 * bit x.defaultHeight) ++ le16 x.b.1 ++ le16 x.b.2 ++
  le16 (x.outline + 8 * bit x.r1 + 16 * bit x.groupEnd + 32 * bit x.hidden + 64 * bit x.mismatch + 128 * bit x.hasXf + 256 * x.r2) ++
  le16 (x.xf + 4096 * bit x.above + 8192 * bit x.below + 16384 * x.r3)

/-- The attributes of the row. -/
def RowRec.info (x : RowRec) : Rowinfo :=
  { height := x.height, hasDefaultHeight := bit x.defaultHeight, outlineLevel := x.outline,
    outlineGroupStartsEnds := bit x.groupEnd, hidden := bit x.hidden, heightMismatch := bit x.mismatch,
    hasDefaultXfIndex := bit x.hasXf, xfIndex := if x.hasXf then (x.xf : Int) else -1,
    additionalSpaceAbove := bit x.above, additionalSpaceBelow := bit x.below }

/-- A COLINFO record for the columns `first` to `last`. -/
structure ColRec where
  first : Nat
  last : Nat
  width : Nat
  xf : Nat
  hidden : Bool
  bit1 : Bool
  r1 : Nat
  outline : Nat
  r2 : Bool
  collapsed : Bool
  r3 : Nat
  junk : Bytes

def ColRec.Ok (x : ColRec) : Prop :=
  x.first < 65536 ∧ x.last < 65536 ∧ x.width < 65536 ∧ x.xf < 65536 ∧ x.r1 < 64 ∧ x.outline < 8 ∧ x.r3 < 8

def ColRec.bytes (x : ColRec) : Bytes :=
  le16 x.first ++ le16 x.last ++ le16 x.width ++ le16 x.xf ++
  le16 (bit x.hidden + 2 * bit x.bit1 + 4 * x.r1 + 256 * x.outline + 2048 * bit x.r2 + 4096 * bit x.collapsed + 8192 * x.r3) ++ x.junk

def ColRec.info (x : ColRec) : Colinfo :=
  { width := x.width, xfIndex := (x.xf : Int), hidden := bit x.hidden, bit1Flag := bit x.bit1, outlineLevel := x.outline,
    collapsed := bit x.collapsed }

/-- The record gives attributes to column `c`: a record whose column range is not within 0..256 is
ignored, and a sheet has 256 columns. -/
def ColRec.covers (x : ColRec) (c : Int) : Prop := x.first ≤ x.last ∧ x.last ≤ 256 ∧ (x.first : Int) ≤ c ∧ c ≤ x.last ∧ c ≤ 255

instance (x : ColRec) (c : Int) : Decidable (x.covers c) := by unfold ColRec.covers; infer_instance

/-- A WINDOW2 record: twelve options, and four bits without meaning. -/
structure WinRec where
  options : List Bool
  rest : Nat
  row : Nat
  col : Nat
  /-- BIFF8: colour index, unused field and the two magnifications; before: red, green and blue -/
  tail : (Nat × Nat × Nat × Nat) ⊕ (UInt8 × UInt8 × UInt8)
  junk : Bytes

def WinRec.bytes (x : WinRec) : Bytes :=
  le16 (ofBits x.options + 4096 * x.rest) ++ le16 x.row ++ le16 x.col ++
  (match x.tail with
   | .inl (i, u, pb, nv) => le16 i ++ le16 u ++ le16 pb ++ le16 nv
   | .inr (r, g, b) => [r, g, b]) ++ x.junk

def WinRec.Ok (bv : Nat) (x : WinRec) : Prop :=
  x.options.length = 12 ∧ x.rest < 16 ∧ x.row < 65536 ∧ x.col < 65536 ∧
  (match x.tail with
   | .inl (i, u, pb, nv) => 80 ≤ bv ∧ i < 65536 ∧ u < 65536 ∧ pb < 65536 ∧ nv < 65536
   | .inr _ => bv < 80 ∨ x.junk.length < 5)

/-- Page breaks: from BIFF8 on with the first and last cell, before over the whole width or height. -/
def encBreaks (bv : Nat) (bs : List (Nat × Nat × Nat)) : Bytes :=
  le16 bs.length ++ bs.flatMap fun b => if 80 ≤ bv then le16 b.1 ++ le16 b.2.1 ++ le16 b.2.2 else le16 b.1

def breaksOk (bv last : Nat) (bs : List (Nat × Nat × Nat)) : Prop :=
  bs.length < 65536 ∧ ∀ b ∈ bs, b.1 < 65536 ∧ (if 80 ≤ bv then b.2.1 < 65536 ∧ b.2.2 < 65536 else b.2 = (0, last))

def encRects (rs : List Rect) : Bytes := le16 rs.length ++ rs.flatMap (encRange 8)

def rectsOk (rs : List Rect) : Prop :=
  rs.length < 65536 ∧ ∀ r ∈ rs, r.1 < 65536 ∧ r.2.1 < 65536 ∧ r.2.2.1 < 65536 ∧ r.2.2.2 < 65536

/-- As the library reports a range: upper bounds exclusive. -/
def Rect.half (r : Rect) : Nat × Nat × Nat × Nat := (r.1, r.2.1 + 1, r.2.2.1, r.2.2.2 + 1)

/-- Codes of cell records, of records with their own constructor below, and of records that read on. -/
def specialCodes : List Nat :=
  [0x203, 0xfd, 0x204, 0xd6, 0x27e, 0xbd, 0x205, 0x201, 0xbe, 0x6, 0x206, 0x406,        -- cells
   0x208, 0x7d, 0xe5, 0x23e, 0xa0, 0x41, 0x1b, 0x1a, 0xab, 0x55, 0x99, 0x225, 0x15f,
   0x200, 0x0, 0xa, 0x9, 0x209, 0x409, 0x809,
   0x221, 0x4bc, 0x1b0, 0x1b1,
   0x1b8, 0x800, 0x5d, 0xec, 0x1b6, 0x1c, 0x872, 0x8c]

inductive SheetItem
  | cell (x : CellRec)
  | row (x : RowRec) (junk : Bytes)
  | col (x : ColRec)
  | merged (rs : List Rect)
  | window (x : WinRec)
  | zoom (num den : Nat)
  | pane (vpos hpos hfirst vfirst : Nat) (active : UInt8) (junk : Bytes)
  | hbreaks (bs : List (Nat × Nat × Nat))
  | vbreaks (bs : List (Nat × Nat × Nat))
  /-- 256 column flags -/
  | gcw (flags : List Bool)
  | defcolwidth (w : Nat) (junk : Bytes)
  | stdwidth (w : Nat) (junk : Bytes)
  | defrowheight (mismatch hidden above below : Bool) (rest height : Nat)
  | labels (rows cols : List Rect)
  /-- a record unknown to the library -/
  | unknown (code : Nat) (data : Bytes)
  /-- hyperlinks, notes, drawings, conditional formats, array and shared formulas -/
  | extra (x : ExtraRec)
  /-- an embedded substream such as a chart -/
  | embedded (code : Nat) (data : Bytes) (body : List (Nat × Bytes)) (eof : Bytes)

/-- Eight bits to a byte, lowest first. -/
def packBits : List Bool → Bytes
  | a :: b :: c :: d :: e :: f :: g :: h :: r => UInt8.ofNat (ofBits [a, b, c, d, e, f, g, h]) :: packBits r
  | _ => []

def SheetItem.records (bv : Nat) : SheetItem → List (Nat × Bytes)
  | .cell x => x.records bv
  | .row x junk => [(0x208, x.bytes ++ junk)]
  | .col x => [(0x7d, x.bytes)]
  | .merged rs => [(0xe5, encRects rs)]
  | .window x => [(0x23e, x.bytes)]
  | .zoom n d => [(0xa0, le16 n ++ le16 d)]
  | .pane v h hf vf a junk => [(0x41, le16 v ++ le16 h ++ le16 hf ++ le16 vf ++ [a] ++ junk)]
  | .hbreaks bs => [(0x1b, encBreaks bv bs)]
  | .vbreaks bs => [(0x1a, encBreaks bv bs)]
  | .gcw fs => [(0xab, [0x20, 0x00] ++ packBits fs)]
  | .defcolwidth w junk => [(0x55, le16 w ++ junk)]
  | .stdwidth w junk => [(0x99, le16 w ++ junk)]
  | .defrowheight m h a b rest ht => [(0x225, le16 (bit m + 2 * bit h + 4 * bit a + 8 * bit b + 16 * rest) ++ le16 ht)]
  | .labels rs cs => [(0x15f, encRects rs ++ encRects cs)]
  | .unknown c d => [(c, d)]
  | .extra x => x.records
  | .embedded c d body eof => (c, d) :: body ++ [(0xa, eof)]

def SheetItem.Ok (bv : Nat) (dec : Bytes → R PyStr) (sst : List PyStr) : SheetItem → Prop
  | .cell x => x.Ok bv dec sst
  | .row x _ => x.Ok
  | .col x => x.Ok
  | .merged rs => rectsOk rs
  | .window x => x.Ok bv
  | .zoom n d => n < 65536 ∧ d < 65536
  | .pane v h hf vf _ _ => v < 65536 ∧ h < 65536 ∧ hf < 65536 ∧ vf < 65536
  | .hbreaks bs => breaksOk bv 255 bs
  | .vbreaks bs => breaksOk bv 65535 bs
  | .gcw fs => fs.length = 256
  | .defcolwidth w _ => w < 65536
  | .stdwidth w _ => w < 65536
  | .defrowheight _ _ _ _ rest ht => rest < 4096 ∧ ht < 65536
  | .labels rs cs => rectsOk rs ∧ rectsOk cs
  | .unknown c _ => c < 65536 ∧ c ∉ specialCodes
  | .extra x => x.Ok bv dec
  | .embedded c d body _ => c ∈ [0x9, 0x209, 0x409, 0x809] ∧ 4 ≤ d.length ∧ ∀ q ∈ body, q.1 < 65536 ∧ q.1 ≠ 0xa

/-- No payload is longer than the 16-bit length field can say. -/
def SheetItem.Short (bv : Nat) (x : SheetItem) : Prop := ∀ q ∈ x.records bv, q.2.length < 65536

/-- A DIMENSION record. -/
structure DimRec where
  r0 : Nat
  r1 : Nat
  c0 : Nat
  c1 : Nat
  junk : Bytes

def DimRec.bytes (bv : Nat) (x : DimRec) : Bytes :=
  if 80 ≤ bv then le32 x.r0 ++ le32 x.r1 ++ le16 x.c0 ++ le16 x.c1 ++ x.junk
  else le16 x.r0 ++ le16 x.r1 ++ le16 x.c0 ++ le16 x.c1 ++ x.junk

def SheetItem.isCell : SheetItem → Bool
  | .cell _ => true
  | _ => false

/-- A worksheet: settings, perhaps a DIMENSION record, cells and further settings, the end mark. -/
structure Layout where
  head : List SheetItem
  dim : Option DimRec
  body : List SheetItem
  eof : Bytes

def Layout.items (x : Layout) : List SheetItem := x.head ++ x.body

def Layout.dimRecords (bv : Nat) (x : Layout) : List (Nat × Bytes) :=
  match x.dim with | some d => [(0x200, d.bytes bv)] | none => []

def Layout.records (bv : Nat) (x : Layout) : List (Nat × Bytes) :=
  x.head.flatMap (·.records bv) ++ x.dimRecords bv ++
  x.body.flatMap (·.records bv) ++ [(0xa, x.eof)]

/-- The records are well formed, no cell comes before the DIMENSION record, and every length fits. -/
def Layout.Ok (bv : Nat) (dec : Bytes → R PyStr) (sst : List PyStr) (x : Layout) : Prop :=
  (∀ i ∈ x.items, i.Ok bv dec sst) ∧ (∀ i ∈ x.head, i.isCell = false) ∧ ∀ q ∈ x.records bv, q.2.length < 65536

/-- The cells of a sheet. -/
def cellsOf (fl : ℚ → ℚ) (fmtInfo : Bool) (sst : List PyStr) (items : List SheetItem) : List Write :=
  items.flatMap fun i => match i with | .cell x => x.cells fl fmtInfo sst | _ => []

def rowsOf (items : List SheetItem) : List RowRec := items.filterMap fun i => match i with | .row x _ => some x | _ => none
def colsOf (items : List SheetItem) : List ColRec := items.filterMap fun i => match i with | .col x => some x | _ => none
/-- The runs of formatted text, by position (row, column); `richMap` gives those of the shared strings. -/
def richOf (fmtInfo : Bool) (richMap : Int → Option (List (Nat × Nat))) (items : List SheetItem) : List ((Nat × Nat) × List (Nat × Nat)) :=
  items.filterMap fun i => match i with
    | .cell (.labelsst r c _ k) =>
        if fmtInfo then (match richMap k with | some (x :: xs) => some ((r, c), x :: xs) | _ => none) else none
    | .cell (.rstring r c _ _ _ runs) => some ((r, c), runs)
    | _ => none

def extrasOf (items : List SheetItem) : List ExtraRec := items.filterMap fun i => match i with | .extra x => some x | _ => none
def mergedOf (items : List SheetItem) : List Rect := items.flatMap fun i => match i with | .merged rs => rs | _ => []
def windowsOf (items : List SheetItem) : List WinRec := items.filterMap fun i => match i with | .window x => some x | _ => none
def zoomsOf (items : List SheetItem) : List (Nat × Nat) := items.filterMap fun i => match i with | .zoom n d => some (n, d) | _ => none
def hbreaksOf (items : List SheetItem) : List (Nat × Nat × Nat) := items.flatMap fun i => match i with | .hbreaks bs => bs | _ => []
def vbreaksOf (items : List SheetItem) : List (Nat × Nat × Nat) := items.flatMap fun i => match i with | .vbreaks bs => bs | _ => []
def rowLabelsOf (items : List SheetItem) : List Rect := items.flatMap fun i => match i with | .labels rs _ => rs | _ => []
def colLabelsOf (items : List SheetItem) : List Rect := items.flatMap fun i => match i with | .labels _ cs => cs | _ => []

end Xlrd.Spec
