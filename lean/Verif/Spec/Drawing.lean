import Verif.Spec.SheetRecords
import Verif.Model.Drawing

/-!
# Hyperlinks, notes and drawing records of a worksheet as a writer produces them

From the published layout of the records; independent of the decoding code except for the types of the results.
-/
namespace Xlrd.Spec

def bit (b : Bool) : Nat := if b then 1 else 0

/-- The number with these bits, lowest first. -/
def ofBits : List Bool → Nat
  | [] => 0
  | b :: bs => bit b + 2 * ofBits bs

/-- Cell ranges (first row, last row, first column, last column). -/
abbrev Rect := Nat × Nat × Nat × Nat

def rectOk (r : Rect) : Prop := r.1 < 65536 ∧ r.2.1 < 65536 ∧ r.2.2.1 < 65536 ∧ r.2.2.2 < 65536

def Rect.Has (r : Rect) (row col : Nat) : Prop := r.1 ≤ row ∧ row ≤ r.2.1 ∧ r.2.2.1 ≤ col ∧ col ≤ r.2.2.2

instance (r : Rect) (row col : Nat) : Decidable (r.Has row col) := by unfold Rect.Has; infer_instance

/-! ## Hyperlinks -/

def wide (t : PyStr) : Bytes := (utf16 t).flatMap le16

/-- A text with its length in units and a terminating zero. -/
def nulText (t : PyStr) : Bytes := le32 ((utf16 t).length + 1) ++ wide t ++ [0, 0]

/-- Where a hyperlink leads. -/
inductive LinkDest
  /-- a URL, with up to 24 bytes after it -/
  | url (t : PyStr) (more : PyStr)
  /-- a file: levels up, short name, 24 reserved bytes, perhaps the full name with its size and key fields -/
  | file (up : Nat) (short : Bytes) (reserved : Bytes) (full : Option (PyStr × Nat × Nat))
  /-- a network path -/
  | unc (t : PyStr)
  /-- a place in the workbook -/
  | place

/-- A HLINK record.  `desc` comes with the two flags that announce it. -/
structure LinkRec where
  range : Rect
  absolute : Bool
  desc : Option (PyStr × Bool × Bool)
  target : Option PyStr
  dest : LinkDest
  textmark : Option PyStr
  guid : Bool
  time : Bool
  rest : Nat
  junk : Bytes

def LinkDest.moniker : LinkDest → Bool
  | .place => false
  | _ => true

def LinkDest.asString : LinkDest → Bool
  | .unc _ => true
  | _ => false

/-- The option bits. -/
def LinkRec.options (x : LinkRec) : Nat :=
  ofBits [x.dest.moniker, x.absolute, (x.desc.map fun d => d.2.1).getD false, x.textmark.isSome, (x.desc.map fun d => d.2.2).getD false,
    x.guid, x.time, x.target.isSome, x.dest.asString] + 512 * x.rest

/-- The class identifiers of hyperlinks, URL monikers and file monikers:
79EAC9D0-BAF9-11CE-8C82-00AA004BA90B, 79EAC9E0-BAF9-11CE-8C82-00AA004BA90B and 00000303-0000-0000-C000-000000000046. -/
def classLink : Bytes := [0xD0, 0xC9, 0xEA, 0x79, 0xF9, 0xBA, 0xCE, 0x11, 0x8C, 0x82, 0x00, 0xAA, 0x00, 0x4B, 0xA9, 0x0B]
def classUrl : Bytes := [0xE0, 0xC9, 0xEA, 0x79, 0xF9, 0xBA, 0xCE, 0x11, 0x8C, 0x82, 0x00, 0xAA, 0x00, 0x4B, 0xA9, 0x0B]
def classFile : Bytes := [0x03, 0x03, 0x00, 0x00, 0x00, 0x00, 0x00, 0x00, 0xC0, 0x00, 0x00, 0x00, 0x00, 0x00, 0x00, 0x46]

def LinkDest.bytes : LinkDest → Bytes
  | .url t more => classUrl ++ le32 (2 * ((utf16 t).length + 1 + (utf16 more).length)) ++ wide t ++ [0, 0] ++ wide more
  | .file up short reserved full =>
      classFile ++ le16 up ++ le32 (short.length + 1) ++ short ++ [0] ++ reserved ++
      (match full with
       | none => le32 0
       | some (t, sz, key) => le32 sz ++ le32 (2 * (utf16 t).length) ++ le16 key ++ wide t)
  | .unc t => nulText t
  | .place => []

def optText : Option PyStr → Bytes
  | some t => nulText t
  | none => []

def LinkRec.bytes (x : LinkRec) : Bytes :=
  le16 x.range.1 ++ le16 x.range.2.1 ++ le16 x.range.2.2.1 ++ le16 x.range.2.2.2 ++ classLink ++ le32 2 ++ le32 x.options ++
  optText (x.desc.map Prod.fst) ++ optText x.target ++ x.dest.bytes ++ optText x.textmark ++ x.junk

/-- The destination is well formed.  A URL is terminated by its first zero, and has no character beyond the basic plane (see
C71); what follows it is 24 bytes that decode as text, or nothing. -/
def LinkDest.Ok : LinkDest → Prop
  | .url t more => Bmp t ∧ '\x00' ∉ t ∧ (more = [] ∨ (utf16 more).length = 12)
  | .file up _ reserved full => up < 65536 ∧ reserved.length = 24 ∧
      ∀ q, full = some q → q.2.1 < 2147483648 ∧ q.2.1 ≠ 0 ∧ q.2.2 < 65536
  | _ => True

/-- The record is well formed; the flags of a network path or of a place in the workbook are those that Excel writes. -/
structure LinkRec.Ok (x : LinkRec) : Prop where
  range : rectOk x.range
  desc : ∀ q, x.desc = some q → q.2 ≠ (false, false)
  rest : x.rest < 2 ^ 23
  dest : x.dest.Ok
  unc : ∀ t, x.dest = .unc t → x.absolute = true ∧ x.guid = false ∧ x.time = false
  place : x.dest = .place → x.textmark.isSome = true ∧ x.absolute = false ∧ x.guid = false ∧ x.time = false

/-- The kind of link. -/
def LinkDest.kind : LinkDest → PyStr
  | .url .. => "url".toList
  | .file .. => "local file".toList
  | .unc .. => "unc".toList
  | .place => "workbook".toList

/-- `..\` for each level up. -/
def upPath : Nat → Bytes
  | 0 => []
  | n + 1 => [0x2E, 0x2E, 0x5C] ++ upPath n

/-- The URL or path. -/
def LinkDest.path : LinkDest → Option LinkPath
  | .url t _ => some (.text t)
  | .file up short _ none => some (.raw (upPath up ++ short))
  | .file _ _ _ (some q) => some (.text q.1)
  | .unc t => some (.text t)
  | .place => none

/-- What the library should report for a link, with the text of its tip. -/
def LinkRec.value (x : LinkRec) (tip : Option PyStr) : Hyperlink :=
  { frowx := x.range.1, lrowx := x.range.2.1, fcolx := x.range.2.2.1, lcolx := x.range.2.2.2, type := some x.dest.kind,
    urlOrPath := x.dest.path, desc := x.desc.map Prod.fst, target := x.target, textmark := x.textmark, quicktip := tip }

/-- A QUICKTIP record for a range. -/
def tipBytes (r : Rect) (t : PyStr) : Bytes :=
  le16 0x800 ++ le16 r.1 ++ le16 r.2.1 ++ le16 r.2.2.1 ++ le16 r.2.2.2 ++ wide t ++ [0, 0]

/-! ## Drawing objects and notes -/

/-- How an OBJ record ends: with the record, with zeros, or with the list of an autofilter. -/
inductive ObjEnd
  | done
  | zeros (n : Nat)
  | list (size : Nat) (junk : Bytes)

/-- An OBJ record: kind, number, flags, 12 reserved bytes, further parts with their type. -/
structure ObjRec where
  kind : Nat
  id : Nat
  flags : Nat
  reserved : Bytes
  parts : List (Nat × Bytes)
  ending : ObjEnd

def ObjEnd.bytes : ObjEnd → Bytes
  | .done => []
  | .zeros n => List.replicate n 0
  | .list n junk => le16 0x13 ++ le16 n ++ junk

def ObjRec.bytes (x : ObjRec) : Bytes :=
  le16 0x15 ++ le16 18 ++ le16 x.kind ++ le16 x.id ++ le16 x.flags ++ x.reserved ++
  encRecs x.parts ++ x.ending.bytes

structure ObjRec.Ok (x : ObjRec) : Prop where
  kind : x.kind < 65536
  id : x.id < 65536
  flags : x.flags < 65536
  reserved : x.reserved.length = 12
  parts : ∀ q ∈ x.parts, q.1 < 65536 ∧ q.1 ≠ 0 ∧ q.1 ≠ 0x15 ∧ q.2.length < 65536 ∧ (q.1 = 0x0C → 14 ≤ q.2.length) ∧
    (q.1 = 0x13 → x.flags / 256 % 2 = 0)
  ending : match x.ending with | .done => True | .zeros n => 4 ≤ n | .list n _ => n < 65536 ∧ x.flags / 256 % 2 = 1

/-- A piece of the text of a text box: in 8-bit or 16-bit characters. -/
structure Piece where
  text : PyStr
  wide : Bool

def Piece.bytes (p : Piece) : Bytes := (if p.wide then 1 else 0) :: encUnits p.wide (utf16 p.text)

/-- A formatting run: where it starts, its font, and 4 reserved bytes. -/
structure BoxRun where
  start : Nat
  font : Nat
  reserved : Nat

def BoxRun.bytes (r : BoxRun) : Bytes := le16 r.start ++ le16 r.font ++ le32 r.reserved

/-- A text box: an OBJ record, drawing records, a TXO record, CONTINUE records with the text and with the runs. -/
structure BoxRec where
  obj : ObjRec
  drawings : List Bytes
  flags : Nat
  rotation : Nat
  control : Bytes
  font : Nat
  formula : Bytes
  pieces : List Piece
  runs : List (List BoxRun)

def BoxRec.text (x : BoxRec) : PyStr := (x.pieces.map Piece.text).flatten

def BoxRec.txo (x : BoxRec) : Bytes :=
  le16 x.flags ++ le16 x.rotation ++ x.control ++ le16 (utf16 x.text).length ++ le16 (8 * x.runs.flatten.length) ++ le16 x.font ++ x.formula

def BoxRec.records (x : BoxRec) : List (Nat × Bytes) :=
  (0x5d, x.obj.bytes) :: x.drawings.map (fun d => (0xec, d)) ++ [(0x1b6, x.txo)] ++ x.pieces.map (fun p => (0x3c, p.bytes)) ++
  x.runs.map fun rs => (0x3c, rs.flatMap BoxRun.bytes)

structure BoxRec.Ok (x : BoxRec) : Prop where
  obj : x.obj.Ok
  id : x.obj.id ≠ 0
  flags : x.flags < 65536
  rotation : x.rotation < 65536
  control : x.control.length = 6
  font : x.font < 65536
  pieces : ∀ p ∈ x.pieces, p.text ≠ [] ∧ Fits p.wide (utf16 p.text)
  runs : ∀ rs ∈ x.runs, rs ≠ [] ∧ ∀ r ∈ rs, r.start < 65536 ∧ r.font < 65536 ∧ r.reserved < 4294967296
  text : (utf16 x.text).length < 65536
  runCount : 8 * x.runs.flatten.length < 65536

/-- Runs without those at the end that start where the text ends. -/
inductive Trimmed (n : Nat) : List (Nat × Nat) → List (Nat × Nat) → Prop
  | keep (rs : List (Nat × Nat)) : (∀ r, rs.getLast? = some r → r.1 ≠ n) → Trimmed n rs rs
  | drop (rs out : List (Nat × Nat)) (f : Nat) : Trimmed n rs out → Trimmed n (rs ++ [(n, f)]) out

/-- A NOTE record: of BIFF8 with the number of its text box, before with the text in the file's codec, split over further
NOTE records. -/
inductive NoteRec
  | boxed (row col flags obj : Nat) (author : UStr) (pad : Option UInt8)
  | plain (row col : Nat) (text : PyStr) (first : Bytes) (more : List (Nat × Bytes))

def NoteRec.records : NoteRec → List (Nat × Bytes)
  | .boxed row col flags obj author pad =>
      [(0x1c, le16 row ++ le16 col ++ le16 flags ++ le16 obj ++ le16 (utf16 author.text).length ++ author.body ++ pad.toList)]
  | .plain row col _ first more =>
      (0x1c, le16 row ++ le16 col ++ le16 (first.length + (more.map fun q => q.2.length).sum) ++ first) ::
      more.map fun q => (0x1c, le16 0xFFFF ++ le16 q.1 ++ le16 q.2.length ++ q.2)

def NoteRec.Ok (bv : Nat) (dec : Bytes → R PyStr) : NoteRec → Prop
  | .boxed row col flags obj author _ =>
      80 ≤ bv ∧ row < 65536 ∧ col < 65536 ∧ flags < 65536 ∧ obj < 65536 ∧ author.Ok ∧ (utf16 author.text).length < 65536
  | .plain row col text first more =>
      bv < 80 ∧ row < 65536 ∧ col < 65536 ∧ first.length + (more.map fun q => q.2.length).sum < 65536 ∧
      (∀ q ∈ more, q.1 < 65536 ∧ q.2 ≠ []) ∧ dec (first ++ more.flatMap Prod.snd) = .ok text

/-! ## Conditional formats -/

/-- A CF record. -/
structure CfRec where
  kind : Nat
  low : Nat
  hasFont : Bool
  bit27 : Bool
  hasBorder : Bool
  hasPattern : Bool
  high : Nat
  unused : Nat
  font : Bytes
  border : Bytes
  pattern : Bytes
  formula1 : Bytes
  formula2 : Bytes

def CfRec.flags (x : CfRec) : Nat :=
  x.low + 2 ^ 26 * ofBits [x.hasFont, x.bit27, x.hasBorder, x.hasPattern] + 2 ^ 30 * x.high

def CfRec.bytes (x : CfRec) : Bytes :=
  le16 x.kind ++ le16 x.formula1.length ++ le16 x.formula2.length ++ le32 x.flags ++ le16 x.unused ++ x.font ++ x.border ++ x.pattern ++
  x.formula1 ++ x.formula2

structure CfRec.Ok (x : CfRec) : Prop where
  low : x.low < 2 ^ 26
  high : x.high < 4
  font : x.font.length = if x.hasFont then 118 else 0
  border : x.border.length = if x.hasBorder then 8 else 0
  pattern : x.pattern.length = if x.hasPattern then 4 else 0
  formula1 : x.formula1.length < 65536
  formula2 : x.formula2.length < 65536

/-! ## All of them -/

inductive ExtraRec
  | link (x : LinkRec) (tip : Option PyStr)
  | shape (x : ObjRec)
  /-- an OBJ record before BIFF8 -/
  | oldShape (data : Bytes)
  | drawing (data : Bytes)
  | box (x : BoxRec)
  | note (x : NoteRec)
  | feat11 (data : Bytes)
  | array (data : Bytes)
  | shared (data : Bytes)
  | condfmt (head : Bytes) (ranges : List Rect) (junk : Bytes)
  | cf (x : CfRec)

def ExtraRec.records : ExtraRec → List (Nat × Bytes)
  | .link x tip => (0x1b8, x.bytes) :: (tip.map fun t => (0x800, tipBytes x.range t)).toList
  | .shape x => [(0x5d, x.bytes)]
  | .oldShape d => [(0x5d, d)]
  | .drawing d => [(0xec, d)]
  | .box x => x.records
  | .note x => x.records
  | .feat11 d => [(0x872, d)]
  | .array d => [(0x221, d)]
  | .shared d => [(0x4bc, d)]
  | .condfmt head rs junk => [(0x1b0, head ++ le16 rs.length ++ rs.flatMap (encRange 8) ++ junk)]
  | .cf x => [(0x1b1, x.bytes)]

def ExtraRec.Ok (bv : Nat) (dec : Bytes → R PyStr) : ExtraRec → Prop
  | .link x _ => x.Ok
  | .shape x => 80 ≤ bv ∧ x.Ok
  | .oldShape _ => bv < 80
  | .box x => 80 ≤ bv ∧ x.Ok
  | .note x => x.Ok bv dec
  | .array d => 14 ≤ d.length
  | .shared d => 10 ≤ d.length
  | .condfmt head rs _ => 80 ≤ bv ∧ head.length = 12 ∧ rs.length < 65536 ∧ ∀ r ∈ rs, rectOk r
  | .cf x => x.Ok
  | _ => True

/-- The hyperlinks, in order. -/
def linksOf (xs : List ExtraRec) : List Hyperlink :=
  xs.filterMap fun x => match x with | .link y tip => some (y.value tip) | _ => none

/-- The last hyperlink on a cell. -/
def linkAt (xs : List ExtraRec) (row col : Nat) : Option Hyperlink :=
  ((linksOf xs).filter fun h => Rect.Has (h.frowx, h.lrowx, h.fcolx, h.lcolx) row col).getLast?

/-- The last text box with a number. -/
def boxWith (boxes : List BoxRec) (id : Nat) : Option BoxRec := (boxes.filter fun b => b.obj.id = id).getLast?

/-- `n` is the note of a NOTE record after the text boxes `boxes`. -/
inductive IsNote (boxes : List BoxRec) : NoteRec → Note → Prop
  | boxed (row col flags obj : Nat) (author : UStr) (pad : Option UInt8) (b : BoxRec) (runs : List (Nat × Nat)) :
      boxWith boxes obj = some b → Trimmed (utf16 b.text).length (b.runs.flatten.map fun r => (r.start, r.font)) runs →
      IsNote boxes (.boxed row col flags obj author pad)
        ⟨row, col, b.text, runs, author.text, flags / 2 % 2, flags / 128 % 2, flags / 256 % 2⟩
  | plain (row col : Nat) (text : PyStr) (first : Bytes) (more : List (Nat × Bytes)) :
      IsNote boxes (.plain row col text first more) ⟨row, col, text, [(0, 0)], [], 0, 0, 0⟩

/-- The notes of a sheet in the order of their records, after the text boxes `boxes`.  A note without a text box is none. -/
inductive NotesOf : List BoxRec → List ExtraRec → List Note → Prop
  | nil (boxes : List BoxRec) : NotesOf boxes [] []
  | box (boxes : List BoxRec) (b : BoxRec) (xs : List ExtraRec) (ns : List Note) :
      NotesOf (boxes ++ [b]) xs ns → NotesOf boxes (.box b :: xs) ns
  | note (boxes : List BoxRec) (x : NoteRec) (n : Note) (xs : List ExtraRec) (ns : List Note) :
      IsNote boxes x n → NotesOf boxes xs ns → NotesOf boxes (.note x :: xs) (n :: ns)
  | lost (boxes : List BoxRec) (row col flags obj : Nat) (author : UStr) (pad : Option UInt8) (xs : List ExtraRec) (ns : List Note) :
      (∀ b ∈ boxes, b.obj.id ≠ obj) → NotesOf boxes xs ns → NotesOf boxes (.note (.boxed row col flags obj author pad) :: xs) ns
  | other (boxes : List BoxRec) (x : ExtraRec) (xs : List ExtraRec) (ns : List Note) :
      (∀ b, x ≠ .box b) → (∀ n, x ≠ .note n) → NotesOf boxes xs ns → NotesOf boxes (x :: xs) ns

/-- The last note at a cell. -/
def noteAt (ns : List Note) (row col : Nat) : Option Note := (ns.filter fun n => n.rowx = row ∧ n.colx = col).getLast?

end Xlrd.Spec
