import Verif.Spec.CompDoc
import Verif.Spec.Directory
import Verif.Spec.Strings

/-!
# A compound document as it is stored

The header, the allocation tables, the directory and the streams, as a writer lays them out.  Fields that a reader does not need are free.
-/
namespace Xlrd.Spec

/-- Signed 32-bit numbers. -/
def sle32 (i : Int) : Bytes := le32 (i % 4294967296).toNat
def IsInt32 (i : Int) : Prop := -2147483648 ≤ i ∧ i < 2147483648
def encInts (l : List Int) : Bytes := l.flatMap sle32

/-- The header.  `extFirst` and `extCount` are about the sectors that extend the master table, of which the header has the first 109 entries. -/
structure Header where
  clsid : Bytes
  revision : Nat
  version : Nat
  sectorExp : Nat
  shortExp : Nat
  misc : Bytes
  satCount : Nat
  dirFirst : Int
  misc2 : Bytes
  minSize : Nat
  ssatFirst : Int
  ssatCount : Nat
  extFirst : Int
  extCount : Nat
  msat : List Int

def Header.enc (h : Header) : Bytes :=
  [0xD0, 0xCF, 0x11, 0xE0, 0xA1, 0xB1, 0x1A, 0xE1] ++ h.clsid ++ le16 h.revision ++ le16 h.version ++ [0xFE, 0xFF] ++
    le16 h.sectorExp ++ le16 h.shortExp ++ h.misc ++ le32 h.satCount ++ sle32 h.dirFirst ++ h.misc2 ++ le32 h.minSize ++
    sle32 h.ssatFirst ++ le32 h.ssatCount ++ sle32 h.extFirst ++ le32 h.extCount ++ encInts h.msat

/-- The size of a sector and of a short sector. -/
def Header.sec (h : Header) : Nat := 2 ^ h.sectorExp
def Header.shortSec (h : Header) : Nat := 2 ^ h.shortExp

structure Header.Ok (h : Header) : Prop where
  clsid : h.clsid.length = 16
  misc : h.misc.length = 10
  misc2 : h.misc2.length = 4
  expLo : 3 ≤ h.sectorExp
  expHi : h.sectorExp ≤ 20
  short : h.shortExp ≤ h.sectorExp
  dirFirst : IsInt32 h.dirFirst
  minSize : h.minSize < 2147483648
  ssatFirst : IsInt32 h.ssatFirst
  ssatCount : h.ssatCount < 2147483648
  extFirst : IsInt32 h.extFirst
  extCount : h.extCount < 2147483648
  msatLen : h.msat.length = 109
  msat : ∀ i ∈ h.msat, IsInt32 i

/-- A directory entry: kind 1 is a storage, 2 a stream, 5 the root. -/
structure Entry where
  name : PyStr
  nameSize : Nat
  pad : Bytes
  kind : UInt8
  colour : UInt8
  left : Int
  right : Int
  child : Int
  misc : Bytes
  stamps : Bytes
  first : Int
  size : Nat
  tail : Bytes

def Entry.enc (e : Entry) : Bytes :=
  (utf16 e.name).flatMap le16 ++ e.pad ++ le16 e.nameSize ++ [e.kind, e.colour] ++ sle32 e.left ++ sle32 e.right ++ sle32 e.child ++ e.misc ++
    e.stamps ++ sle32 e.first ++ le32 e.size ++ e.tail

structure Entry.Ok (e : Entry) : Prop where
  size64 : 2 * (utf16 e.name).length + e.pad.length = 64
  nameSize : e.nameSize = 2 * (utf16 e.name).length + 2 ∨ e.name = [] ∧ e.nameSize = 0
  left : IsInt32 e.left
  right : IsInt32 e.right
  child : IsInt32 e.child
  misc : e.misc.length = 20
  stamps : e.stamps.length = 16
  first : IsInt32 e.first
  size : e.size < 2147483648
  tail : e.tail.length = 4

/-- What a reader keeps of entry number `did`. -/
def Entry.node (did : Nat) (e : Entry) : DirNode :=
  { did := did, etype := e.kind.toNat, left := e.left, right := e.right, root := e.child, firstSid := e.first, totSize := e.size, name := e.name,
    children := [], parent := -1 }

def nodesOf (es : List Entry) : List DirNode := es.mapIdx Entry.node

/-- Sector `k` begins in the file. -/
def Begun (mem : Bytes) (sec k : Nat) : Prop := 512 + k * sec < mem.length

/-- The first `size` bytes of the sectors are in the file.  The last sector need not be whole. -/
structure Holds (mem : Bytes) (sec : Nat) (secs : List Nat) (size : Nat) : Prop where
  begun : ∀ k ∈ secs, Begun mem sec k
  whole : ∀ k ∈ secs.dropLast, Whole mem 512 sec k
  last : ∀ k ∈ secs.getLast?, 512 + k * sec + (size - (secs.length - 1) * sec) ≤ mem.length

/-- The sectors that extend the master table: entries, and in the last place the number of the next one.  The mark for the end is -2, but -1 and -4 are
also met. -/
inductive Extension (mem : Bytes) (sec : Nat) : Int → List Nat → List Int → Prop
  | done (i : Int) : i = -2 ∨ i = -1 ∨ i = -4 → Extension mem sec i [] []
  | next (k : Nat) (chunk : List Int) (link : Int) (secs : List Nat) (rest : List Int) : sector mem 512 sec k = encInts (chunk ++ [link]) →
      (∀ i ∈ chunk, IsInt32 i) → IsInt32 link → Extension mem sec link secs rest → Extension mem sec k (k :: secs) (chunk ++ rest)

/-- The parts of a document other than its streams. -/
structure Parts where
  extSecs : List Nat
  ext : List Int
  satSecs : List Nat
  sat : List Int
  dirSecs : List Nat
  entries : List Entry
  root : Entry
  shortSecs : List Nat
  ssatSecs : List Nat
  ssat : List Int

/-- All sectors of these parts. -/
def Parts.secs (p : Parts) : List Nat := p.extSecs ++ p.satSecs ++ p.dirSecs ++ p.shortSecs ++ p.ssatSecs

/-- The bytes that are divided into short sectors. -/
def Parts.shorts (mem : Bytes) (h : Header) (p : Parts) : Bytes := (sectors mem 512 h.sec p.shortSecs).take p.root.size

/-- Short streams: none, or a stream that holds them and a table for it. -/
inductive ShortParts (mem : Bytes) (h : Header) (p : Parts) : Prop
  | none : p.root.size = 0 → p.shortSecs = [] → p.ssatSecs = [] → p.ssat = [] → ShortParts mem h p
  | some : 0 < p.root.size → p.root.size ≤ p.shortSecs.length * h.sec → Chain p.sat p.root.first p.shortSecs → Chain p.sat h.ssatFirst p.ssatSecs →
      h.ssatCount = p.ssatSecs.length → sectors mem 512 h.sec p.ssatSecs = encInts p.ssat → (∀ i ∈ p.ssat, IsInt32 i) → ShortParts mem h p

/-- The file `mem` is a compound document with these parts, and `t` is the tree of its directory. -/
structure Document (mem : Bytes) (h : Header) (p : Parts) (t : DTree) : Prop where
  header : mem.take 512 = h.enc
  headerOk : h.Ok
  /-- If there is no extension, then the header may say that it starts at sector 0. -/
  ext : Extension mem h.sec h.extFirst p.extSecs p.ext ∨ h.extFirst = 0 ∧ p.extSecs = [] ∧ p.ext = []
  extCount : h.extCount = p.extSecs.length
  /-- The entries of the master table are the sectors of the allocation table, sectors after the end of the file, and marks for nothing. -/
  satSecs : (h.msat ++ p.ext).filter (fun i : Int => decide (0 ≤ i ∧ 512 + i * h.sec < mem.length)) = p.satSecs.map Int.ofNat
  unused : ∀ i ∈ h.msat ++ p.ext, i < 0 → i = -1 ∨ i = -2
  sat : sectors mem 512 h.sec p.satSecs = encInts p.sat
  satInts : ∀ i ∈ p.sat, IsInt32 i
  dir : Chain p.sat h.dirFirst p.dirSecs
  entries : sectors mem 512 h.sec p.dirSecs = p.entries.flatMap Entry.enc
  entriesOk : ∀ e ∈ p.entries, e.Ok
  root : p.entries[0]? = some p.root
  rootKind : p.root.kind = 5
  tree : Describes (nodesOf p.entries) t p.root.child
  once : (0 :: t.ids).Nodup
  short : ShortParts mem h p
  whole : ∀ k ∈ p.extSecs ++ p.satSecs ++ p.dirSecs ++ p.ssatSecs, Whole mem 512 h.sec k
  shorts : Holds mem h.sec p.shortSecs p.root.size
  distinct : p.secs.Nodup

/-- The stream of an entry of such a document, and the sectors it has to itself.  Streams smaller than `minSize` share the sectors of the
short streams. -/
inductive StreamAt (mem : Bytes) (h : Header) (p : Parts) (e : Entry) : List Nat → Bytes → Prop
  | long (secs : List Nat) : h.minSize ≤ e.size → Chain p.sat e.first secs → secs ≠ [] → (∀ k ∈ secs, k ∉ p.secs) →
      Holds mem h.sec secs e.size → (secs.length - 1) * h.sec < e.size → e.size ≤ secs.length * h.sec →
      StreamAt mem h p e secs ((sectors mem 512 h.sec secs).take e.size)
  | short (secs : List Nat) : e.size < h.minSize → 0 < p.root.size → e.size ≤ p.root.size → Chain p.ssat e.first secs →
      (∀ k ∈ secs.dropLast, Whole (p.shorts mem h) 0 h.shortSec k) →
      StreamAt mem h p e [] ((sectors (p.shorts mem h) 0 h.shortSec secs).take e.size)

/-- The path `q` (components separated by slashes) names a stream with contents `b`, one of the first 250 entries of the directory. -/
def Named (lower : PyStr → PyStr) (mem : Bytes) (h : Header) (p : Parts) (t : DTree) (q : PyStr) (secs : List Nat) (b : Bytes) : Prop :=
  ∃ d e, Finds lower (nodesOf p.entries) t (splitSlash q) d ∧ p.entries[d]? = some e ∧ d ≤ 249 ∧ StreamAt mem h p e secs b

/-- A file with the workbook stream `b`: the file itself, or a stream of a compound document.  (`depth` limits the height of the directory tree.) -/
inductive WorkbookFile (lower : PyStr → PyStr) (depth : Nat) : Bytes → Bytes → Prop
  | plain (b : Bytes) : b ≠ [] → b.take 8 ≠ [0xD0, 0xCF, 0x11, 0xE0, 0xA1, 0xB1, 0x1A, 0xE1] → WorkbookFile lower depth b b
  | workbook (mem h p t secs b) : Document mem h p t → t.height ≤ depth → Named lower mem h p t "Workbook".toList secs b → b ≠ [] →
      WorkbookFile lower depth mem b
  | book (mem h p t secs b) : Document mem h p t → t.height ≤ depth → Missing lower (nodesOf p.entries) t ["Workbook".toList] →
      Named lower mem h p t "Book".toList secs b → b ≠ [] → WorkbookFile lower depth mem b

end Xlrd.Spec
