import Verif.Spec.Cells
import Verif.Model.Open
import Verif.Spec.Strings
import Verif.Spec.Globals
import Verif.Spec.SheetItems

/-!
# BOF records and the life of a book

Which bytes are a BOF record of which BIFF version, and what the calls that load, unload and look up sheets should do.
-/
namespace Xlrd.Spec

/-! ## BOF records -/

/-- A BOF record (code and contents) of BIFF version `v` for a stream of type `st`.  The contents have 4 to 20 bytes; what
is missing at the end counts as zero. -/
inductive BofRecord : Nat → Nat → Nat → Bytes → Prop
  | biff8 (st : Nat) (tail : Bytes) (hst : st < 65536) (ht : tail.length ≤ 16) : BofRecord 80 st 0x0809 (le16 0x0600 ++ le16 st ++ tail)
  | biff7 (st build year : Nat) (tail : Bytes) (hst : st < 65536) (hb : build < 65536) (hy : year < 65536) (ht : tail.length ≤ 12)
      (new : 1994 ≤ year ∧ build ≠ 2412 ∧ build ≠ 3218 ∧ build ≠ 3321) :
      BofRecord 70 st 0x0809 (le16 0x0500 ++ le16 st ++ le16 build ++ le16 year ++ tail)
  | biff5 (st build year : Nat) (tail : Bytes) (hst : st < 65536) (hb : build < 65536) (hy : year < 65536) (ht : tail.length ≤ 12)
      (old : year < 1994 ∨ build = 2412 ∨ build = 3218 ∨ build = 3321) :
      BofRecord 50 st 0x0809 (le16 0x0500 ++ le16 st ++ le16 build ++ le16 year ++ tail)
  | biff4 (st u : Nat) (tail : Bytes) (hst : st < 65536) (ht : tail.length ≤ 16) (sheet : st ≠ 0x100) :
      BofRecord 40 st 0x0409 (le16 u ++ le16 st ++ tail)
  | biff4w (u : Nat) (tail : Bytes) (ht : tail.length ≤ 16) : BofRecord 45 0x100 0x0409 (le16 u ++ le16 0x100 ++ tail)
  | biff3 (st u : Nat) (tail : Bytes) (hst : st < 65536) (ht : tail.length ≤ 16) : BofRecord 30 st 0x0209 (le16 u ++ le16 st ++ tail)
  | biff2 (st u : Nat) (tail : Bytes) (hst : st < 65536) (ht : tail.length ≤ 16) : BofRecord 21 st 0x0009 (le16 u ++ le16 st ++ tail)
  -- some programs write the code of BIFF5 with the version number of an earlier one
  | mixed (v st u : Nat) (tail : Bytes) (hst : st < 65536) (ht : tail.length ≤ 16) (hu : (u, v) ∈ [(0, 21), (7, 21), (0x200, 21), (0x300, 30), (0x400, 40)])
      (sheet : v = 40 → st ≠ 0x100) : BofRecord v st 0x0809 (le16 u ++ le16 st ++ tail)
  | mixed4w (tail : Bytes) (ht : tail.length ≤ 16) : BofRecord 45 0x100 0x0809 (le16 0x400 ++ le16 0x100 ++ tail)

/-- A file may start with workbook globals, and before BIFF5 with a worksheet; at the place of a sheet there must be a
worksheet. -/
def StartsFile (v st : Nat) : Prop := st = 5 ∨ v = 45 ∨ (v < 50 ∧ st = 0x10)
instance (v st : Nat) : Decidable (StartsFile v st) := by unfold StartsFile; infer_instance

/-! ## The life of a book -/

/-- The calls on a book that have to do with its sheets. -/
inductive Call
  | byIndex (n : Int)
  | byName (s : PyStr)
  | item (k : SheetKey)
  | loaded (k : SheetKey)
  | unload (k : SheetKey)
  | release
  | sheets
  | names

/-- What a call gives: a value or an exception. -/
inductive Reply
  | sheet (r : R LSheet)
  | flag (r : R Bool)
  | done (r : R Unit)
  | all (r : R (List (Option LSheet)))
  | names (l : List PyStr)

/-- What a file has to offer: the names of its sheets and each sheet (or the exception that reading it raises). -/
structure File where
  names : List PyStr
  content : Nat → R LSheet

/-- What has happened to a book: which sheets are loaded (with the index by which they were asked for, which is their
`number`), and whether its resources have been released. -/
structure Life where
  loaded : Nat → Option Int
  released : Bool

/-- The sheet meant by an index; negative ones count from the end. -/
def File.sheetNo (f : File) (i : Int) : Option Nat :=
  if 0 ≤ i ∧ i < f.names.length then some i.toNat
  else if i < 0 ∧ 0 ≤ i + f.names.length then some (i + f.names.length).toNat
  else none

/-- The index for a name (the first sheet with that name) or an index. -/
def File.keyNo (f : File) : SheetKey → R Int
  | .index n => .ok n
  | .name s => if s ∈ f.names then .ok (f.names.idxOf s : Int) else .error .xlrd

/-- Asking for a sheet: a loaded one is returned; another is read unless the resources are gone. -/
def File.ask (f : File) (s : Life) (i : Int) : R LSheet × Life :=
  match f.sheetNo i with
  | none => (.error .index, s)
  | some k =>
    match s.loaded k, f.content k with
    | some n, c => (c.map fun sh => { sh with number := n }, s)
    | none, c =>
      if s.released then (.error .xlrd, s)
      else match c with
        | .error e => (.error e, s)
        | .ok sh => (.ok { sh with number := i }, { s with loaded := fun j => if j = k then some i else s.loaded j })

/-- Asking for the sheets `n`, `n + 1`, ... until one cannot be had. -/
def File.askAll (f : File) : Nat → Nat → Life → R (List LSheet) × Life
  | 0, _, s => (.ok [], s)
  | k + 1, n, s =>
    match f.ask s (n : Int) with
    | (.error e, s) => (.error e, s)
    | (.ok sh, s) =>
      match f.askAll k (n + 1) s with
      | (.error e, s) => (.error e, s)
      | (.ok l, s) => (.ok (sh :: l), s)

/-- What each call should do. -/
def File.call (f : File) (s : Life) : Call → Reply × Life
  | .byIndex n => (.sheet (f.ask s n).1, (f.ask s n).2)
  | .byName x | .item (.name x) =>
    if x ∈ f.names then (.sheet (f.ask s (f.names.idxOf x : Int)).1, (f.ask s (f.names.idxOf x : Int)).2) else (.sheet (.error .xlrd), s)
  | .item (.index n) => (.sheet (f.ask s n).1, (f.ask s n).2)
  | .loaded k =>
    match f.keyNo k with
    | .error e => (.flag (.error e), s)
    | .ok n => match f.sheetNo n with
      | none => (.flag (.error .index), s)
      | some j => (.flag (.ok (s.loaded j).isSome), s)
  | .unload k =>
    match f.keyNo k with
    | .error e => (.done (.error e), s)
    | .ok n => match f.sheetNo n with
      | none => (.done (.error .index), s)
      | some j => (.done (.ok ()), { s with loaded := fun i => if i = j then none else s.loaded i })
  | .release => (.done (.ok ()), { s with released := true })
  | .sheets => (.all ((f.askAll f.names.length 0 s).1.map (·.map some)), (f.askAll f.names.length 0 s).2)
  | .names => (.names f.names, s)

/-- The replies to a sequence of calls. -/
def File.calls (f : File) (s : Life) : List Call → List Reply × Life
  | [] => ([], s)
  | c :: cs => ((f.call s c).1 :: (f.calls (f.call s c).2 cs).1, (f.calls (f.call s c).2 cs).2)

/-- A book opened on demand, and one opened with all its sheets. -/
def Life.fresh : Life := ⟨fun _ => none, false⟩
def File.eager (f : File) : Life := ⟨fun k => if k < f.names.length then some (k : Int) else none, true⟩

/-! ## A whole workbook stream -/

/-- A stream of BIFF version `v` whose workbook part starts at `base`: a BOF record for globals, then `items` up to an EOF record, then
anything (among it the worksheets).  `dec` decodes byte strings after given items. -/
structure WorkbookStream (v : Nat) (dec : List GItem → Bytes → R PyStr) (mem : Bytes) (base : Nat) (items : List GItem) (sheets : List SheetRec) : Prop where
  bytes : ∃ pre op bof eof post, pre.length = base ∧ BofRecord v 5 op bof ∧ eof.length < 65536 ∧ mem = pre ++ encRec op bof ++ encGlobals items eof ++ post
  ok : GlobalsOk v items
  sheets : Sheets v dec items sheets

/-- The `k`-th worksheet of the file. -/
def worksheet (sheets : List SheetRec) (k : Nat) : Option SheetRec := (sheets.filter SheetRec.isWorksheet)[k]?

/-- At `at` there is the BOF record of a worksheet (of whatever version) and then the records of `L`. -/
def SheetAt (v : Nat) (mem : Bytes) (pos : Nat) (L : Layout) : Prop :=
  ∃ w op bof rest, BofRecord w 0x10 op bof ∧ mem.drop pos = encRec op bof ++ (encRecs (L.records v) ++ rest)

/-- The XF index of a cell: that of its last record; for a position without record the default of its row (if the last ROW record about
it has one), else the default of its column (the last COLINFO record covering it), else 15. -/
def xfIndexOf (cells : List Write) (items : List SheetItem) (r c : Nat) : Int :=
  match lastAt cells r c with
  | some w => w.xf
  | none =>
    match ((rowsOf items).filter (fun x => x.row = r)).getLast? with
    | some x => if x.hasXf then x.xf else colDefault
    | none => colDefault
where
  colDefault : Int := match ((colsOf items).filter (fun x => x.covers (c : Int))).getLast? with
    | some x => x.xf
    | none => 15

end Xlrd.Spec
