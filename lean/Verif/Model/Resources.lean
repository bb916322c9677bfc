import Verif.Model.Open
import Verif.Model.Dump

/-!
# Files and mappings

The same functions as in `Model/Open`, with the files and mappings that they open and close: `__init__.py` (`inspect_format`, `open_workbook`,
`dump`, `count_records`), `book.py` (`open_workbook_xls`, `biff2_8_load`, `release_resources`, `__enter__`, `__exit__`).

What the system answers (whether a file can be opened, read and mapped, and what is in it) is arbitrary.  Which exception it raises is
left open: any value of `PyErr` stands for it.  Closing does not fail.
-/
namespace Xlrd

/-- The files and mappings of a process by number: those that are open, and those of them to which no variable refers any more (Python closes them
when it collects garbage; in CPython at once, unless an exception still holds the frame). -/
structure World where
  next : Nat
  live : List Nat
  dropped : List Nat := []
  deriving DecidableEq, Repr

/-- `open`, `mmap.mmap`, `zipfile.ZipFile`: something new is open. -/
def World.acquire (w : World) : World := { w with next := w.next + 1, live := w.next :: w.live }

/-- `close()`; closing twice has no effect. -/
def World.close (w : World) (h : Nat) : World := { w with live := w.live.erase h }

/-- The last reference goes away. -/
def World.drop (w : World) (h : Nat) : World := { w with dropped := h :: w.dropped }

/-- What the attributes `mem` and `filestr` of a book hold: `None`, bytes or a mapping. -/
inductive Content
  | nothing
  | bytes
  | mapping (h : Nat)
  deriving DecidableEq, Repr

/-- The attributes `mem`, `filestr` and `_resources_released` of a book (book.py 563-596 `__init__`). -/
structure Keeps where
  mem : Content := .bytes
  filestr : Content := .bytes
  released : Bool := false
  deriving DecidableEq, Repr

/-- `if hasattr(x, "close"): x.close()`: bytes have no `close`. -/
def World.closeContent (w : World) : Content → World
  | .mapping h => w.close h
  | _ => w

/-- book.py 522-543 `release_resources` -/
def releaseHandles (k : Keeps) (w : World) : Keeps × World :=
  (⟨.nothing, .nothing, true⟩, (w.closeContent k.mem).closeContent k.filestr)

/-- What the system answers about a path. -/
structure Disk where
  /-- `open(filename, "rb")` -/
  opens : R Unit
  /-- `seek`, `tell` -/
  measures : R Unit
  /-- `mmap.mmap` -/
  maps : R Unit
  /-- `f.read` -/
  reads : R Unit
  /-- The bytes of the file. -/
  data : Bytes

/-- The argument `file_contents`. -/
inductive Given
  | absent
  | bytes (b : Bytes)
  | mapping (h : Nat) (b : Bytes)

/-- `if file_contents`: absent or empty contents count as false. -/
def Given.truth : Given → Option (Content × Bytes)
  | .absent => none
  | .bytes b => if b = [] then none else some (.bytes, b)
  | .mapping h b => if b = [] then none else some (.mapping h, b)

/-- book.py 614-627: the block in which the file is open; `filestr` is assigned last. -/
def readFile (d : Disk) (useMmap : Bool) (k : Keeps) (w : World) : R Bytes × Keeps × World :=
  match d.measures with
  | .error e => (.error e, k, w)
  | .ok _ =>
    if d.data = [] then (.error .xlrd, k, w)
    else if useMmap then
      match d.maps with
      | .error e => (.error e, k, w)
      | .ok _ => (.ok d.data, { k with filestr := .mapping w.next }, w.acquire)
    else
      match d.reads with
      | .error e => (.error e, k, w)
      | .ok _ => (.ok d.data, { k with filestr := .bytes }, w)

/-- book.py 613-630: the bytes of the file; `with` closes it in any case.  Without a name `open` raises TypeError. -/
def fetchFile (path : Option Disk) (given : Given) (useMmap : Bool) (k : Keeps) (w : World) : R Bytes × Keeps × World :=
  match given.truth with
  | some (c, b) => (.ok b, { k with filestr := c }, w)
  | none =>
    match path with
    | none => (.error .type, k, w)
    | some d =>
      match d.opens with
      | .error e => (.error e, k, w)
      | .ok _ =>
        let (r, k', w') := readFile d useMmap k w.acquire
        (r, k', w'.close w.next)

/-- book.py 598-653 `biff2_8_load`.  `inPlace`: the stream is one stretch of the file, so that `locate_named_stream` returns the object it was given
(compdoc.py 414-456); which it is does not matter for what follows, so it is a parameter.  If no stream is found, `mem` is `None` or bytes.
`none`: out of fuel. -/
def loadBook (env : OpenEnv) (path : Option Disk) (given : Given) (useMmap inPlace : Bool) (k : Keeps) (w : World) :
    Option (R (Bytes × Int) × Keeps × World) :=
  match fetchFile path given useMmap k w with
  | (.error e, k, w) => some (.error e, k, w)
  | (.ok file, k, w) =>
    if sliceTo file 8 ≠ SIGNATURE then some (.ok (file, 0), { k with mem := k.filestr }, w)
    else match compDocInit env.fuel env.depth file env.ignore with
      | none => none
      | some (.error e) => some (.error e, k, w)
      | some (.ok cd) =>
        match findStream env.fuel env.lower cd ["Workbook".toList, "Book".toList] with
        | none => none
        | some (.error e) => some (.error e, { k with mem := .nothing }, w)
        | some (.ok x) =>
          if inPlace then some (.ok x, { k with mem := k.filestr }, w)
          else some (.ok x, { k with mem := .bytes, filestr := .bytes }, w.closeContent k.filestr)

/-- book.py 88-109: `on_demand` at the end of `open_workbook_xls`; before BIFF5 it has been set to False. -/
def demandLeft (env : OpenEnv) (mem : Bytes) (base : Int) : Bool :=
  match firstBof mem base with
  | .ok (v, _) => if v ≤ 40 then false else if v = 45 then false else env.onDemand
  | .error _ => env.onDemand

/-- book.py 59-130 `open_workbook_xls`: `except:` releases the resources and raises the exception again; a normal exit releases them unless
sheets are loaded on demand, see `demandLeft`. -/
def openXlsHandles (env : OpenEnv) (path : Option Disk) (given : Given) (useMmap inPlace : Bool) (w : World) : Option (R Lib × Keeps × World) :=
  match loadBook env path given useMmap inPlace {} w with
  | none => none
  | some (.error e, k, w) => some (.error e, releaseHandles k w)
  | some (.ok (mem, base), k, w) =>
    match openStream env mem base with
    | .error e => some (.error e, releaseHandles k w)
    | .ok l =>
      if demandLeft env mem base then some (.ok l, k, w)
      else some (.ok l, releaseHandles k w)

/-- `__init__.py` 56-69: the first bytes and, for a ZIP file, the names in it.  The `ZipFile` of a path is not closed; the `with` block of lines 60-61 closes the file.
`zip` lists the names in a ZIP file; if it raises, `ZipFile` has closed the file. -/
def inspectHandles (zip : Bytes → R (List PyStr)) (lower : PyStr → PyStr) (path : Option Disk) (given : Given) (w : World) : R (Option String) × World :=
  match given.truth with
  | some (_, b) => (inspectFormat zip lower b, w)
  | none =>
    match path with
    | none => (.error .type, w)
    | some d =>
      match d.opens with
      | .error e => (.error e, w)
      | .ok _ =>
        let w := w.acquire.close w.next
        match d.reads with
        | .error e => (.error e, w)
        | .ok _ =>
          match inspectFormat zip lower d.data with
          | .error e => (.error e, w)
          | .ok f =>
            if SIGNATURE.isPrefixOf (sliceTo d.data 8) then (.ok f, w)
            else if ZIP_SIGNATURE.isPrefixOf (sliceTo d.data 8) then (.ok f, w.acquire.drop w.next)
            else (.ok f, w)

/-- `__init__.py` 86-185 `open_workbook`.  The path is opened twice; `seen` is what the system answers the first time, `path` the second.
The last component: the attributes of the book, if there is one. -/
def openHandles (zip : Bytes → R (List PyStr)) (lower : PyStr → PyStr) (env : OpenEnv) (seen path : Option Disk) (given : Given) (useMmap inPlace : Bool)
    (w : World) : Option (R Lib × Option Keeps × World) :=
  match inspectHandles zip lower seen given w with
  | (.error e, w) => some (.error e, none, w)
  | (.ok f, w) =>
    if f = none ∨ f = some "xls" then
      match openXlsHandles env path given useMmap inPlace w with
      | none => none
      | some (r, k, w) => some (r, some k, w)
    else some (.error .xlrd, none, w)

/-- book.py 545-550 `__enter__`, `__exit__`: the body of a `with` statement, which leaves the handles it finds in `k` and `w`, and what comes after it. -/
def exitWith (k : Keeps) (w : World) : Keeps × World := releaseHandles k w

/-- Book objects that are dropped without a call of `release_resources`. -/
def World.dropContent (w : World) : Content → World
  | .mapping h => w.drop h
  | _ => w

/-- `__init__.py` 188-213 `dump`, `count_records`: the book is neither kept nor released. -/
def dumpHandles (env : OpenEnv) (path : Option Disk) (inPlace : Bool) (w : World) : Option World :=
  match loadBook env path .absent true inPlace {} w with
  | none => none
  | some (_, k, w) => some (w.dropContent k.filestr)

end Xlrd
