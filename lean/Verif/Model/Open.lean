import Verif.Model.OldSheet
import Verif.Model.CompDoc

/-!
# Opening a workbook and the life of a `Book` object

`__init__.py` (`inspect_format`, `open_workbook`) and `book.py` (`open_workbook_xls`, `biff2_8_load`, `getbof`,
`get_sheet`, the methods that return sheets, `Name.cell`, `Name.area2d`).
-/
namespace Xlrd

/-! ## The workbook stream -/

/-- book.py 632-640: the first of the streams that is there and not empty. -/
def findStream (fuel : Nat) (lower : PyStr → PyStr) : CompDoc → List PyStr → Option (R (Bytes × Int))
  | _, [] => some (.error .xlrd)
  | cd, q :: qs =>
    match locateNamedStream fuel lower cd q with
    | none => none
    | some (.error e) => some (.error e)
    | some (.ok ((some (x :: mem), base, _), _)) => some (.ok (x :: mem, base))
    | some (.ok (_, cd)) => findStream fuel lower cd qs

/-- book.py 598-653 `biff2_8_load` on the contents of a file: the bytes and where the workbook stream starts in them. `none`:
out of fuel. -/
def loadStream (env : OpenEnv) (file : Bytes) : Option (R (Bytes × Int)) :=
  if file = [] then some (.error .xlrd)
  else if sliceTo file 8 ≠ SIGNATURE then some (.ok (file, 0))
  else match compDocInit env.fuel env.depth file env.ignore with
    | none => none
    | some (.error e) => some (.error e)
    | some (.ok cd) => findStream env.fuel env.lower cd ["Workbook".toList, "Book".toList]

/-! ## Sheets -/

/-- A `Book` object after loading the globals. -/
structure Lib where
  bv : Nat
  book : Book
  mem : Bytes
  sheetList : List (Option LSheet)
  released : Bool

/-- book.py 699-711: where the records of a sheet start, its name and its visibility. -/
def sheetStart (l : Lib) (n : Int) : R (Int × PyStr × Nat) := do
  let pos ← idx l.book.shAbsPosn n
  let (_, pos) ← getbof l.mem pos XL_WORKSHEET
  let name ← idx l.book.sheetNames n
  let vis ← idx l.book.sheetVisibility n
  pure (pos, name, vis)

/-- book.py 699-712: a new sheet read from the stream. -/
def readSheet (env : OpenEnv) (l : Lib) (n : Int) : R LSheet := do
  let (pos, name, vis) ← sheetStart l n
  let st ← sheetRead (env.sheetEnv l.bv l.book) l.mem pos
  pure ⟨name, n, vis, st⟩

/-- `countries` of the book after a sheet has been read or reading it has raised (sheet.py 1140-1141, book.py 843-848). -/
def leftCountries (env : OpenEnv) (l : Lib) (n : Int) : Nat × Nat :=
  match sheetStart l n with
  | .error _ => l.book.countries
  | .ok (pos, _, _) => (sheetCountries (env.sheetEnv l.bv l.book) l.mem (l.mem.length + 1) {} pos).getD l.book.countries

/-- The book with other `countries`. -/
def Lib.withCountries (l : Lib) (c : Nat × Nat) : Lib := { l with book := { l.book with countries := c } }

/-- The book after a sheet has been read or reading it has raised. -/
def Lib.left (env : OpenEnv) (l : Lib) (n : Int) : Lib := l.withCountries (leftCountries env l n)

/-- book.py 696-715 `get_sheet` -/
def getSheet (env : OpenEnv) (l : Lib) (n : Int) : R (LSheet × Lib) :=
  if l.released then .error .xlrd
  else do
    let sh ← readSheet env l n
    let sl ← setIdx l.sheetList n (some sh)
    pure (sh, { l.left env n with sheetList := sl })

/-- book.py 717-722 `get_sheets`: sheets `n`, `n + 1`, ... -/
def getSheets (env : OpenEnv) : Nat → Nat → Lib → R Lib
  | 0, _, l => .ok l
  | k + 1, n, l => do
    let (_, l) ← getSheet env l (n : Int)
    getSheets env k (n + 1) l

/-- book.py 445 `sheet_by_index`: the result, and the book (also after an exception). -/
def sheetByIndex (env : OpenEnv) (l : Lib) (n : Int) : R LSheet × Lib :=
  match idx l.sheetList n with
  | .error e => (.error e, l)
  | .ok (some sh) => (.ok sh, l)
  | .ok none =>
    match getSheet env l n with
    | .error e => (.error e, if l.released then l else l.left env n)
    | .ok (sh, l') => (.ok sh, l')

/-- `names.index(s)` -/
def nameIndex (s : PyStr) : List PyStr → Option Nat
  | [] => none
  | x :: xs => if x = s then some 0 else (nameIndex s xs).map (· + 1)

/-- book.py 460-469 `sheet_by_name` -/
def sheetByName (env : OpenEnv) (l : Lib) (s : PyStr) : R LSheet × Lib :=
  match nameIndex s l.book.sheetNames with
  | none => (.error .xlrd, l)
  | some n => sheetByIndex env l (n : Int)

/-- A sheet name or a sheet index. -/
inductive SheetKey
  | index (n : Int)
  | name (s : PyStr)

/-- book.py 471-480 `__getitem__` -/
def bookItem (env : OpenEnv) (l : Lib) : SheetKey → R LSheet × Lib
  | .index n => sheetByIndex env l n
  | .name s => sheetByName env l s

/-- book.py 498-504, 514-520: the index for a name or an index. -/
def keyIndex (l : Lib) : SheetKey → R Int
  | .index n => .ok n
  | .name s => match nameIndex s l.book.sheetNames with
    | none => .error .xlrd
    | some n => .ok (n : Int)

/-- book.py 491-505 `sheet_loaded` -/
def sheetLoaded (l : Lib) (k : SheetKey) : R Bool := do
  let n ← keyIndex l k
  let x ← idx l.sheetList n
  pure x.isSome

/-- book.py 507-520 `unload_sheet` -/
def unloadSheet (l : Lib) (k : SheetKey) : R Unit × Lib :=
  match keyIndex l k with
  | .error e => (.error e, l)
  | .ok n => match setIdx l.sheetList n none with
    | .error e => (.error e, l)
    | .ok sl => (.ok (), { l with sheetList := sl })

/-- book.py 522-543 `release_resources`: `mem` is dropped, and with it the shared strings; `get_sheet` refuses before using them. -/
def releaseResources (l : Lib) : Lib := { l with released := true }

/-- book.py 440-443: the loop of `sheets()`, with the book also after an exception. -/
def loadAll (env : OpenEnv) : Nat → Nat → Lib → R Unit × Lib
  | 0, _, l => (.ok (), l)
  | k + 1, n, l =>
    match sheetByIndex env l (n : Int) with
    | (.error e, l') => (.error e, l')
    | (.ok _, l') => loadAll env k (n + 1) l'

/-- book.py 434-443 `sheets` -/
def bookSheets (env : OpenEnv) (l : Lib) : R (List (Option LSheet)) × Lib :=
  match loadAll env l.sheetList.length 0 l with
  | (.error e, l') => (.error e, l')
  | (.ok _, l') => (.ok l'.sheetList, l')

/-! ## Opening -/

/-- book.py 79-87: the BIFF version of the file. -/
def firstBof (mem : Bytes) (base : Int) : R (Nat × Int) := do
  let (v, pos) ← getbof mem base XL_WORKBOOK_GLOBALS
  if v = 0 then .error .xlrd
  else if v ∉ [80, 70, 50, 45, 40, 30, 21, 20] then .error .xlrd
  else pure (v, pos)

/-- book.py 106-109, 127-129: the sheets, unless they are loaded on demand; otherwise the resources are released. -/
def openSheets (env : OpenEnv) (l : Lib) : R Lib :=
  if env.onDemand then .ok l
  else do
    let l ← getSheets env l.book.sheetNames.length 0 l
    pure (releaseResources l)

/-- book.py 724-731 `fake_globals_get_sheet`: the only sheet starts at the beginning of the stream.  (`release_resources` follows.) -/
def openSingle (env : OpenEnv) (v : Nat) (mem : Bytes) : R Lib := do
  let f ← initialiseColourMap v env.fi newBook.fmt
  let name := "Sheet 1".toList
  let b : Book := { newBook with fmt := f, sheetNames := [name], shAbsPosn := [0], sheetVisibility := [0] }
  let (_, pos) ← getbof mem 0 XL_WORKSHEET
  let o ← oldRead env v mem b pos
  pure ⟨o.bv, o.book, mem, [some ⟨name, 0, 0, o.sheet⟩], true⟩

/-- book.py 76-130 from the workbook stream on. -/
def openStream (env : OpenEnv) (mem : Bytes) (base : Int) : R Lib := do
  let (v, pos) ← firstBof mem base
  if v ≤ 40 then openSingle env v mem
  else do
    let (b, _) ← parseGlobals (env.bookEnv v base) mem newBook pos
    if v = 45 then pure ⟨v, b, mem, b.embedded.map some, true⟩
    else openSheets env ⟨v, b, mem, List.replicate b.sheetNames.length none, false⟩

/-- book.py 59-130 `open_workbook_xls` on the contents of a file. -/
def openXls (env : OpenEnv) (file : Bytes) : Option (R Lib) :=
  match loadStream env file with
  | none => none
  | some (.error e) => some (.error e)
  | some (.ok (mem, base)) => some (openStream env mem base)

/-! ## File formats -/

/-- `__init__.py` 33 -/
def ZIP_SIGNATURE : Bytes := [0x50, 0x4B, 0x03, 0x04]

/-- `__init__.py` 24-31 -/
def fileFormatDescriptions : List (String × String) :=
  [("xls", "Excel xls"), ("xlsb", "Excel 2007 xlsb file"), ("xlsx", "Excel xlsx file"), ("ods", "Openoffice.org ODS file"),
   ("zip", "Unknown ZIP file")]

/-- `name.replace('\\', '/').lower()` -/
def zipName (lower : PyStr → PyStr) (s : PyStr) : PyStr := lower (s.map fun c => if c = '\\' then '/' else c)

/-- `__init__.py` 70-83 -/
def zipFormat (lower : PyStr → PyStr) (names : List PyStr) : String :=
  let comps := names.map (zipName lower)
  if "xl/workbook.xml".toList ∈ comps then "xlsx"
  else if "xl/workbook.bin".toList ∈ comps then "xlsb"
  else if "content.xml".toList ∈ comps then "ods"
  else "zip"

/-- `__init__.py` 38-83 `inspect_format` on the contents of a file.  `zip` lists the names in a ZIP file (it may raise). -/
def inspectFormat (zip : Bytes → R (List PyStr)) (lower : PyStr → PyStr) (file : Bytes) : R (Option String) :=
  let peek := sliceTo file 8
  if SIGNATURE.isPrefixOf peek then .ok (some "xls")
  else if ZIP_SIGNATURE.isPrefixOf peek then do
    let names ← zip file
    pure (some (zipFormat lower names))
  else .ok none

/-- `__init__.py` 86-185 `open_workbook`: an exception with its message, or what `open_workbook_xls` does. -/
def openWorkbook {α : Type} (zip : Bytes → R (List PyStr)) (lower : PyStr → PyStr) (xls : Bytes → α) (file : Bytes) :
    (PyErr × Option String) ⊕ α :=
  match inspectFormat zip lower file with
  | .error e => .inl (e, none)
  | .ok none => .inr (xls file)
  | .ok (some f) =>
    if f = "xls" then .inr (xls file)
    else match fileFormatDescriptions.lookup f with
      | none => .inl (.key, none)
      | some d => .inl (.xlrd, some (d ++ "; not supported"))

/-! ## Names that refer to cells -/

/-- formula.py 626-684 `Ref3D`: sheets, rows and columns, ends exclusive. -/
structure Ref3D where
  shtxlo : Int
  shtxhi : Int
  rowxlo : Int
  rowxhi : Int
  colxlo : Int
  colxhi : Int
  deriving DecidableEq, Repr

/-- `Name.result` as far as `cell` and `area2d` use it: the references of an operand of kind oREF, `none` for anything else. -/
abbrev NameResult := Option (List Ref3D)

/-- book.py 209-219: the cell of a name, before `sh.cell` is called: the sheet and the coordinates. -/
def nameCell (env : OpenEnv) (l : Lib) (res : NameResult) : R (LSheet × Int × Int) × Lib :=
  match res with
  | some [r] =>
    if 0 ≤ r.shtxlo ∧ r.shtxlo = r.shtxhi - 1 ∧ r.rowxlo = r.rowxhi - 1 ∧ r.colxlo = r.colxhi - 1 then
      match sheetByIndex env l r.shtxlo with
      | (.error e, l') => (.error e, l')
      | (.ok sh, l') => (.ok (sh, r.rowxlo, r.colxlo), l')
    else (.error .xlrd, l)
  | _ => (.error .xlrd, l)

/-- book.py 253-260 -/
def clipArea (r : Ref3D) (nrows ncols : Int) : R (Int × Int × Int × Int) := do
  let rowxlo := min r.rowxlo nrows
  let rowxhi := max rowxlo (min r.rowxhi nrows)
  let colxlo := min r.colxlo ncols
  let colxhi := max colxlo (min r.colxhi ncols)
  pyAssert (0 ≤ rowxlo ∧ rowxlo ≤ rowxhi ∧ rowxhi ≤ nrows)
  pyAssert (0 ≤ colxlo ∧ colxlo ≤ colxhi ∧ colxhi ≤ ncols)
  pure (rowxlo, rowxhi, colxlo, colxhi)

/-- book.py 226-267 `area2d` -/
def nameArea2d (env : OpenEnv) (l : Lib) (res : NameResult) (clipped : Bool) : R (LSheet × Int × Int × Int × Int) × Lib :=
  match res with
  | some [r] =>
    if 0 ≤ r.shtxlo ∧ r.shtxlo = r.shtxhi - 1 then
      match sheetByIndex env l r.shtxlo with
      | (.error e, l') => (.error e, l')
      | (.ok sh, l') =>
        if clipped then
          match clipArea r sh.st.store.nrows sh.st.store.ncols with
          | .error e => (.error e, l')
          | .ok a => (.ok (sh, a), l')
        else (.ok (sh, r.rowxlo, r.rowxhi, r.colxlo, r.colxhi), l')
    else (.error .xlrd, l)
  | _ => (.error .xlrd, l)

end Xlrd
