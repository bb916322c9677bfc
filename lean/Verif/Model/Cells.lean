import Verif.Model.Py
import Verif.Model.Float

/-!
# The cell store of a sheet: `xlrd/sheet.py` 330-397, 404-712, 714-784

The three parallel lists of rows `_cell_types`, `_cell_values`, `_cell_xf_indexes` are kept as
three separate grids, as in the code.  Rows and columns given to `put_cell` come from unsigned
record fields, hence `Nat`.
-/
namespace Xlrd

/-- A binary64 value as stored in a cell (the sign of zero is dropped). -/
inductive F64
  | fin (q : ℚ)
  | inf (neg : Bool)
  | nan
  deriving DecidableEq

/-- A cell value: `str`, `float`, or `int` (booleans and error codes). -/
inductive Val
  | text (s : PyStr)
  | num (x : F64)
  | int (n : Int)
  deriving DecidableEq

/-- biffh.py 67-75: cell type codes. -/
abbrev XL_CELL_EMPTY : Nat := 0
abbrev XL_CELL_TEXT : Nat := 1
abbrev XL_CELL_NUMBER : Nat := 2
abbrev XL_CELL_DATE : Nat := 3
abbrev XL_CELL_BOOLEAN : Nat := 4
abbrev XL_CELL_ERROR : Nat := 5
abbrev XL_CELL_BLANK : Nat := 6

/-- What a sheet is loaded with: `formatting_info`, `ragged_rows`, `utter_max_rows`,
`utter_max_cols` (sheet.py 330-335, 391-395) and the book's `_xf_index_to_xl_type_map`
(`none` = key absent). -/
structure SheetCfg where
  fmtInfo : Bool
  ragged : Bool
  maxRows : Nat
  maxCols : Nat
  typeMap : Int → Option Nat

/-- The mutable cell store (sheet.py 337-346, 397). -/
structure Store where
  types : List (List Nat)
  values : List (List Val)
  xfs : List (List Int)
  nrows : Nat
  ncols : Nat
  firstFull : Int
  deriving DecidableEq

/-- sheet.py 337-346, 397: a new sheet. -/
def Store.empty : Store := ⟨[], [], [], 0, 0, -1⟩

/-- `g[r]` for a list of rows. -/
def getRow {α} (g : List (List α)) (r : Nat) : R (List α) :=
  match g[r]? with
  | some row => .ok row
  | none => .error .index

/-- `g[r][c] = x`. -/
def setCell {α} (g : List (List α)) (r c : Nat) (x : α) : R (List (List α)) :=
  match g[r]? with
  | none => .error .index
  | some row => if c < row.length then .ok (g.set r (row.set c x)) else .error .index

/-- `g[r].extend(blank * n)` -/
def extendRow {α} (g : List (List α)) (r n : Nat) (blank : α) : R (List (List α)) :=
  match g[r]? with
  | none => .error .index
  | some row => .ok (g.set r (row ++ List.replicate n blank))

/-- `for _ in xrange(n): g.append(blank * w)` -/
def appendRows {α} (g : List (List α)) (n w : Nat) (blank : α) : List (List α) :=
  g ++ List.replicate n (List.replicate w blank)

/-- Storing in an `array('h')`: OverflowError outside 16 bits. -/
def int16 (x : Int) : R Int := if -32768 ≤ x ∧ x ≤ 32767 then .ok x else .error .overflow

/-- The value of an empty cell. -/
def emptyVal : Val := .text []

/-- sheet.py 656-658 / 715-717: a missing type is looked up from the XF index. -/
def resolveType (cfg : SheetCfg) (ctype : Option Nat) (xf : Int) : R Nat :=
  match ctype with
  | some t => .ok t
  | none => match cfg.typeMap xf with
    | some t => .ok t
    | none => .error .key

/-- The three assignments of sheet.py 721-724 and 775-778: the state reached and the exception,
if one is raised (earlier assignments stay done). -/
def assign3 (cfg : SheetCfg) (s : Store) (r c t : Nat) (v : Val) (xf : Int) : Store × Option PyErr :=
  match setCell s.types r c t with
  | .error e => (s, some e)
  | .ok ty =>
    let s := { s with types := ty }
    match setCell s.values r c v with
    | .error e => (s, some e)
    | .ok vs =>
      let s := { s with values := vs }
      if cfg.fmtInfo then
        match (do let xs ← setCell s.xfs r c xf      -- the index is checked before the value
                  let _ ← int16 xf
                  pure xs) with
        | .error e => (s, some e)
        | .ok xs => ({ s with xfs := xs }, none)
      else (s, none)

/-- sheet.py 729-772: the extension performed when an index is out of range. -/
def extend (cfg : SheetCfg) (s : Store) (r c : Nat) : R Store := do
  let nr := r + 1
  let nc := c + 1
  pyAssert (1 ≤ nc && nc ≤ cfg.maxCols)
  pyAssert (1 ≤ nr && nr ≤ cfg.maxRows)
  let s :=
    if nc > s.ncols then
      let s := { s with ncols := nc }
      if nr < s.nrows then { s with firstFull := -2 }
      else if (r : Int) > s.firstFull ∧ s.firstFull > -2 then { s with firstFull := r }
      else s
    else s
  if nr ≤ s.nrows then do
    let trow ← getRow s.types r
    if trow.length < s.ncols then do          -- nextra = ncols - len(trow) > 0
      let n := s.ncols - trow.length
      let ty ← extendRow s.types r n XL_CELL_EMPTY
      let xs ← if cfg.fmtInfo then extendRow s.xfs r n (-1) else pure s.xfs
      let vs ← extendRow s.values r n emptyVal
      pure { s with types := ty, xfs := xs, values := vs }
    else pure s
  else
    let n := nr - s.nrows
    pure { s with
      types := appendRows s.types n s.ncols XL_CELL_EMPTY
      values := appendRows s.values n s.ncols emptyVal
      xfs := if cfg.fmtInfo then appendRows s.xfs n s.ncols (-1) else s.xfs
      nrows := nr }

/-- sheet.py 714-784 `put_cell_unragged`. -/
def putCellUnragged (cfg : SheetCfg) (s : Store) (r c : Nat) (ctype : Option Nat) (v : Val) (xf : Int) :
    R Store := do
  let t ← resolveType cfg ctype xf
  match assign3 cfg s r c t v xf with
  | (s', none) => pure s'
  | (s', some e) =>
    if e = .index then do
      let s ← extend cfg s' r c
      match assign3 cfg s r c t v xf with
      | (s, none) => pure s
      | (_, some e) => .error e
    else .error e

/-- `row[:ltr] + blank * n` : the slice assignment `row[ltr:] = blank * n`. -/
def tailAssign {α} (row : List α) (ltr n : Nat) (blank : α) : List α :=
  row.take ltr ++ List.replicate n blank

/-- sheet.py 684-709 on one row: append, or widen with blanks and assign, or assign. -/
def raggedRow {α} (row : List α) (ltr c : Nat) (blank x : α) : R (List α) :=
  if c = ltr then .ok (row ++ [x])
  else
    let row := if c > ltr then tailAssign row ltr (c - ltr + 1) blank else row
    if c < row.length then .ok (row.set c x) else .error .index

/-- sheet.py 655-712 `put_cell_ragged`.  (The code updates the rows in place; the model writes
them back.  On an exception the load is abandoned, so the order of the row updates is not kept.) -/
def putCellRagged (cfg : SheetCfg) (s : Store) (r c : Nat) (ctype : Option Nat) (v : Val) (xf : Int) :
    R Store := do
  let t ← resolveType cfg ctype xf
  pyAssert (c < cfg.maxCols)
  pyAssert (r < cfg.maxRows)
  let nr := r + 1
  let s :=
    if s.nrows < nr then
      { s with
        types := appendRows s.types (nr - s.nrows) 0 XL_CELL_EMPTY
        values := appendRows s.values (nr - s.nrows) 0 emptyVal
        xfs := if cfg.fmtInfo then appendRows s.xfs (nr - s.nrows) 0 (-1) else s.xfs
        nrows := nr }
    else s
  let trow ← getRow s.types r
  let vrow ← getRow s.values r
  let ltr := trow.length
  let s := if c ≥ s.ncols then { s with ncols := c + 1 } else s
  let trow' ← raggedRow trow ltr c XL_CELL_EMPTY t
  let vrow' ← raggedRow vrow ltr c emptyVal v
  if cfg.fmtInfo then do
    let frow ← getRow s.xfs r
    let x ← int16 xf
    let frow' ← raggedRow frow ltr c (-1) x
    pure { s with types := s.types.set r trow', values := s.values.set r vrow', xfs := s.xfs.set r frow' }
  else
    pure { s with types := s.types.set r trow', values := s.values.set r vrow' }

/-- sheet.py 332-335: which `put_cell` is used. -/
def putCell (cfg : SheetCfg) (s : Store) (r c : Nat) (ctype : Option Nat) (v : Val) (xf : Int) : R Store :=
  if cfg.ragged then putCellRagged cfg s r c ctype v xf
  else putCellUnragged cfg s r c ctype v xf

/-- A half-open cell range `(rlo, rhi, clo, chi)`. -/
structure CRange where
  rlo : Nat
  rhi : Nat
  clo : Nat
  chi : Nat
  deriving DecidableEq, Repr

/-- sheet.py 645-653: pad the first `ubound` rows to `ncols`.  Row `i` of the other grids is
padded by the amount missing in `types`. -/
def padRows {α} (lens : List Nat) (ncols : Nat) (blank : α) (ubound : Nat) (g : List (List α)) :
    List (List α) :=
  g.mapIdx fun i row =>
    if i < ubound then
      let rlen := lens.getD i 0
      if rlen < ncols then row.take rlen ++ List.replicate (ncols - rlen) blank else row
    else row

/-- sheet.py 594-653 `tidy_dimensions`.  Simplified: the check `xrange(ubound)` indexing past the
number of rows is not modelled (it cannot happen, see `Lemmas/Cells.lean`). -/
def tidyDimensions (cfg : SheetCfg) (s : Store) (merged : List CRange) : R Store := do
  let s ←
    if merged.isEmpty then pure s
    else do
      let nr := merged.foldl (fun a m => if m.rhi > a then m.rhi else a) 0
      let nc := merged.foldl (fun a m => if m.chi > a then m.chi else a) 0
      let s := if nc > s.ncols then { s with ncols := nc, firstFull := -2 } else s
      if nr > s.nrows then putCell cfg s (nr - 1) 0 (some XL_CELL_EMPTY) emptyVal (-1) else pure s
  if cfg.ragged then pure s
  else
    let ubound : Nat := if s.firstFull = -2 then s.nrows else s.firstFull.toNat
    let lens := s.types.map List.length
    pure { s with
      values := padRows lens s.ncols emptyVal ubound s.values
      types := padRows lens s.ncols XL_CELL_EMPTY ubound s.types
      xfs := if cfg.fmtInfo then padRows lens s.ncols (-1) ubound s.xfs else s.xfs }

/-- One call of `put_cell`. -/
structure Write where
  row : Nat
  col : Nat
  ctype : Option Nat
  val : Val
  xf : Int
  deriving DecidableEq

/-- A whole load: the calls of `put_cell` made by `Sheet.read`, then `tidy_dimensions`. -/
def loadCells (cfg : SheetCfg) (ws : List Write) (merged : List CRange) : R Store := do
  let s ← ws.foldlM (fun s w => putCell cfg s w.row w.col w.ctype w.val w.xf) Store.empty
  tidyDimensions cfg s merged

/-! ## Reading access -/

/-- sheet.py 418-420 `cell_value`. -/
def Store.cellValue (s : Store) (r c : Int) : R Val := do idx (← idx s.values r) c
/-- sheet.py 422-428 `cell_type`. -/
def Store.cellType (s : Store) (r c : Int) : R Nat := do idx (← idx s.types r) c
/-- sheet.py 438: the XF index stored for a cell (-1 = none). -/
def Store.cellXf (s : Store) (r c : Int) : R Int := do idx (← idx s.xfs r) c
/-- sheet.py 461-469 `row_len`. -/
def Store.rowLen (s : Store) (r : Int) : R Nat := do pure (← idx s.values r).length

end Xlrd
