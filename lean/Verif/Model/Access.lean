import Verif.Model.Cells

/-!
# Reading a loaded sheet: `xlrd/sheet.py` 404-589, 1702-1744
-/
namespace Xlrd

/-- sheet.py 2402-2460 `Rowinfo` (the attributes set from a ROW record). -/
structure Rowinfo where
  height : Nat
  hasDefaultHeight : Nat
  outlineLevel : Nat
  outlineGroupStartsEnds : Nat
  hidden : Nat
  heightMismatch : Nat
  hasDefaultXfIndex : Nat
  xfIndex : Int
  additionalSpaceAbove : Nat
  additionalSpaceBelow : Nat
  /-- the attributes that a BIFF2 record does not set are None -/
  unset : Bool := false
  deriving DecidableEq, Repr

/-- sheet.py 2340-2400 `Colinfo`. -/
structure Colinfo where
  width : Nat
  xfIndex : Int
  hidden : Nat
  bit1Flag : Nat
  outlineLevel : Nat
  collapsed : Nat
  deriving DecidableEq, Repr

/-- The attributes of a loaded `Sheet` used by the accessors. -/
structure SheetView where
  store : Store
  fmtInfo : Bool
  biffVersion : Nat
  rowinfoMap : Int → Option Rowinfo
  colinfoMap : Int → Option Colinfo
  standardwidth : Option Nat
  defcolwidth : Option Nat
  gcw : List Nat

/-- A `Cell` object (sheet.py 2256-2290); `xf = none` is Python's `None`. -/
structure PCell where
  ty : Nat
  v : Val
  xf : Option Int
  deriving DecidableEq

/-- sheet.py 1702-1704 `req_fmt_info`. -/
def reqFmtInfo (sh : SheetView) : R Unit := if sh.fmtInfo then .ok () else .error .xlrd

/-- sheet.py 430-459 `cell_xf_index`; the second component is the index of the
`_xf_index_stats` counter that is incremented. -/
def cellXfIndex (sh : SheetView) (r c : Int) : R (Int × Nat) := do
  reqFmtInfo sh
  let xfx ← sh.store.cellXf r c
  if xfx > -1 then .ok (xfx, 0)
  else
    let fromCol : R (Int × Nat) :=
      match sh.colinfoMap c with
      | some ci => .ok (if ci.xfIndex = -1 then 15 else ci.xfIndex, 2)
      | none => .ok (15, 3)
    match sh.rowinfoMap r with
    | some ri => if ri.xfIndex > -1 then .ok (ri.xfIndex, 1) else fromCol
    | none => fromCol

/-- sheet.py 404-416 `cell`. -/
def cell (sh : SheetView) (r c : Int) : R PCell := do
  let xfx ← if sh.fmtInfo then (do pure (some (← cellXfIndex sh r c).1)) else pure none
  let t ← sh.store.cellType r c
  let v ← sh.store.cellValue r c
  pure ⟨t, v, xfx⟩

/-- `xrange(a, b)` -/
def pyRange (a b : Int) : List Int := (List.range (b - a).toNat).map fun (k : Nat) => a + (k : Int)

/-- `[f(x) for x in xs]` -/
def comp {α β} (f : α → R β) : List α → R (List β)
  | [] => .ok []
  | x :: xs => do let y ← f x; let ys ← comp f xs; pure (y :: ys)

/-- sheet.py 471-478 `row`. -/
def row (sh : SheetView) (r : Int) : R (List PCell) := do
  let vs ← idx sh.store.values r
  comp (fun c => cell sh r c) (pyRange 0 vs.length)

/-- sheet.py 494-499 `get_rows` (the generator, run to the end). -/
def getRows (sh : SheetView) : R (List (List PCell)) :=
  comp (fun r => row sh r) (pyRange 0 sh.store.nrows)

/-- sheet.py 501-507 `row_types`. -/
def rowTypes (sh : SheetView) (r : Int) (start : Int) (stop : Option Int) : R (List Nat) := do
  let row ← idx sh.store.types r
  match stop with
  | none => pure (sliceFrom row start)
  | some e => pure (slice row start e)

/-- sheet.py 509-515 `row_values`. -/
def rowValues (sh : SheetView) (r : Int) (start : Int) (stop : Option Int) : R (List Val) := do
  let row ← idx sh.store.values r
  match stop with
  | none => pure (sliceFrom row start)
  | some e => pure (slice row start e)

/-- sheet.py 522-529, 540-547, 558-565, 576-583: the bounds of `xrange` in the slice accessors. -/
def adjustStart (n : Nat) (start : Int) : Int :=
  if start < 0 then (if start + n < 0 then 0 else start + n) else start

/-- See `adjustStart`. -/
def adjustStop (n : Nat) (stop : Option Int) : Int :=
  match stop with
  | none => n
  | some e => if e > n then n else if e < 0 then e + n else e

/-- sheet.py 517-533 `row_slice`. -/
def rowSlice (sh : SheetView) (r : Int) (start : Int) (stop : Option Int) : R (List PCell) := do
  let vs ← idx sh.store.values r
  comp (fun c => cell sh r c) (pyRange (adjustStart vs.length start) (adjustStop vs.length stop))

/-- sheet.py 535-551, 589 `col_slice` / `col`. -/
def colSlice (sh : SheetView) (c : Int) (start : Int) (stop : Option Int) : R (List PCell) :=
  comp (fun r => cell sh r c) (pyRange (adjustStart sh.store.nrows start) (adjustStop sh.store.nrows stop))

/-- sheet.py 553-569 `col_values`. -/
def colValues (sh : SheetView) (c : Int) (start : Int) (stop : Option Int) : R (List Val) :=
  comp (fun r => sh.store.cellValue r c) (pyRange (adjustStart sh.store.nrows start) (adjustStop sh.store.nrows stop))

/-- sheet.py 571-587 `col_types`. -/
def colTypes (sh : SheetView) (c : Int) (start : Int) (stop : Option Int) : R (List Nat) :=
  comp (fun r => sh.store.cellType r c) (pyRange (adjustStart sh.store.nrows start) (adjustStop sh.store.nrows stop))

/-- sheet.py 1706-1744 `computed_column_width`. -/
def computedColumnWidth (sh : SheetView) (colx : Int) : R Nat := do
  reqFmtInfo sh
  let rome : R Nat := match sh.defcolwidth with
    | some w => .ok (w * 256)
    | none => .ok (8 * 256)
  if sh.biffVersion ≥ 80 then
    match sh.colinfoMap colx with
    | some ci => .ok ci.width
    | none => match sh.standardwidth with
      | some w => .ok w
      | none => rome
  else if sh.biffVersion ≥ 40 then do
    let g ← idx sh.gcw colx
    if g ≠ 0 then
      match sh.standardwidth with
      | some w => .ok w
      | none => rome
    else match sh.colinfoMap colx with
      | some ci => .ok ci.width
      | none => rome
  else if sh.biffVersion = 30 then
    match sh.colinfoMap colx with
    | some ci => .ok ci.width
    | none => rome
  else rome

end Xlrd
