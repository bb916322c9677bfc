import Verif.Model.Py

/-!
# Cell, column, range and sheet names

Model of `xlrd/formula.py` 2050-2190 and `xlrd/book.py` 1368-1387.
-/
namespace Xlrd

/-- The literal `"ABCDEFGHIJKLMNOPQRSTUVWXYZ"` (formula.py 2102, book.py 1368). -/
def alphabet : PyStr := "ABCDEFGHIJKLMNOPQRSTUVWXYZ".toList

/-- formula.py 2100-2107 `colname` (this is the one exported as `xlrd.colname`).
`divmod` by 26 is floor division. Indexing of `alphabet` is Python indexing, so it
raises IndexError from 702 on. -/
def colname (colx : Int) : R PyStr :=
  if colx ≤ 25 then do
    let c ← idx alphabet colx
    pure [c]
  else do
    let xdiv26 := colx / 26
    let xmod26 := colx % 26
    let a ← idx alphabet (xdiv26 - 1)
    let b ← idx alphabet xmod26
    pure [a, b]

/-- The `while 1` loop of book.py 1371-1376; `fuel` bounds the iterations. -/
def bookColnameLoop : Nat → Int → PyStr → R PyStr
  | 0, _, _ => .error .recursion
  | fuel + 1, colx, name => do
    let quot := colx / 26
    let rem := colx % 26
    let a ← idx alphabet rem
    let name := a :: name
    if quot = 0 then pure name
    else bookColnameLoop fuel (quot - 1) name

/-- book.py 1368-1376 `colname` (used for displaying addresses). -/
def bookColname (colx : Int) : R PyStr := do
  pyAssert (decide (colx ≥ 0))
  bookColnameLoop (colx.toNat + 1) colx []

/-- formula.py 2050-2062 `rownamerel`; `browx = none` is Python's `None`.
In the last branch `browx` is not `None`, because `None` switches `r1c1` on. -/
def rownamerel (rowx : Int) (rowxrel : Bool) (browx : Option Int) (r1c1 : Bool) : PyStr :=
  let r1c1 := r1c1 || browx.isNone
  if !rowxrel then
    if r1c1 then 'R' :: intDec (rowx + 1) else '$' :: intDec (rowx + 1)
  else if r1c1 then
    if rowx ≠ 0 then "R[".toList ++ intDec rowx ++ "]".toList else "R".toList
  else intDec ((browx.getD 0 + rowx) % 65536 + 1)

/-- formula.py 2064-2076 `colnamerel`. -/
def colnamerel (colx : Int) (colxrel : Bool) (bcolx : Option Int) (r1c1 : Bool) : R PyStr :=
  let r1c1 := r1c1 || bcolx.isNone
  if !colxrel then
    if r1c1 then .ok ('C' :: intDec (colx + 1))
    else do let c ← colname colx; pure ('$' :: c)
  else if r1c1 then
    if colx ≠ 0 then .ok ("C[".toList ++ intDec colx ++ "]".toList) else .ok "C".toList
  else colname ((bcolx.getD 0 + colx) % 256)

/-- formula.py 2078-2080 `cellname`. -/
def cellname (rowx colx : Int) : R PyStr := do
  let c ← colname colx
  pure (c ++ intDec (rowx + 1))

/-- formula.py 2082-2086 `cellnameabs`. -/
def cellnameabs (rowx colx : Int) (r1c1 : Bool := false) : R PyStr :=
  if r1c1 then .ok ('R' :: intDec (rowx + 1) ++ 'C' :: intDec (colx + 1))
  else do
    let c ← colname colx
    pure ('$' :: c ++ '$' :: intDec (rowx + 1))

/-- formula.py 2088-2098 `cellnamerel`. -/
def cellnamerel (rowx colx : Int) (rowxrel colxrel : Bool)
    (browx bcolx : Option Int) (r1c1 : Bool) : R PyStr :=
  if !rowxrel && !colxrel then cellnameabs rowx colx r1c1
  else do
    let r1c1 := r1c1 || (rowxrel && browx.isNone) || (colxrel && bcolx.isNone)
    let c ← colnamerel colx colxrel bcolx r1c1
    let r := rownamerel rowx rowxrel browx r1c1
    if r1c1 then pure (r ++ c) else pure (c ++ r)

/-- formula.py 2109-2115 `rangename2d`; `none` is Python's `None` (r1c1 mode). -/
def rangename2d (rlo rhi clo chi : Int) (r1c1 : Bool := false) : R (Option PyStr) :=
  if r1c1 then .ok none
  else if rhi = rlo + 1 ∧ chi = clo + 1 then do
    let s ← cellnameabs rlo clo r1c1
    pure (some s)
  else do
    let a ← cellnameabs rlo clo r1c1
    let b ← cellnameabs (rhi - 1) (chi - 1) r1c1
    pure (some (a ++ ':' :: b))

/-- formula.py 2117-2128 `rangename2drel`. -/
def rangename2drel (rlo rhi clo chi : Int) (rlorel rhirel clorel chirel : Bool)
    (browx bcolx : Option Int) (r1c1 : Bool) : R PyStr := do
  let r1c1 := r1c1 || ((rlorel || rhirel) && browx.isNone)
  let r1c1 := r1c1 || ((clorel || chirel) && bcolx.isNone)
  let a ← cellnamerel rlo clo rlorel clorel browx bcolx r1c1
  let b ← cellnamerel (rhi - 1) (chi - 1) rhirel chirel browx bcolx r1c1
  pure (a ++ ':' :: b)

/-- `shname.replace("'", "''")` -/
def doubleQuotes : PyStr → PyStr
  | [] => []
  | c :: cs => if c = '\'' then '\'' :: '\'' :: doubleQuotes cs else c :: doubleQuotes cs

/-- The name chosen in formula.py 2160-2168. -/
def rawSheetName (shnames : List PyStr) (shx : Int) : R PyStr :=
  if shx ≥ 0 then idx shnames shx
  else if shx = -1 then .ok "?internal; any sheet?".toList
  else if shx = -2 then .ok "internal; deleted sheet".toList
  else if shx = -3 then .ok "internal; macro sheet".toList
  else if shx = -4 then .ok "<<external>>".toList
  else .ok ("?error ".toList ++ intDec shx ++ "?".toList)

/-- The quoting of formula.py 2169-2173. -/
def quoteName (shname : PyStr) : PyStr :=
  if '\'' ∈ shname then '\'' :: doubleQuotes shname ++ ['\'']
  else if ' ' ∈ shname then '\'' :: shname ++ ['\'']
  else shname

/-- formula.py 2159-2173 `quotedsheetname`. -/
def quotedsheetname (shnames : List PyStr) (shx : Int) : R PyStr := do
  let s ← rawSheetName shnames shx
  pure (quoteName s)

/-- formula.py 2175-2180 `sheetrange` (`shnames = book.sheet_names()`). -/
def sheetrange (shnames : List PyStr) (slo shi : Int) : R PyStr := do
  let a ← quotedsheetname shnames slo
  if slo ≠ shi - 1 then do
    let b ← quotedsheetname shnames (shi - 1)
    pure (a ++ ':' :: b)
  else pure a

/-- formula.py 2182-2188 `sheetrangerel`. -/
def sheetrangerel (shnames : List PyStr) (slo shi : Int) (slorel shirel : Bool) : R PyStr :=
  if !slorel && !shirel then sheetrange shnames slo shi
  else do
    pyAssert (decide (slo = 0) && decide (0 = shi - 1) && slorel && shirel)
    pure []

/-- formula.py 2130-2140 `rangename3d`, on the six coordinates of the reference. -/
def rangename3d (shnames : List PyStr) (slo shi rlo rhi clo chi : Int) : R PyStr := do
  let a ← sheetrange shnames slo shi
  let b ← rangename2d rlo rhi clo chi
  -- "%s" of None cannot happen here: r1c1 is 0
  pure (a ++ '!' :: b.getD "None".toList)

/-- formula.py 2142-2157 `rangename3drel`. -/
def rangename3drel (shnames : List PyStr) (slo shi rlo rhi clo chi : Int)
    (slorel shirel rlorel rhirel clorel chirel : Bool)
    (browx bcolx : Option Int) (r1c1 : Bool) : R PyStr := do
  let shdesc ← sheetrangerel shnames slo shi slorel shirel
  let rngdesc ← rangename2drel rlo rhi clo chi rlorel rhirel clorel chirel browx bcolx r1c1
  if shdesc = [] then pure rngdesc else pure (shdesc ++ '!' :: rngdesc)

/-- book.py 1378-1387 `display_cell_address`. -/
def displayCellAddress (rowx colx : Int) (relrow relcol : Bool) : R PyStr := do
  let sign (i : Int) : PyStr := if i < 0 then ['-'] else ['+']
  let rowpart : PyStr :=
    if relrow then "(*".toList ++ sign rowx ++ natDec rowx.natAbs ++ ")".toList
    else '$' :: intDec (rowx + 1)
  let colpart ←
    if relcol then pure ("(*".toList ++ sign colx ++ natDec colx.natAbs ++ ")".toList)
    else do let c ← bookColname colx; pure ('$' :: c)
  pure (colpart ++ rowpart)

/-- book.py 1350-1366 `expand_cell_address`
(inrow, incol unsigned 16-bit; `&` tests as bit tests). -/
def expandCellAddress (inrow incol : Nat) : Int × Int × Bool × Bool :=
  let relrow := incol.testBit 15
  let outrow : Int := if relrow then (if inrow ≥ 32768 then (inrow : Int) - 65536 else inrow) else inrow
  let c := incol &&& 0xFF
  let relcol := incol.testBit 14
  let outcol : Int := if relcol then (if c ≥ 128 then (c : Int) - 256 else c) else c
  (outrow, outcol, relrow, relcol)

end Xlrd
