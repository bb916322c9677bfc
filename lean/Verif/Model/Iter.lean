import Verif.Model.Open
import Verif.Model.Access

/-!
# Iterating over a book and subscripting a sheet

`book.py` (`Book.__iter__`) and `sheet.py` (`Sheet.__getitem__`).
-/
namespace Xlrd

/-- A generator object made by `Book.__iter__` (book.py 452-458): not started; in the loop with `i` the next index of `range(n)`; or finished. -/
inductive BookIter
  | fresh
  | going (i n : Nat)
  | done

/-- book.py 457-458: the loop of `Book.__iter__` from index `i` on, up to the next `yield`.  The result is `none` if the generator ends
(`StopIteration`); an exception also ends the generator. -/
def iterGo (env : OpenEnv) (l : Lib) (i n : Nat) : Option (R LSheet) × Lib × BookIter :=
  if i < n then
    match sheetByIndex env l (i : Int) with
    | (.ok sh, l') => (some (.ok sh), l', .going (i + 1) n)
    | (.error e, l') => (some (.error e), l', .done)
  else (none, l, .done)

/-- `next(it)` for a generator made by `Book.__iter__` (book.py 452-458).  The body runs up to the first `yield` only now, so `nsheets`
is read at the first `next`. -/
def iterNext (env : OpenEnv) (l : Lib) : BookIter → Option (R LSheet) × Lib × BookIter
  | .fresh => iterGo env l 0 l.sheetList.length
  | .going i n => iterGo env l i n
  | .done => (none, l, .done)

/-- What can be written between the brackets in `sheet[...]`: a number, or a sequence of numbers. (Other objects are not modelled.) -/
inductive CellKey
  | index (n : Int)
  | seq (l : List Int)

/-- A row or a cell. -/
inductive CellItem
  | row (l : List PCell)
  | cell (c : PCell)

/-- sheet.py 480-492 `__getitem__`: a number cannot be unpacked (TypeError) and is the number of a row; a sequence of a length other than two
gives a ValueError, which is not caught. -/
def sheetItem (sh : SheetView) : CellKey → R CellItem
  | .index n => do pure (.row (← row sh n))
  | .seq [r, c] => do pure (.cell (← cell sh r c))
  | .seq _ => .error .value

end Xlrd
