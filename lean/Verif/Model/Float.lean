import Mathlib.Data.Int.Log
import Mathlib.Data.Rat.Floor

/-!
# IEEE binary64 arithmetic on finite values

Not xlrd code: the float semantics of CPython.  A finite float is represented by its exact
rational value.  `fl` rounds to nearest, ties to even, with a 53-bit significand and gradual
underflow.  Overflow to infinity and the sign of zero are not represented.
-/
namespace Xlrd

/-- Round to nearest integer, ties to even: Python's `round(x)`. -/
def rne (q : ℚ) : ℤ :=
  let f := ⌊q⌋
  if q - f < 1 / 2 then f
  else if 1 / 2 < q - f then f + 1
  else if f % 2 = 0 then f else f + 1

/-- Exponent of the unit in the last place of the binade of `q`. -/
def ulpExp (q : ℚ) : ℤ := max (Int.log 2 |q| - 52) (-1074)

/-- The binary64 value nearest to `q` (ties to even). -/
def fl (q : ℚ) : ℚ := rne (q / 2 ^ ulpExp q) * 2 ^ ulpExp q

/-- Python's `int(x)` for a float: truncation towards zero. -/
def truncQ (q : ℚ) : ℤ := if q < 0 then -⌊-q⌋ else ⌊q⌋

end Xlrd
