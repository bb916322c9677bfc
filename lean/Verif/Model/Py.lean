/-!
# Python primitives used by the model

Not xlrd code: the fragment of Python's semantics that the model relies on.
Exceptions are values; their messages are dropped and the class is kept.
-/
namespace Xlrd

/-- Exception classes that the modelled code can raise. -/
inductive PyErr
  | xlrd        -- xlrd.biffh.XLRDError
  | compdoc     -- xlrd.compdoc.CompDocError
  | formula     -- xlrd.formula.FormulaError
  | struct      -- struct.error
  | index       -- IndexError
  | key         -- KeyError
  | value       -- ValueError
  | type        -- TypeError
  | attr        -- AttributeError
  | name        -- NameError / UnboundLocalError
  | assertion   -- AssertionError
  | unicode     -- UnicodeDecodeError
  | overflow    -- OverflowError
  | lookup      -- LookupError (unknown codec)
  | recursion   -- RecursionError
  | zeroDiv     -- ZeroDivisionError
  | dateBadMode -- xldate.XLDateBadDatemode
  | dateNegative -- xldate.XLDateNegative
  | dateAmbiguous -- xldate.XLDateAmbiguous
  | dateTooLarge -- xldate.XLDateTooLarge
  | dateBadTuple -- xldate.XLDateBadTuple
  deriving DecidableEq, Repr

deriving instance DecidableEq for Except

/-- Result of a Python call: a value or an exception. -/
abbrev R (α : Type _) := Except PyErr α

/-- `bytes` -/
abbrev Bytes := List UInt8

/-- `str` (Unicode scalar values; none of the modelled decoders yields surrogates). -/
abbrev PyStr := List Char

/-- `assert c` -/
def pyAssert (c : Bool) : R Unit := if c then .ok () else .error .assertion

/-- A slice bound `i` clamped to a sequence of length `n`
(CPython `PySlice_AdjustIndices` with step 1). -/
def clampIdx (n : Nat) (i : Int) : Nat :=
  if i < 0 then (i + n).toNat else min i.toNat n

/-- `l[i:j]` for arbitrary integers `i`, `j`. -/
def slice {α} (l : List α) (i j : Int) : List α :=
  (l.take (clampIdx l.length j)).drop (clampIdx l.length i)

/-- `l[i:]` -/
def sliceFrom {α} (l : List α) (i : Int) : List α :=
  l.drop (clampIdx l.length i)

/-- `l[:j]` -/
def sliceTo {α} (l : List α) (j : Int) : List α :=
  l.take (clampIdx l.length j)

/-- `l[i]`, negative indexes counting from the end, else IndexError. -/
def idx {α} (l : List α) (i : Int) : R α :=
  let k := if i < 0 then i + l.length else i
  if k < 0 then .error .index
  else match l[k.toNat]? with
    | some x => .ok x
    | none => .error .index

/-- `l[i] = x` for a list, negative indexes counting from the end. -/
def setIdx {α} (l : List α) (i : Int) (x : α) : R (List α) :=
  let k := if i < 0 then i + l.length else i
  if k < 0 then .error .index
  else if k.toNat < l.length then .ok (l.set k.toNat x) else .error .index

/-- Little-endian value of a byte string. -/
def le : Bytes → Nat
  | [] => 0
  | b :: bs => b.toNat + 256 * le bs

/-- Little-endian unsigned field of `n` bytes at offset `o`
(only used after the length has been checked). -/
def fld (b : Bytes) (o n : Nat) : Nat := le ((b.drop o).take n)

/-- Two's complement reading of a `bits`-bit unsigned value. -/
def sgn (bits : Nat) (x : Nat) : Int :=
  if x < 2 ^ (bits - 1) then (x : Int) else (x : Int) - (2 ^ bits : Nat)

/-- `struct.unpack(fmt, b)` for a format occupying `n` bytes: raises unless the
length is exact.  The fields are then read with `fld`. -/
def unpackN (n : Nat) (b : Bytes) : R Bytes :=
  if b.length = n then .ok b else .error .struct

/-- `struct.unpack('<H', b)[0]` -/
def unpackH (b : Bytes) : R Nat := do let b ← unpackN 2 b; pure (fld b 0 2)
/-- `struct.unpack('<B', b)[0]` -/
def unpackB (b : Bytes) : R Nat := do let b ← unpackN 1 b; pure (fld b 0 1)
/-- `struct.unpack('<I', b)[0]` -/
def unpackI (b : Bytes) : R Nat := do let b ← unpackN 4 b; pure (fld b 0 4)
/-- `struct.unpack('<i', b)[0]` -/
def unpacki (b : Bytes) : R Int := do let b ← unpackN 4 b; pure (sgn 32 (fld b 0 4))
/-- `struct.unpack('<h', b)[0]` -/
def unpackh (b : Bytes) : R Int := do let b ← unpackN 2 b; pure (sgn 16 (fld b 0 2))

/-- The decimal digit character of `d < 10`. -/
def digitChar (d : Nat) : Char := Char.ofNat (48 + d)

/-- Decimal digits of `n`, most significant first, `fuel > number of digits`. -/
def decAux : Nat → Nat → PyStr
  | 0, _ => []
  | fuel + 1, n =>
    if n < 10 then [digitChar n] else decAux fuel (n / 10) ++ [digitChar (n % 10)]

/-- `"%d" % n` for a natural number. -/
def natDec (n : Nat) : PyStr := decAux (n + 1) n

/-- `"%d" % i` -/
def intDec (i : Int) : PyStr :=
  if i < 0 then '-' :: natDec (-i).toNat else natDec i.toNat

end Xlrd
