import Verif.Model.Cells

/-!
# Numbers in records: `struct.unpack('<d')` and `xlrd/sheet.py` 2219-2233
-/
namespace Xlrd

/-- The value of a binary64 bit pattern (IEEE 754 interchange format; not xlrd code). -/
def f64OfBits (n : Nat) : F64 :=
  let neg := n.testBit 63
  let e : Nat := n / 2 ^ 52 % 2 ^ 11
  let m : Nat := n % 2 ^ 52
  let s : ℚ := if neg then -1 else 1
  if e = 2047 then (if m = 0 then .inf neg else .nan)
  else if e = 0 then .fin (s * ((m : ℚ) * 2 ^ (-1074 : ℤ)))
  else .fin (s * (((2 ^ 52 + m : Nat) : ℚ) * 2 ^ ((e : ℤ) - 1075)))

/-- `struct.unpack('<d', b)[0]` -/
def unpackd (b : Bytes) : R F64 := do let b ← unpackN 8 b; pure (f64OfBits (fld b 0 8))

/-- `x / 100.0` -/
def F64.div100 : F64 → F64
  | .fin q => .fin (fl (q / 100))
  | .inf s => .inf s
  | .nan => .nan

/-- sheet.py 2219-2233 `unpack_RK`. -/
def unpackRK (rk : Bytes) : R F64 := do
  let flags := (← idx rk 0).toNat
  if flags.testBit 1 then do
    let i ← unpacki rk
    let i := i / 4                                -- i >>= 2
    if flags.testBit 0 then pure (F64.div100 (.fin (i : ℚ)))
    else pure (.fin (i : ℚ))
  else do
    let d ← unpackd ([0, 0, 0, 0] ++ [UInt8.ofNat (flags &&& 252)] ++ slice rk 1 4)
    if flags.testBit 0 then pure d.div100 else pure d

end Xlrd
