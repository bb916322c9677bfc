import Verif.Model.Cells
import Verif.Spec.Strings

/-!
# How numbers are written: binary64 and RK
-/
namespace Xlrd.Spec

/-- A binary64 number by its fields. -/
structure B64 where
  neg : Bool
  e : Nat              -- biased exponent
  m : Nat              -- fraction

def B64.Ok (x : B64) : Prop := x.e < 2048 ∧ x.m < 2 ^ 52

def B64.bits (x : B64) : Nat := (if x.neg then 2 ^ 63 else 0) + x.e * 2 ^ 52 + x.m

/-- The 8 bytes, least significant first. -/
def B64.bytes (x : B64) : Bytes := le32 (x.bits % 2 ^ 32) ++ le32 (x.bits / 2 ^ 32)

def B64.value (x : B64) : F64 :=
  if x.e = 2047 then (if x.m = 0 then .inf x.neg else .nan)
  else .fin ((if x.neg then -1 else 1) *
    (if x.e = 0 then (x.m : ℚ) / 2 ^ 1074 else ((2 ^ 52 + x.m : Nat) : ℚ) * 2 ^ ((x.e : ℤ) - 1075)))

/-- An RK number: an integer of 30 bits, or a binary64 number with an 18-bit fraction; in both cases
possibly to be divided by 100. -/
inductive Rk
  | int (i : ℤ) (cents : Bool)
  | flt (neg : Bool) (e m : Nat) (cents : Bool)

def Rk.Ok : Rk → Prop
  | .int i _ => -2 ^ 29 ≤ i ∧ i < 2 ^ 29
  | .flt _ e m _ => e < 2048 ∧ m < 2 ^ 18

/-- The 32-bit word: the number in the upper 30 bits, bit 1 for an integer, bit 0 for hundredths. -/
def Rk.word : Rk → Nat
  | .int i cents => (i % 2 ^ 30).toNat * 4 + 2 + (if cents then 1 else 0)
  | .flt neg e m cents => ((if neg then 2 ^ 29 else 0) + e * 2 ^ 18 + m) * 4 + (if cents then 1 else 0)

def Rk.bytes (x : Rk) : Bytes := le32 x.word

/-- The binary64 number nearest to a hundredth of the given one. -/
def hundredth (fl : ℚ → ℚ) : F64 → F64
  | .fin q => .fin (fl (q / 100))
  | x => x

/-- The number denoted. -/
def Rk.value (fl : ℚ → ℚ) : Rk → F64
  | .int i cents => if cents then hundredth fl (.fin i) else .fin i
  | .flt neg e m cents =>
    let x := B64.value ⟨neg, e, m * 2 ^ 34⟩
    if cents then hundredth fl x else x

end Xlrd.Spec
