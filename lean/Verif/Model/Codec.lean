import Verif.Model.Py

/-!
# Codecs

Not xlrd code: Python's `utf_16_le` and `latin_1` decoders with strict error handling.
-/
namespace Xlrd

/-- The character with code point `n`, when `n` is a Unicode scalar value. -/
def chr? (n : Nat) : Option Char := if h : n.isValidChar then some (Char.ofNatAux n h) else none

/-- A code unit that is not a surrogate. -/
def isPlainUnit (u : Nat) : Bool := decide (u < 0xD800 ∨ 0xE000 ≤ u)

/-- A code unit that starts a surrogate pair. -/
def isHighUnit (u : Nat) : Bool := decide (0xD800 ≤ u ∧ u < 0xDC00)

/-- A code unit that ends a surrogate pair. -/
def isLowUnit (u : Nat) : Bool := decide (0xDC00 ≤ u ∧ u < 0xE000)

/-- The character of a surrogate pair. -/
def pairChar? (u v : Nat) : Option Char := chr? (0x10000 + (u - 0xD800) * 0x400 + (v - 0xDC00))

/-- Little-endian 16-bit units; `none` for an odd number of bytes. -/
def units16 : Bytes → Option (List Nat)
  | [] => some []
  | [_] => none
  | a :: b :: rest => (units16 rest).map fun us => (a.toNat + 256 * b.toNat) :: us

/-- Put a character in front of a decoded text. -/
def consChar (c : Option Char) (t : Option PyStr) : Option PyStr :=
  match c, t with
  | some c, some t => some (c :: t)
  | _, _ => none

/-- The text of a sequence of UTF-16 units; `none` for a lone surrogate or a truncated pair. -/
def decodeUnits : List Nat → Option PyStr
  | [] => some []
  | u :: rest =>
    if isPlainUnit u then consChar (chr? u) (decodeUnits rest)
    else match rest with
      | [] => none
      | v :: rest' => if isHighUnit u && isLowUnit v then consChar (pairChar? u v) (decodeUnits rest') else none

/-- `bytes.decode('utf_16_le')`: an odd byte at the end, a lone surrogate or a truncated pair raises
UnicodeDecodeError. -/
def utf16leDecode (b : Bytes) : R PyStr :=
  match (units16 b).bind decodeUnits with
  | some t => .ok t
  | none => .error .unicode

/-- `bytes.decode('latin_1')` -/
def latin1Decode (b : Bytes) : PyStr := b.map fun x => Char.ofNat x.toNat

end Xlrd
