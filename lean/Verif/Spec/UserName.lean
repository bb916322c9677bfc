import Verif.Spec.Globals

/-!
# The user name of a book (C87)
-/
namespace Xlrd.Spec

/-- `Book.user_name` is the text `s`.  (Otherwise it is the bytes of a WRITEACCESS record that were never decoded.) -/
def UserNameIs (b : Book) (s : PyStr) : Prop := b.rawUser = none ∧ b.userName = s

/-- The WRITEACCESS record of a version before BIFF8 with the name `raw`, which may be followed by anything. -/
def userRecord (raw tail : Bytes) : GItem := .one 0x5c (UInt8.ofNat raw.length :: raw ++ tail)

/-- `raw`, after `before`, is the name in the last of the WRITEACCESS records, and `after` follows. -/
structure LastUser (items before : List GItem) (raw : Bytes) (after : List GItem) : Prop where
  split : ∃ tail, items = before ++ userRecord raw tail :: after
  short : raw.length < 256
  last : ∀ d, GItem.one 0x5c d ∉ after

/-- Blank, tab, line feed, vertical tab, form feed, carriage return. -/
def BlankByte (x : UInt8) : Prop := x ∈ ([0x20, 0x09, 0x0a, 0x0b, 0x0c, 0x0d] : List UInt8)

end Xlrd.Spec
