import Verif.Spec.OldFile
import Verif.Spec.Openable

/-!
# Files of BIFF3 and BIFF4 that can be read
-/
namespace Xlrd.Spec

/-- A record about the whole file that can be read when it comes after `pre`; `items` are all such records.  `dec q` decodes byte strings after the
records `q`. -/
inductive OldReadable (v : Nat) (dec : List GItem → Bytes → R PyStr) (items pre : List GItem) : GItem → Prop
  | format (d : Bytes) (s : PyStr) (h : OldFormatRecord v (dec pre) s d) : OldReadable v dec items pre (.one (formatCode v) d)
  | xf (d : Bytes) (x : XF) (h : XfRecord x v d) : OldReadable v dec items pre (.one (xfCode v) d)
  | formatCount (n : Nat) (tail : Bytes) : OldReadable v dec items pre (.one 0x56 (le16 n ++ tail))
  /- FONT, STYLE, PALETTE, DATEMODE, CODEPAGE, WRITEACCESS and COUNTRY records as in later versions -/
  | other (c : Nat) (d : Bytes) (hc : c ∈ [fontCode v, 0x293, 0x92, 0x22, 0x42, 0x5c, 0x8c]) (h : Readable v dec items pre (.one c d)) :
      OldReadable v dec items pre (.one c d)

/-- The records about the whole file can be read. -/
structure OldOpenable (v : Nat) (override : PyStr) (codec : PyStr → Bytes → R PyStr) (items : List GItem) : Prop where
  usable : ∀ q, q <+: items → CodecUsable v override codec (lastCodepage q)
  readable : ∀ pre it post, items = pre ++ it :: post → OldReadable v (fun q => codec (textEncoding v override (lastCodepage q))) items pre it

/-- The number of XF records. -/
def xfRecords (v : Nat) (items : List GItem) : Nat := recordCount (xfCode v) items

end Xlrd.Spec
