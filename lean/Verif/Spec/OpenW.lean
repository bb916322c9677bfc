import Verif.Spec.Biff4w
import Verif.Spec.OldOpen

/-!
# BIFF4 workbooks that can be read
-/
namespace Xlrd.Spec

/-- A record of the globals of a BIFF4 workbook that can be read when it comes after `pre`; `items` are all the records about the whole file. -/
inductive WReadable (dec : List GItem → Bytes → R PyStr) (items pre : List GItem) : GItem → Prop
  /- a SHEETSOFFSET record comes before the BOUNDSHEET records -/
  | boundsheet (name : PyStr) (txt tail : Bytes) (h : TextField 45 (dec pre) 1 name txt) (ho : Occurs 0x8e pre) : WReadable dec items pre (.one 0x85 (txt ++ tail))
  | format (d : Bytes) (s : PyStr) (h : OldFormatRecord 45 (dec pre) s d) : WReadable dec items pre (.one 0x41e d)
  /- NAME records are not looked at -/
  | name (d : Bytes) : WReadable dec items pre (.one 0x18 d)
  /- the other records as in later versions -/
  | other (it : GItem) (hc : ∀ d, it ≠ .one 0x41e d ∧ it ≠ .one 0x85 d ∧ it ≠ .one 0x18 d) (h : Readable 45 dec items pre it) : WReadable dec items pre it

/-- The records about the whole file can be read, those in the globals and those in the sheets. -/
structure WOpenable (override : PyStr) (codec : PyStr → Bytes → R PyStr) (parts : List SheetPart) (last : List GItem) : Prop where
  usable : ∀ q, q <+: bookOf parts ++ last → CodecUsable 45 override codec (lastCodepage q)
  before : ∀ pre x post, parts = pre ++ x :: post → ∀ p it q, x.before = p ++ it :: q →
    WReadable (fun q => codec (textEncoding 45 override (lastCodepage q))) (bookOf parts ++ last) (bookOf pre ++ p) it
  sheets : ∀ pre x post, parts = pre ++ x :: post → ∀ p it q, x.file.book = p ++ it :: q →
    OldReadable 45 (fun q => codec (textEncoding 45 override (lastCodepage q))) (bookOf parts ++ last) (bookOf pre ++ x.before ++ p) it
  last : ∀ p it q, last = p ++ it :: q →
    WReadable (fun q => codec (textEncoding 45 override (lastCodepage q))) (bookOf parts ++ last) (bookOf parts ++ p) it

/-- Each sheet has the name that the BOUNDSHEET record of the same rank gives, which comes before it. -/
def NamedSheets (dec : List GItem → Bytes → R PyStr) (parts : List SheetPart) : Prop :=
  ∀ pre x post, parts = pre ++ x :: post → ∃ names, SheetNames4 dec (bookOf pre ++ x.before) names ∧ names[pre.length]? = some x.name

end Xlrd.Spec
