import Verif.Spec.Globals

/-!
# References to sheets in formulas

From BIFF8 on a formula refers to sheets by an index into a table of references, the EXTERNSHEET records. Each reference says which
book it is about, by an index into the SUPBOOK records, and the first and last sheet in that book.
-/
namespace Xlrd.Spec

/-- What a SUPBOOK record stands for: this workbook, the add-in functions, or something outside. -/
inductive SupKind
  | ours | addins | other
  deriving DecidableEq

def supKind : Bytes → SupKind
  | _ :: _ :: 0x01 :: 0x04 :: _ => .ours
  | 0x01 :: 0x00 :: 0x01 :: 0x3A :: _ => .addins
  | _ => .other

/-- The SUPBOOK records. -/
def supbookOf : GItem → Option SupKind
  | .one 0x1ae d => some (supKind d)
  | _ => none
def supbooks (items : List GItem) : List SupKind := items.filterMap supbookOf

/-- A reference: the book, the first and the last sheet. -/
structure ExtRef where
  book : Nat
  first : Nat
  last : Nat

def ExtRef.enc (r : ExtRef) : Bytes := le16 r.book ++ le16 r.first ++ le16 r.last
def ExtRef.Fits (r : ExtRef) : Prop := r.book < 65536 ∧ r.first < 65536 ∧ r.last < 65536

/-- An EXTERNSHEET record with its continuations: the number of references and the references. -/
def ExternTable (d : Bytes) (l : List ExtRef) : Prop :=
  ∃ tail, l.length < 65536 ∧ (∀ r ∈ l, r.Fits) ∧ d = le16 l.length ++ (l.flatMap ExtRef.enc ++ tail)

/-- The references of all EXTERNSHEET records. -/
inductive Externs : List GItem → List ExtRef → Prop
  | nil : Externs [] []
  | take {pre : List GItem} {xs l : List ExtRef} {d : Bytes} {more : List Bytes} (h : Externs pre xs) (ht : ExternTable (d ++ more.flatten) l) :
      Externs (pre ++ [.extern d more]) (xs ++ l)
  | skip {pre : List GItem} {xs : List ExtRef} {it : GItem} (h : Externs pre xs) (hs : ∀ d more, it ≠ .extern d more) :
      Externs (pre ++ [it]) xs

/-- `k` is the last book of its kind. -/
def LastOf (sups : List SupKind) (kind : SupKind) (k : Nat) : Prop :=
  sups[k]? = some kind ∧ ∀ j : Nat, k < j → sups[j]? ≠ some kind

/-- The names of the add-in functions: an EXTERNNAME record belongs to the SUPBOOK record before it, and those of the add-in book are six
bytes of options and the name. -/
inductive AddinNames : List GItem → List PyStr → Prop
  | nil : AddinNames [] []
  | take {pre : List GItem} {xs : List PyStr} (h : AddinNames pre xs) (hs : (supbooks pre).getLast? = some .addins)
      (opts tail : Bytes) (u : UStr) (ho : opts.length = 6) (ok : u.Ok) (hl : (utf16 u.text).length < 256) :
      AddinNames (pre ++ [.one 0x23 (opts ++ (encLen 1 (utf16 u.text).length ++ u.body) ++ tail)]) (xs ++ [u.text])
  | other {pre : List GItem} {xs : List PyStr} {d : Bytes} (h : AddinNames pre xs) (hs : (supbooks pre).getLast? ≠ some .addins) :
      AddinNames (pre ++ [.one 0x23 d]) xs
  | skip {pre : List GItem} {xs : List PyStr} {it : GItem} (h : AddinNames pre xs) (hs : ∀ d, it ≠ .one 0x23 d) : AddinNames (pre ++ [it]) xs

/-- The worksheets among the sheets from `first` to `last`. -/
def worksheetsFrom (sheets : List SheetRec) (first last : Nat) : List SheetRec :=
  ((sheets.drop first).take (last + 1 - first)).filter SheetRec.isWorksheet

end Xlrd.Spec
