import Verif.Spec.Globals

/-!
# Scopes of names in BIFF5 and BIFF7 workbooks

There a NAME record does not give the number of a sheet but the number of an EXTERNSHEET record, counted from 1, and that record holds the name of the sheet.
-/
namespace Xlrd.Spec

/-- What the EXTERNSHEET records say, in file order: the name of a sheet of this workbook (type 3), or something else. -/
inductive ExternNames (dec : List GItem → Bytes → R PyStr) : List GItem → List (Option PyStr) → Prop
  | nil : ExternNames dec [] []
  | sheet {pre : List GItem} {xs : List (Option PyStr)} {n : UInt8} {rest : Bytes} {more : List Bytes} {s : PyStr} (h : ExternNames dec pre xs)
      (hs : dec pre (rest.take n.toNat) = .ok s) : ExternNames dec (pre ++ [.extern (n :: 3 :: rest) more]) (xs ++ [some s])
  | other {pre : List GItem} {xs : List (Option PyStr)} {n ty : UInt8} {rest : Bytes} {more : List Bytes} (h : ExternNames dec pre xs) (ht : ty ≠ 3) :
      ExternNames dec (pre ++ [.extern (n :: ty :: rest) more]) (xs ++ [none])
  | skip {pre : List GItem} {xs : List (Option PyStr)} {it : GItem} (h : ExternNames dec pre xs) (hs : ∀ d more, it ≠ .extern d more) :
      ExternNames dec (pre ++ [it]) xs

/-- The scope of a name whose NAME record has the number `k`: -1 for the workbook, the number of the worksheet, -2 for a sheet that is not a
worksheet.  (Two worksheets should not have the same name; if they have, the later one is taken.) -/
inductive OldScope (sheets : List SheetRec) (xs : List (Option PyStr)) : Nat → Int → Prop
  | book : OldScope sheets xs 0 (-1)
  | sheet (k i : Nat) (n : PyStr) : xs[k]? = some (some n) → ((sheets.filter SheetRec.isWorksheet).map SheetRec.name)[i]? = some n →
      (∀ (j : Nat), i < j → ((sheets.filter SheetRec.isWorksheet).map SheetRec.name)[j]? ≠ some n) → OldScope sheets xs (k + 1) i
  | other (k : Nat) (n : PyStr) : xs[k]? = some (some n) → (∀ s ∈ sheets, s.isWorksheet = true → s.name ≠ n) → OldScope sheets xs (k + 1) (-2)

end Xlrd.Spec
