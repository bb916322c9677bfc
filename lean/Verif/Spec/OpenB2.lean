import Verif.Spec.Biff2
import Verif.Spec.OldOpen

/-!
# Files of BIFF2 that can be read
-/
namespace Xlrd.Spec

/-- The number 63 of an XF record stands for the one in the last IXFE record: there must be such a record before. -/
def IxfeGiven (fi : Bool) (items : List B2Item) : Prop :=
  ∀ q ∈ withIxfe none items, (∀ a ∈ q.2.attrs fi, a.slot = 63 → q.1 ≠ none) ∧ (∀ x ∈ q.2.rowNumbers fi, x = 63 → q.1 ≠ none)

/-- Nothing refers to XF records by number. -/
def NoXfNumbers (fi : Bool) (items : List B2Item) : Prop :=
  ∀ it ∈ items, (∀ a ∈ it.attrs fi, a.slot = 0) ∧ it.rowNumbers fi = []

end Xlrd.Spec
