import Verif.Model.Repr

/-!
# Representations of objects (C91)
-/
namespace Xlrd.Spec

/-- What is used of Python's `repr`: that of a string ends with a quotation mark, and that of a number has no parenthesis. -/
structure PyRepr (rv : Val → PyStr) : Prop where
  text : ∀ s, ∃ q, (rv (.text s)).getLast? = some q ∧ (q = '\'' ∨ q = '"')
  num : ∀ x, '(' ∉ rv (.num x)
  int : ∀ n, '(' ∉ rv (.int n)

end Xlrd.Spec
