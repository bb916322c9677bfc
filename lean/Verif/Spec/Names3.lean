import Verif.Spec.Names

/-!
# Reading references with sheet names

What a reader understands by `Sheet1!$A$1`, `'My sheet'!$A$1:$B$2` or `Jan:Mar!$A$1`.
-/
namespace Xlrd.Spec

/-- The rest of a quoted name: up to a quote that is not doubled. -/
def scanQuoted : PyStr → Option (PyStr × PyStr)
  | [] => none
  | '\'' :: '\'' :: cs => (scanQuoted cs).map fun (n, r) => ('\'' :: n, r)
  | '\'' :: cs => some ([], cs)
  | c :: cs => (scanQuoted cs).map fun (n, r) => (c :: n, r)

def bareChar (c : Char) : Bool := decide (c ≠ ':') && decide (c ≠ '!')

/-- A sheet name at the beginning of a text, quoted or bare, and what follows it. -/
def scanSheet : PyStr → Option (PyStr × PyStr)
  | '\'' :: s => scanQuoted s
  | s => if s.takeWhile bareChar = [] then none else some (s.takeWhile bareChar, s.dropWhile bareChar)

/-- `Sheet!…` or `First:Last!…`: the two sheet names and what follows the mark. -/
def readSheets (s : PyStr) : Option ((PyStr × PyStr) × PyStr) :=
  match scanSheet s with
  | some (a, '!' :: t) => some ((a, a), t)
  | some (a, ':' :: t) =>
    match scanSheet t with
    | some (b, '!' :: u) => some ((a, b), u)
    | _ => none
  | _ => none

/-- A reference to a rectangle of cells on a range of sheets. -/
def read3d (s : PyStr) : Option ((PyStr × PyStr) × (Nat × Nat × Nat × Nat)) :=
  match readSheets s with
  | some (n, t) => (readRange t).map fun r => (n, r)
  | none => none

/-- Two cell names with a colon between them. -/
def readPair {α : Type} (cell : PyStr → Option α) (s : PyStr) : Option (α × α) :=
  match s.dropWhile (· ≠ ':') with
  | _ :: t => do
    let a ← cell (s.takeWhile (· ≠ ':'))
    let b ← cell t
    pure (a, b)
  | [] => none

/-- The sheet names that can be told from the text around them: not empty, and without `:` and `!` unless there is a reason to quote them. -/
def ClearName (n : PyStr) : Prop := n ≠ [] ∧ ('\'' ∈ n ∨ ' ' ∈ n ∨ (':' ∉ n ∧ '!' ∉ n))

instance (n : PyStr) : Decidable (ClearName n) := inferInstanceAs (Decidable (_ ∧ _))

end Xlrd.Spec
