import Verif.Spec.Openable
import Verif.Spec.OldNameExpr
import Verif.Spec.RelExpr

/-!
# Names of which the formulas can be computed

The formulas of `Verif.Spec.NameExpr`, with what is needed so that their evaluation does not raise an exception.
-/
namespace Xlrd.Spec

/-- Which calculations have a result in Python: the operands of an arithmetic operator (no division by zero, no overflow), values that can be compared,
and texts that stand for a number. -/
structure Can where
  arith : Op2 → Number → Number → Prop
  compare : Op2 → Value → Value → Prop
  parse : PyStr → Prop

/-- References to cells, and calls of functions other than IF and CHOOSE: what they stand for is not known to be a number. -/
inductive NoNumber : VExpr → Prop
  | cell (cls : Cls) (refx r c : Nat) : NoNumber (.cell cls refx r c)
  | area (cls : Cls) (refx r1 r2 c1 c2 : Nat) : NoNumber (.area cls refx r1 r2 c1 c2)
  | fixed (cls : Cls) (n : Nat) (args : List VExpr) : NoNumber (.fixed cls n args)
  | varying (cls : Cls) (n : Nat) (args : List VExpr) : n ≠ 1 → n ≠ 100 → NoNumber (.varying cls n args)
  | quiet (before after : List Quiet) (e : VExpr) : NoNumber e → NoNumber (.quiet before after e)

/-- The evaluation of an expression that uses only the names `use` does not fail: the calculations on known values have results, functions have as many
arguments as they take, range and intersection are applied to single areas, what a union appends is a single area, and the index of CHOOSE has a value or
is not known to be a number. -/
inductive Safe (C : Calc) (D : Can) (loc : Nat → Nat → Nat → Prop) (fs : Nat → Option VExpr) (func : Nat → Nat → Nat → Prop) (use : Nat → Prop) : VExpr → Prop
  | int (n : Nat) : Safe C D loc fs func use (.int n)
  | num (x : B64) : Safe C D loc fs func use (.num x)
  | bool (b : Bool) : Safe C D loc fs func use (.bool b)
  | text (u : UStr) : Safe C D loc fs func use (.text u)
  | err (c : Nat) : Safe C D loc fs func use (.err c)
  | missing : Safe C D loc fs func use .missing
  | cell (cls : Cls) (refx r c : Nat) : Safe C D loc fs func use (.cell cls refx r c)
  | area (cls : Cls) (refx r1 r2 c1 c2 : Nat) : Safe C D loc fs func use (.area cls refx r1 r2 c1 c2)
  | name (cls : Cls) (k : Nat) : use k → Safe C D loc fs func use (.name cls k)
  | un (o : Op1) (e : VExpr) : Safe C D loc fs func use e → Safe C D loc fs func use (.un o e)
  | bin (o : Op2) (a b : VExpr) : Safe C D loc fs func use a → Safe C D loc fs func use b →
      (∀ v w, HasVal C loc fs a v → HasVal C loc fs b w → v.plain = true → w.plain = true →
        (o.isCalc = true → (∀ s, v = .text s ∨ w = .text s → D.parse s) ∧ ∀ x y, v.number C = some x → w.number C = some y → D.arith o x y) ∧
        (o.isCompare = true → D.compare o v w)) →
      Safe C D loc fs func use (.bin o a b)
  | refs (o : RefOp) (a b : VExpr) : Safe C D loc fs func use a → Safe C D loc fs func use b →
      (∀ l m, HasVal C loc fs a (.areas l) → HasVal C loc fs b (.areas m) → m.length = 1 ∧ (o ≠ .union → l.length = 1)) →
      Safe C D loc fs func use (.refs o a b)
  | quiet (before after : List Quiet) (e : VExpr) : Safe C D loc fs func use e → Safe C D loc fs func use (.quiet before after e)
  | mem (cls : Cls) (size : Nat) (e : VExpr) : Safe C D loc fs func use e → Safe C D loc fs func use (.mem cls size e)
  | fixed (cls : Cls) (n : Nat) (args : List VExpr) : (∀ a ∈ args, Safe C D loc fs func use a) → Safe C D loc fs func use (.fixed cls n args)
  | varying (cls : Cls) (n : Nat) (args : List VExpr) : (∀ a ∈ args, Safe C D loc fs func use a) → (∀ lo hi, func n lo hi → lo ≤ args.length ∧ args.length ≤ hi) →
      (n = 100 → ∀ c, args[0]? = some c → NoNumber c ∨ ∃ v, HasVal C loc fs c v) → Safe C D loc fs func use (.varying cls n args)
  | sum (d : Nat) (e : VExpr) : Safe C D loc fs func use e → Safe C D loc fs func use (.sum d e)

/-- Names that can be evaluated: macros and binary data are not looked at; a formula may be missing, or it is well-formed and safe (those in `fs`), or it
is an expression of references, some of them relative.  `level` shows that no name of `fs` uses itself, and that these names are nested at most ten deep. -/
def NamesComputable (C : Calc) (D : Can) (func : Nat → Nat → Nat → Prop) (sups : List SupKind) (sheets : List SheetRec) (refs : List ExtRef) (names : List NameObj) : Prop :=
  ∃ (fs : Nat → Option VExpr) (level : Nat → Nat), (∀ i, level i ≤ 10) ∧
    (∀ i x, fs i = some x → StoredAs names i x ∧ Fine C (LocalRef sups sheets refs) fs func x ∧
      Safe C D (LocalRef sups sheets refs) fs func (fun k => level k < level i ∧ PlacedName sheets names k) x) ∧
    ∀ (i : Nat) o, names[i]? = some o → o.macroFlag ≠ 0 ∨ o.binary ≠ 0 ∨ o.basicFormulaLen = 0 ∨ (∃ x, fs i = some x) ∨
      RelEvaluable 80 (NewSheets sups sheets refs) names (PlacedName sheets names) i

/-- As `NamesComputable`, in BIFF5 and BIFF7. -/
def OldNamesComputable (C : Calc) (D : Can) (func : Nat → Nat → Nat → Prop) (v : Nat) (dec : Bytes → R PyStr) (sheets : List SheetRec) (xs : List (Option PyStr))
    (names : List NameObj) : Prop :=
  ∃ (place : Nat → Option OldSheets) (fs : Nat → Option VExpr) (level : Nat → Nat), (∀ i, level i ≤ 10) ∧
    (∀ i x, fs i = some x → OldStoredAs dec place names i x ∧ Fine C (OldPlace place sheets) fs func x ∧
      Safe C D (OldPlace place sheets) fs func (fun k => level k < level i ∧ OldPlacedName sheets xs names k) x) ∧
    ∀ (i : Nat) o, names[i]? = some o → o.macroFlag ≠ 0 ∨ o.binary ≠ 0 ∨ o.basicFormulaLen = 0 ∨ (∃ x, fs i = some x) ∨
      RelEvaluable v (OwnSheets sheets) names (OldPlacedName sheets xs names) i

end Xlrd.Spec
