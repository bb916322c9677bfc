import Verif.Spec.RefExpr
import Verif.Spec.FormulaText
import Verif.Spec.Numbers

/-!
# The values of defined names

The formula of a defined name as BIFF8 stores it, and its value.  Constants, operators, references to cells of this workbook, other names, and the two
functions IF and CHOOSE have values; other functions and the contents of cells are not known when a name is evaluated, so nothing that depends on them
has a value.
-/
namespace Xlrd.Spec

/-- Python's two kinds of numbers.  The only integer that comes up is the zero for an argument that was left out. -/
inductive Number
  | float (x : F64)
  | int (n : Int)

inductive Value
  | num (n : Number)
  | text (s : PyStr)
  | bool (b : Bool)
  | err (code : Nat)
  | areas (l : List Ref3D)
  | empty                                        -- an argument left out

/-- The arithmetic that is used: the five operations, the six comparisons, the number that a text stands for, the text of a number, the sign and the
percent sign. -/
structure Calc where
  arith : Op2 → Number → Number → Number
  compare : Op2 → Value → Value → Bool
  parse : PyStr → Number
  write : Number → PyStr
  negate : Number → Number
  percent : Number → Number

inductive RefOp
  | isect | union | range

inductive VExpr
  | int (n : Nat)
  | num (x : B64)
  | bool (b : Bool)
  | text (u : UStr)
  | err (code : Nat)
  | missing
  | cell (cls : Cls) (refx row col : Nat)        -- Sheet!$A$1
  | area (cls : Cls) (refx row1 row2 col1 col2 : Nat)
  | name (cls : Cls) (k : Nat)                   -- the name with number k, counted from 0
  | un (o : Op1) (e : VExpr)
  | bin (o : Op2) (a b : VExpr)
  | refs (o : RefOp) (a b : VExpr)
  | quiet (before after : List Quiet) (e : VExpr)
  | mem (cls : Cls) (size : Nat) (e : VExpr)
  | fixed (cls : Cls) (number : Nat) (args : List VExpr)
  | varying (cls : Cls) (number : Nat) (args : List VExpr)
  | sum (data : Nat) (e : VExpr)

def RefOp.code : RefOp → UInt8
  | .isect => 0x0F | .union => 0x10 | .range => 0x11

/-- The tokens of an expression: operands before operators. -/
def VExpr.tokens : VExpr → Bytes
  | .int n => 0x1E :: le16 n
  | .num x => 0x1F :: x.bytes
  | .bool b => [0x1D, if b then 1 else 0]
  | .text u => 0x17 :: (encLen 1 (utf16 u.text).length ++ u.body)
  | .err c => [0x1C, UInt8.ofNat c]
  | .missing => [0x16]
  | .cell cls refx r c => UInt8.ofNat (cls.code + 0x1A) :: (le16 refx ++ encAddr 80 (.abs r) (.abs c))
  | .area cls refx r1 r2 c1 c2 => UInt8.ofNat (cls.code + 0x1B) :: (le16 refx ++ encArea 80 (.abs r1) (.abs r2) (.abs c1) (.abs c2))
  | .name cls k => UInt8.ofNat (cls.code + 0x03) :: (le16 (k + 1) ++ [0, 0])
  | .un o e => e.tokens ++ [o.code]
  | .bin o a b => a.tokens ++ (b.tokens ++ [o.code])
  | .refs o a b => a.tokens ++ (b.tokens ++ [o.code])
  | .quiet before after e => before.flatMap Quiet.enc ++ (e.tokens ++ after.flatMap Quiet.enc)
  | .mem cls size e => UInt8.ofNat (cls.code + 0x09) :: (le16 size ++ e.tokens)
  | .fixed cls n args => (args.map VExpr.tokens).flatten ++ UInt8.ofNat (cls.code + 0x01) :: le16 n
  | .varying cls n args => (args.map VExpr.tokens).flatten ++ UInt8.ofNat (cls.code + 0x02) :: UInt8.ofNat args.length :: le16 n
  | .sum d e => e.tokens ++ ([0x19, 0x10] ++ le16 d)

/-! ## Values -/

/-- The kind of an operator. -/
def Op2.isCalc : Op2 → Bool
  | .add | .sub | .mul | .div | .pow => true
  | _ => false
def Op2.isCompare : Op2 → Bool
  | .lt | .le | .eq | .ge | .gt | .ne => true
  | _ => false

/-- A value as an operand of an arithmetic operator: a number, or the number that a text stands for. -/
def Value.number (C : Calc) : Value → Option Number
  | .num n => some n
  | .text s => some (C.parse s)
  | _ => none

/-- The text of a number: a whole number is written without a decimal point. -/
def Calc.text (C : Calc) (n : Number) : PyStr :=
  match (C.write n).reverse with
  | '0' :: '.' :: r => r.reverse
  | _ => C.write n

/-- A value as an operand of `&`. -/
def Value.string (C : Calc) : Value → Option PyStr
  | .num n => some (C.text n)
  | .text s => some s
  | _ => none

/-- The values that are compared. -/
def Value.plain : Value → Bool
  | .num _ => true
  | .text _ => true
  | _ => false

/-- A condition: a truth value, 0 or 1. -/
def Value.truth : Value → Option Bool
  | .bool b => some b
  | .num (.float (.fin q)) => if q = 0 then some false else if q = 1 then some true else none
  | .num (.int n) => if n = 0 then some false else if n = 1 then some true else none
  | _ => none

/-- The whole part of a number that is at least 1. -/
def Number.whole : Number → Option Nat
  | .float (.fin q) => if 1 ≤ q then some ⌊q⌋.toNat else none
  | .float _ => none
  | .int n => if 1 ≤ n then some n.toNat else none

/-- An argument that was left out counts as zero. -/
def Value.orZero : Value → Value
  | .empty => .num (.int 0)
  | v => v

def Op1.apply (C : Calc) : Op1 → Number → Number
  | .plus, n => n
  | .minus, n => C.negate n
  | .percent, n => C.percent n

/-- The value of an expression, where name `k` has the formula `fs k` and `loc refx x y` says that entry `refx` of the table of references stands for the
worksheets from number `x` to number `y`. -/
inductive HasVal (C : Calc) (loc : Nat → Nat → Nat → Prop) (fs : Nat → Option VExpr) : VExpr → Value → Prop
  | int (n : Nat) : HasVal C loc fs (.int n) (.num (.float (.fin n)))
  | num (x : B64) : HasVal C loc fs (.num x) (.num (.float x.value))
  | bool (b : Bool) : HasVal C loc fs (.bool b) (.bool b)
  | text (u : UStr) : HasVal C loc fs (.text u) (.text u.text)
  | err (c : Nat) : HasVal C loc fs (.err c) (.err c)
  | missing : HasVal C loc fs .missing .empty
  | cell (refx r c x y : Nat) : loc refx x y → HasVal C loc fs (.cell .ref refx r c) (.areas [⟨x, y + 1, r, r + 1, c, c + 1⟩])
  | area (refx r1 r2 c1 c2 x y : Nat) : loc refx x y → HasVal C loc fs (.area .ref refx r1 r2 c1 c2) (.areas [⟨x, y + 1, r1, r2 + 1, c1, c2 + 1⟩])
  | name (cls : Cls) (k : Nat) (x : VExpr) (v : Value) : fs k = some x → HasVal C loc fs x v → HasVal C loc fs (.name cls k) v
  | sign (o : Op1) (e : VExpr) (n : Number) : HasVal C loc fs e (.num n) → HasVal C loc fs (.un o e) (.num (o.apply C n))
  | arith (o : Op2) (a b : VExpr) (v w : Value) (x y : Number) : o.isCalc = true → HasVal C loc fs a v → HasVal C loc fs b w → v.number C = some x →
      w.number C = some y → HasVal C loc fs (.bin o a b) (.num (C.arith o x y))
  | concat (a b : VExpr) (v w : Value) (s t : PyStr) : HasVal C loc fs a v → HasVal C loc fs b w → v.string C = some s → w.string C = some t →
      HasVal C loc fs (.bin .cat a b) (.text (s ++ t))
  | compare (o : Op2) (a b : VExpr) (v w : Value) : o.isCompare = true → HasVal C loc fs a v → HasVal C loc fs b w → v.plain = true → w.plain = true →
      HasVal C loc fs (.bin o a b) (.bool (C.compare o v w))
  | range (a b : VExpr) (x y : Ref3D) : HasVal C loc fs a (.areas [x]) → HasVal C loc fs b (.areas [y]) → HasVal C loc fs (.refs .range a b) (.areas [hull x y])
  | isect (a b : VExpr) (x y : Ref3D) : HasVal C loc fs a (.areas [x]) → HasVal C loc fs b (.areas [y]) → HasVal C loc fs (.refs .isect a b) (.areas [meet x y])
  | union (a b : VExpr) (l : List Ref3D) (y : Ref3D) : HasVal C loc fs a (.areas l) → HasVal C loc fs b (.areas [y]) →
      HasVal C loc fs (.refs .union a b) (.areas (l ++ [y]))
  | quiet (before after : List Quiet) (e : VExpr) (v : Value) : HasVal C loc fs e v → HasVal C loc fs (.quiet before after e) v
  | mem (cls : Cls) (size : Nat) (e : VExpr) (v : Value) : HasVal C loc fs e v → HasVal C loc fs (.mem cls size e) v
  /-- `IF(c, a, …)` with a true condition. -/
  | ifTrue (cls : Cls) (c a : VExpr) (more : List VExpr) (t v : Value) : HasVal C loc fs c t → t.truth = some true → HasVal C loc fs a v →
      HasVal C loc fs (.varying cls 1 (c :: a :: more)) v.orZero
  /-- `IF(c, a, b)` with a false condition. -/
  | ifFalse (cls : Cls) (c a b : VExpr) (t v : Value) : HasVal C loc fs c t → t.truth = some false → HasVal C loc fs b v →
      HasVal C loc fs (.varying cls 1 [c, a, b]) v.orZero
  /-- `IF(c, a)` with a false condition. -/
  | ifElse (cls : Cls) (c a : VExpr) (t : Value) : HasVal C loc fs c t → t.truth = some false → HasVal C loc fs (.varying cls 1 [c, a]) (.bool false)
  /-- `CHOOSE(c, a, b, …)` -/
  | choose (cls : Cls) (c a : VExpr) (args : List VExpr) (n : Number) (i : Nat) (v : Value) : HasVal C loc fs c (.num n) → n.whole = some i →
      args[i - 1]? = some a → HasVal C loc fs a v → HasVal C loc fs (.varying cls 100 (c :: args)) v.orZero

/-- The error values. -/
def errorCodes : List Nat := [0x00, 0x07, 0x0F, 0x17, 0x1D, 0x24, 0x2A]

/-- Well-formed expressions, of which the names have well-formed formulas: fields fit, references are to worksheets of this workbook, functions exist
(`fun n lo hi`: function `n` takes from `lo` to `hi` arguments) and have arguments, and a sign or percent sign is not applied to something that is known
not to be a number. -/
inductive Fine (C : Calc) (loc : Nat → Nat → Nat → Prop) (fs : Nat → Option VExpr) (func : Nat → Nat → Nat → Prop) : VExpr → Prop
  | int (n : Nat) : n < 65536 → Fine C loc fs func (.int n)
  | num (x : B64) : x.Ok → Fine C loc fs func (.num x)
  | bool (b : Bool) : Fine C loc fs func (.bool b)
  | text (u : UStr) : u.Ok → (utf16 u.text).length < 256 → Fine C loc fs func (.text u)
  | err (c : Nat) : c ∈ errorCodes → Fine C loc fs func (.err c)
  | missing : Fine C loc fs func .missing
  | cell (cls : Cls) (refx r c x y : Nat) : refx < 65536 → loc refx x y → r < 65536 → c < 256 → Fine C loc fs func (.cell cls refx r c)
  | area (cls : Cls) (refx r1 r2 c1 c2 x y : Nat) : refx < 65536 → loc refx x y → r1 < 65536 → r2 < 65536 → c1 < 256 → c2 < 256 →
      Fine C loc fs func (.area cls refx r1 r2 c1 c2)
  | name (cls : Cls) (k : Nat) (x : VExpr) : k + 1 < 65536 → fs k = some x → Fine C loc fs func x → Fine C loc fs func (.name cls k)
  | un (o : Op1) (e : VExpr) : Fine C loc fs func e → (∀ v, HasVal C loc fs e v → ∃ n, v = .num n) → Fine C loc fs func (.un o e)
  | bin (o : Op2) (a b : VExpr) : Fine C loc fs func a → Fine C loc fs func b → Fine C loc fs func (.bin o a b)
  | refs (o : RefOp) (a b : VExpr) : Fine C loc fs func a → Fine C loc fs func b → Fine C loc fs func (.refs o a b)
  | quiet (before after : List Quiet) (e : VExpr) : (∀ q ∈ before, q.Ok) → (∀ q ∈ after, q.Ok) → Fine C loc fs func e → Fine C loc fs func (.quiet before after e)
  | mem (cls : Cls) (size : Nat) (e : VExpr) : size < 65536 → Fine C loc fs func e → Fine C loc fs func (.mem cls size e)
  | fixed (cls : Cls) (n hi : Nat) (args : List VExpr) : n < 65536 → func n args.length hi → (∀ a ∈ args, Fine C loc fs func a) → Fine C loc fs func (.fixed cls n args)
  | varying (cls : Cls) (n lo hi : Nat) (args : List VExpr) : n < 32768 → func n lo hi → args ≠ [] → args.length < 128 → (∀ a ∈ args, Fine C loc fs func a) →
      Fine C loc fs func (.varying cls n args)
  | sum (d : Nat) (e : VExpr) : d < 65536 → Fine C loc fs func e → Fine C loc fs func (.sum d e)

/-- The formula of the ordinary name `k` is stored as `e`. -/
def StoredAs (names : List NameObj) (k : Nat) (e : VExpr) : Prop :=
  ∃ o rest, names[k]? = some o ∧ o.macroFlag = 0 ∧ o.binary = 0 ∧ o.rawFormula = e.tokens ++ rest ∧ o.basicFormulaLen = e.tokens.length

end Xlrd.Spec
