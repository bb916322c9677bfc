import Verif.Spec.Strings

/-!
# Texts of formulas and how to read them

Expression trees, the grammar of formulas in Excel's notation (precedence of operators, all binary operators grouped to the left), and the
encoding of expressions as strings of tokens in reverse Polish notation.
-/
namespace Xlrd.Spec

/-! ## Trees -/

inductive Op2
  | add | sub | mul | div | pow | cat | lt | le | eq | ge | gt | ne
  deriving DecidableEq, Repr

inductive Op1
  | plus | minus | percent
  deriving DecidableEq, Repr

/-- Comparisons bind least, exponentiation binds most of the binary operators. -/
def Op2.prec : Op2 → Nat
  | .lt | .le | .eq | .ge | .gt | .ne => 10
  | .cat => 20
  | .add | .sub => 30
  | .mul | .div => 40
  | .pow => 50

/-- The structure of a formula. Constants and references are leaves, with their text; an argument of a function may be missing.
`range` is the smallest area with both operands, `isect` what the operands have in common. -/
inductive Tree
  | leaf (word : PyStr)
  | un (o : Op1) (e : Tree)
  | bin (o : Op2) (a b : Tree)
  | range (a b : Tree)
  | isect (a b : Tree)
  | call (f : PyStr) (args : List Tree)
  | missing

/-! ## From characters to symbols -/

inductive Sym
  | word (w : PyStr)
  | op (o : Op2)
  | percent
  | lpar
  | rpar
  | comma
  | colon
  | space
  deriving DecidableEq, Repr

/-- Where the reader is: between symbols, inside a word, inside a quoted part or a bracketed part of a word, or after `<` or `>`. The characters of
a word are kept in reverse. -/
inductive Mode
  | gap
  | word (w : PyStr)
  | quoted (q : Char) (w : PyStr)
  | bracket (w : PyStr)
  | less
  | greater
  deriving DecidableEq, Repr

/-- The symbols that are one character. -/
def symOf : Char → Option Sym
  | '+' => some (.op .add)
  | '-' => some (.op .sub)
  | '*' => some (.op .mul)
  | '/' => some (.op .div)
  | '^' => some (.op .pow)
  | '&' => some (.op .cat)
  | '=' => some (.op .eq)
  | '%' => some .percent
  | '(' => some .lpar
  | ')' => some .rpar
  | ',' => some .comma
  | ':' => some .colon
  | ' ' => some .space
  | _ => none

/-- A character of a word. -/
def inWord (w : PyStr) (c : Char) : Mode :=
  if c = '"' ∨ c = '\'' then .quoted c (c :: w) else if c = '[' then .bracket (c :: w) else .word (c :: w)

/-- A character between symbols. -/
def fromGap (c : Char) : List Sym × Mode :=
  match symOf c with
  | some s => ([s], .gap)
  | none =>
    if c = '<' then ([], .less)
    else if c = '>' then ([], .greater)
    else ([], inWord [] c)

/-- A number of which the sign of the exponent is next, like `1.5e`. -/
def wantsSign (w : PyStr) : Bool :=
  match w, w.getLast? with
  | 'e' :: _, some d => d.isDigit
  | _, _ => false

/-- One character: the symbols that are complete, and where the reader is then. -/
def readChar : Mode → Char → List Sym × Mode
  | .gap, c => fromGap c
  | .word w, c =>
    if wantsSign w ∧ (c = '+' ∨ c = '-') then ([], .word (c :: w))
    else if symOf c = none ∧ c ≠ '<' ∧ c ≠ '>' then ([], inWord w c)
    else (.word w.reverse :: (fromGap c).1, (fromGap c).2)
  | .quoted q w, c => if c = q then ([], .word (c :: w)) else ([], .quoted q (c :: w))
  | .bracket w, c => if c = ']' then ([], .word (c :: w)) else ([], .bracket (c :: w))
  | .less, c =>
    if c = '=' then ([.op .le], .gap) else if c = '>' then ([.op .ne], .gap) else (.op .lt :: (fromGap c).1, (fromGap c).2)
  | .greater, c => if c = '=' then ([.op .ge], .gap) else (.op .gt :: (fromGap c).1, (fromGap c).2)

/-- The symbols read from a text and where the reader is at its end. -/
def readChars : Mode → PyStr → List Sym × Mode
  | m, [] => ([], m)
  | m, c :: cs => ((readChar m c).1 ++ (readChars (readChar m c).2 cs).1, (readChars (readChar m c).2 cs).2)

/-- The end of the text completes the last symbol; an open quote is an error. -/
def Mode.finish : Mode → Option (List Sym)
  | .gap => some []
  | .word w => some [.word w.reverse]
  | .less => some [.op .lt]
  | .greater => some [.op .gt]
  | _ => none

/-- The symbols of a text. -/
def symbols (s : PyStr) : Option (List Sym) := (readChars .gap s).2.finish.map ((readChars .gap s).1 ++ ·)

/-- A text that is a single word, also when an operator follows. -/
def IsWord (s : PyStr) : Prop := s ≠ [] ∧ readChars .gap s = ([], .word s.reverse) ∧ wantsSign s.reverse = false

/-! ## From symbols to trees -/

def commaJoin : List (List Sym) → List Sym
  | [] => []
  | [l] => l
  | l :: ls => l ++ .comma :: commaJoin ls

/-- `Reads p l e`: the symbols `l` are an expression with the structure `e` in which all operators outside of parentheses bind at least as
much as `p` says.  The levels are: 0 an argument, 10 to 50 the binary operators, 60 the percent sign, 70 the signs, 75 the
intersection, written as a space, 80 the range, 90 the rest. -/
inductive Reads : Nat → List Sym → Tree → Prop
  | word (w : PyStr) : Reads 90 [.word w] (.leaf w)
  | parens {l : List Sym} {e : Tree} (h : Reads 10 l e) : Reads 90 (.lpar :: l ++ [.rpar]) e
  | call (f : PyStr) (ps : List (List Sym × Tree)) (h : ∀ p ∈ ps, Reads 0 p.1 p.2) (hm : ps ≠ [([], .missing)]) :
      Reads 90 (.word f :: .lpar :: commaJoin (ps.map Prod.fst) ++ [.rpar]) (.call f (ps.map Prod.snd))
  | plus {l : List Sym} {e : Tree} (h : Reads 70 l e) : Reads 70 (.op .add :: l) (.un .plus e)
  | minus {l : List Sym} {e : Tree} (h : Reads 70 l e) : Reads 70 (.op .sub :: l) (.un .minus e)
  | percent {l : List Sym} {e : Tree} (h : Reads 60 l e) : Reads 60 (l ++ [.percent]) (.un .percent e)
  | binary {o : Op2} {l r : List Sym} {a b : Tree} (h1 : Reads o.prec l a) (h2 : Reads (o.prec + 1) r b) : Reads o.prec (l ++ .op o :: r) (.bin o a b)
  | range {l r : List Sym} {a b : Tree} (h1 : Reads 80 l a) (h2 : Reads 81 r b) : Reads 80 (l ++ .colon :: r) (.range a b)
  | isect {l r : List Sym} {a b : Tree} (h1 : Reads 75 l a) (h2 : Reads 76 r b) : Reads 75 (l ++ .space :: r) (.isect a b)
  | missing : Reads 0 [] .missing
  | tighter {p q : Nat} {l : List Sym} {e : Tree} (hp : p ≤ q) (h : Reads q l e) : Reads p l e

/-- The text `s` denotes the tree `e`. -/
def FormulaDenotes (s : PyStr) (e : Tree) : Prop := ∃ l, symbols s = some l ∧ Reads 10 l e

/-- No right operand of a binary operator is an operation of the same precedence, except for intersections. -/
def Tree.LeftGrouped : Tree → Prop
  | .leaf _ => True
  | .un _ e => e.LeftGrouped
  | .bin o a b => a.LeftGrouped ∧ b.LeftGrouped ∧ ∀ o' x y, b = .bin o' x y → o'.prec ≠ o.prec
  | .range a b => a.LeftGrouped ∧ b.LeftGrouped ∧ ∀ x y, b ≠ .range x y
  | .isect a b => a.LeftGrouped ∧ b.LeftGrouped
  | .call _ args => ∀ a ∈ args, a.LeftGrouped
  | .missing => True

/-- The operator `o` with the operands `a` and `b`, after dropping parentheses around `b` where operators of the same precedence meet. -/
def join (o : Op2) (a : Tree) : Tree → Tree
  | .bin o' x y => if o'.prec = o.prec then .bin o' (join o a x) y else .bin o a (.bin o' x y)
  | b => .bin o a b

/-- The same for ranges. -/
def joinRange (a : Tree) : Tree → Tree
  | .range x y => .range (joinRange a x) y
  | b => .range a b

/-- The tree that is left when parentheses between operators of the same precedence are dropped. -/
def Tree.regroup : Tree → Tree
  | .leaf w => .leaf w
  | .un o e => .un o e.regroup
  | .bin o a b => join o a.regroup b.regroup
  | .range a b => joinRange a.regroup b.regroup
  | .isect a b => .isect a.regroup b.regroup
  | .call f args => .call f (args.map Tree.regroup)
  | .missing => .missing

/-! ## From expressions to tokens -/

def Op2.code : Op2 → UInt8
  | .add => 0x03 | .sub => 0x04 | .mul => 0x05 | .div => 0x06 | .pow => 0x07 | .cat => 0x08
  | .lt => 0x09 | .le => 0x0A | .eq => 0x0B | .ge => 0x0C | .gt => 0x0D | .ne => 0x0E

def Op1.code : Op1 → UInt8
  | .plus => 0x12 | .minus => 0x13 | .percent => 0x14

/-- Tokens without an effect on the value: parentheses, and hints for the layout or the recalculation. -/
inductive Quiet
  | parens
  | hint (kind : UInt8) (data : Nat)
  | jumps (offsets : List Nat)

def Quiet.Ok : Quiet → Prop
  | .parens => True
  | .hint k d => k ≠ 0x04 ∧ k ≠ 0x10 ∧ d < 65536
  | .jumps offs => 1 ≤ offs.length ∧ offs.length ≤ 65536

def Quiet.enc : Quiet → Bytes
  | .parens => [0x15]
  | .hint k d => [0x19, k] ++ le16 d
  | .jumps offs => [0x19, 0x04] ++ le16 (offs.length - 1) ++ offs.flatMap le16

/-- The class of a token: reference, value or array. -/
inductive Cls
  | ref | val | arr

def Cls.code : Cls → Nat
  | .ref => 0x20 | .val => 0x40 | .arr => 0x60

/-- An expression as it is stored.  A leaf has its token and the text for it, a reference to an area its token and the texts for the corners.  A function has a fixed number of arguments, or the number is
stored; `sum` is the short form for a sum of one argument. -/
inductive Stored
  | leaf (token : Bytes) (word : PyStr)
  | area (token : Bytes) (first last : PyStr)
  | un (o : Op1) (e : Stored)
  | bin (o : Op2) (a b : Stored)
  | range (a b : Stored)
  | isect (a b : Stored)
  | quiet (before after : List Quiet) (e : Stored)
  | fixed (cls : Cls) (number : Nat) (name : PyStr) (args : List Stored)
  | varying (cls : Cls) (number : Nat) (name : PyStr) (args : List Stored)
  | sum (data : Nat) (e : Stored)
  | missing

/-- Its structure. -/
def Stored.tree : Stored → Tree
  | .leaf _ w => .leaf w
  | .area _ v w => .range (.leaf v) (.leaf w)
  | .un o e => .un o e.tree
  | .bin o a b => .bin o a.tree b.tree
  | .range a b => .range a.tree b.tree
  | .isect a b => .isect a.tree b.tree
  | .quiet _ _ e => e.tree
  | .fixed _ _ f args => .call f (args.map Stored.tree)
  | .varying _ _ f args => .call f (args.map Stored.tree)
  | .sum _ e => .call "SUM".toList [e.tree]
  | .missing => .missing

/-- The number of a function: two bytes from BIFF4 on. -/
def encFunc (bv n : Nat) : Bytes := if bv ≥ 40 then le16 n else [UInt8.ofNat n]

/-- Its tokens: operands before operators. -/
def Stored.enc (bv : Nat) : Stored → Bytes
  | .leaf tok _ => tok
  | .area tok _ _ => tok
  | .un o e => e.enc bv ++ [o.code]
  | .bin o a b => a.enc bv ++ b.enc bv ++ [o.code]
  | .range a b => a.enc bv ++ b.enc bv ++ [0x11]
  | .isect a b => a.enc bv ++ b.enc bv ++ [0x0F]
  | .quiet before after e => before.flatMap Quiet.enc ++ e.enc bv ++ after.flatMap Quiet.enc
  | .fixed c n _ args => (args.map (Stored.enc bv)).flatten ++ UInt8.ofNat (c.code + 1) :: encFunc bv n
  | .varying c n _ args => (args.map (Stored.enc bv)).flatten ++ UInt8.ofNat (c.code + 2) :: UInt8.ofNat args.length :: encFunc bv n
  | .sum d e => e.enc bv ++ [0x19, 0x10] ++ le16 d
  | .missing => [0x16]

end Xlrd.Spec
