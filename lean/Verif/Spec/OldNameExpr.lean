import Verif.Spec.NameExpr
import Verif.Spec.OldRefExpr

/-!
# The values of defined names in BIFF5 and BIFF7 workbooks

The expressions and values are those of `Verif.Spec.NameExpr`.  What differs is how texts, references to sheets and names are stored.
-/
namespace Xlrd.Spec

/-- How an expression is stored.  `dec` gives the text for its bytes.  A reference of these versions holds the numbers of its sheets; `place` gives the
sheets of the references, which are numbered in some way. -/
inductive OldTokens (dec : Bytes → R PyStr) (place : Nat → Option OldSheets) : VExpr → Bytes → Prop
  | int (n : Nat) : OldTokens dec place (.int n) (0x1E :: le16 n)
  | num (x : B64) : OldTokens dec place (.num x) (0x1F :: x.bytes)
  | bool (b : Bool) : OldTokens dec place (.bool b) [0x1D, if b then 1 else 0]
  | text (u : UStr) (t : Bytes) : t.length < 256 → dec t = .ok u.text → OldTokens dec place (.text u) (0x17 :: (encLen 1 t.length ++ t))
  | err (c : Nat) : OldTokens dec place (.err c) [0x1C, UInt8.ofNat c]
  | missing : OldTokens dec place .missing [0x16]
  | cell (cls : Cls) (k r c : Nat) (sh : OldSheets) : place k = some sh → r < 16384 →
      OldTokens dec place (.cell cls k r c) (UInt8.ofNat (cls.code + 0x1A) :: (sh.enc ++ encAddr 70 (.abs r) (.abs c)))
  | area (cls : Cls) (k r1 r2 c1 c2 : Nat) (sh : OldSheets) : place k = some sh → r1 < 16384 → r2 < 16384 →
      OldTokens dec place (.area cls k r1 r2 c1 c2) (UInt8.ofNat (cls.code + 0x1B) :: (sh.enc ++ encArea 70 (.abs r1) (.abs r2) (.abs c1) (.abs c2)))
  | name (cls : Cls) (k : Nat) (unused : Bytes) : unused.length = 12 → OldTokens dec place (.name cls k) (UInt8.ofNat (cls.code + 0x03) :: (le16 (k + 1) ++ unused))
  | un (o : Op1) (e : VExpr) (t : Bytes) : OldTokens dec place e t → OldTokens dec place (.un o e) (t ++ [o.code])
  | bin (o : Op2) (a b : VExpr) (s t : Bytes) : OldTokens dec place a s → OldTokens dec place b t → OldTokens dec place (.bin o a b) (s ++ (t ++ [o.code]))
  | refs (o : RefOp) (a b : VExpr) (s t : Bytes) : OldTokens dec place a s → OldTokens dec place b t → OldTokens dec place (.refs o a b) (s ++ (t ++ [o.code]))
  | quiet (before after : List Quiet) (e : VExpr) (t : Bytes) : OldTokens dec place e t →
      OldTokens dec place (.quiet before after e) (before.flatMap Quiet.enc ++ (t ++ after.flatMap Quiet.enc))
  | mem (cls : Cls) (size : Nat) (e : VExpr) (t : Bytes) : OldTokens dec place e t →
      OldTokens dec place (.mem cls size e) (UInt8.ofNat (cls.code + 0x09) :: (le16 size ++ t))
  | fixed (cls : Cls) (n : Nat) (args : List VExpr) (ts : List Bytes) : List.Forall₂ (OldTokens dec place) args ts →
      OldTokens dec place (.fixed cls n args) (ts.flatten ++ UInt8.ofNat (cls.code + 0x01) :: le16 n)
  | varying (cls : Cls) (n : Nat) (args : List VExpr) (ts : List Bytes) : List.Forall₂ (OldTokens dec place) args ts →
      OldTokens dec place (.varying cls n args) (ts.flatten ++ UInt8.ofNat (cls.code + 0x02) :: UInt8.ofNat args.length :: le16 n)
  | sum (d : Nat) (e : VExpr) (t : Bytes) : OldTokens dec place e t → OldTokens dec place (.sum d e) (t ++ ([0x19, 0x10] ++ le16 d))

/-- The formula of the ordinary name `k` is stored as `e`. -/
def OldStoredAs (dec : Bytes → R PyStr) (place : Nat → Option OldSheets) (names : List NameObj) (k : Nat) (e : VExpr) : Prop :=
  ∃ o t rest, names[k]? = some o ∧ o.macroFlag = 0 ∧ o.binary = 0 ∧ OldTokens dec place e t ∧ o.rawFormula = t ++ rest ∧ o.basicFormulaLen = t.length

/-- The references with number `k` are to the worksheets from number `x` to number `y` of this workbook. -/
def OldPlace (place : Nat → Option OldSheets) (sheets : List SheetRec) (k x y : Nat) : Prop := ∃ sh, place k = some sh ∧ OldLocal sheets sh x y

end Xlrd.Spec
