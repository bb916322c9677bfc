import Verif.Model.Dump
import Verif.Spec.Names
import Verif.Spec.Strings
import Verif.Spec.Container
import Verif.Spec.RecordNames

/-!
# How to read a dump

A reader for what `xlrd.dump` writes, that gets the bytes of the stream back from it and accepts nothing else: each line must start with the position of the
bytes that it shows (if the dump is numbered), the bytes must also be shown as characters, and the names and lengths of the records must be right.
-/
namespace Xlrd.Spec

def unhex (c : Char) : Option Nat :=
  if 48 ≤ c.toNat ∧ c.toNat ≤ 57 then some (c.toNat - 48) else if 97 ≤ c.toNat ∧ c.toNat ≤ 102 then some (c.toNat - 87) else none

/-- A number of four hexadecimal digits. -/
def readHex4 : PyStr → Option Nat
  | [a, b, c, d] => do
    let a ← unhex a; let b ← unhex b; let c ← unhex c; let d ← unhex d
    some (a * 4096 + b * 256 + c * 16 + d)
  | _ => none

/-- Bytes, each as two hexadecimal digits and a blank, and then only blanks. -/
def readHex : PyStr → Option Bytes
  | [] => some []
  | ' ' :: s => if s.all (· = ' ') then some [] else none
  | a :: b :: ' ' :: s => do
    let a ← unhex a; let b ← unhex b; let bs ← readHex s
    some (UInt8.ofNat (a * 16 + b) :: bs)
  | _ => none

/-- A byte as a character: those of ASCII as they are, but zero as a tilde, the others as a question mark. -/
def charOf (b : UInt8) : Char :=
  if b = 0 then '~' else if b < 32 then '?' else if b < 127 then Char.ofNat b.toNat else '?'

/-- A line with bytes: five blanks, 48 columns for hexadecimal digits, a blank and the characters. -/
def readBytes (s : PyStr) : Option Bytes := do
  let bs ← readHex ((s.drop 5).take 48)
  if s.take 5 = "     ".toList ∧ s.drop 53 = ' ' :: bs.map charOf then some bs else none

/-- A line that stands for a number of zero bytes, or for nothing. -/
def readDashes (s : PyStr) : Option Bytes :=
  if s = "---- Misc bytes at end ----".toList then some []
  else
    let ds := (s.drop 5).takeWhile isDig
    if ds ≠ [] ∧ s = "---- ".toList ++ ds ++ " zero bytes skipped ----".toList then some (List.replicate (digitsVal ds) 0) else none

/-- The name that is shown for a record code. -/
def shownName (code : Nat) : PyStr :=
  match recordNamed code with
  | some x => x
  | none => "<UNKNOWN>".toList

/-- A line for a record: its code and length. -/
def readRecord (s : PyStr) : Option Bytes := do
  let code ← readHex4 (s.take 4)
  let n := (s.drop 5).takeWhile (· ≠ ' ')
  let h := (s.drop (12 + n.length)).take 4
  let len ← readHex4 h
  if n = shownName code ∧ s = s.take 4 ++ ' ' :: n ++ " len = ".toList ++ h ++ " (".toList ++ natDec len ++ ")".toList then some (le16 code ++ le16 len) else none

/-- The bytes that a line without its number stands for. -/
def readBody (s : PyStr) : Option Bytes :=
  match s with
  | ' ' :: _ => readBytes s
  | '-' :: _ => readDashes s
  | _ => readRecord s

/-- A line without its number, which must be `pos`. -/
def readNumber (numbered : Bool) (pos : Nat) (s : PyStr) : Option PyStr :=
  if numbered then
    let n := s.takeWhile (· ≠ ':')
    let ds := n.dropWhile (· = ' ')
    if ds ≠ [] ∧ ds.all isDig ∧ digitsVal ds = pos ∧ (s.drop n.length).take 2 = ": ".toList then some (s.drop (n.length + 2)) else none
  else some s

/-- The bytes that the lines from position `pos` on stand for.  The only line that starts with a capital L is the remark about the last record. -/
def readDump (numbered : Bool) : Nat → List PyStr → Option Bytes
  | _, [] => some []
  | pos, s :: lines =>
    if s.head? = some 'L' then (if lines = [] then some [] else none)
    else do
      let body ← readNumber numbered pos s
      let bs ← readBody body
      let more ← readDump numbered (pos + bs.length) lines
      some (bs ++ more)

/-! ## Counting -/

/-- The names of the records in a stream.  If `pad`, then the stream may end with zeros, that do not count as records.  Fewer than four bytes at the end are
no record; a last record may be cut off. -/
inductive RecordNames (name : Nat → PyStr) (pad : Bool) : Bytes → List PyStr → Prop
  | few (b : Bytes) : b.length < 4 → RecordNames name pad b []
  | zeros (n : Nat) : pad = true → RecordNames name pad (List.replicate n 0) []
  | dummy (rest : Bytes) (names : List PyStr) : (∃ b ∈ rest, b ≠ 0) → RecordNames name pad rest names →
      RecordNames name pad ([0, 0, 0, 0] ++ rest) ("<Dummy (zero)>".toList :: names)
  | record (code : Nat) (data rest : Bytes) (names : List PyStr) : code < 65536 → data.length < 65536 → ¬ (code = 0 ∧ data = []) → RecordNames name pad rest names →
      RecordNames name pad (le16 code ++ le16 data.length ++ data ++ rest) (name code :: names)
  | cut (code len : Nat) (data : Bytes) : code < 65536 → len < 65536 → data.length < len → RecordNames name pad (le16 code ++ le16 len ++ data) [name code]

/-- The name under which records with a code are counted. -/
def countedName (code : Nat) : PyStr :=
  match recordNamed code with
  | some x => x
  | none => "Unknown_0x".toList ++ [code / 4096, code / 256 % 16, code / 16 % 16, code % 16].map fun d => "0123456789ABCDEF".toList.getD d ' '

/-- The lines for a list of names: each name once, in alphabetical order, with the number of times that it occurs. -/
def CountLines (names : List PyStr) (lines : List PyStr) : Prop :=
  ∃ shown : List PyStr, shown.Pairwise (fun a b => a.map Char.toNat < b.map Char.toNat) ∧ (∀ n, n ∈ shown ↔ n ∈ names) ∧
    lines = shown.map fun n => List.replicate (8 - (natDec (names.count n)).length) ' ' ++ natDec (names.count n) ++ ' ' :: n

/-- A file with the workbook stream `b`, as in `WorkbookFile`, but the stream must have as many bytes as its entry says (only streams among the short ones can
have fewer). -/
inductive StreamFile (lower : PyStr → PyStr) (depth : Nat) : Bytes → Bytes → Prop
  | plain (b : Bytes) : b ≠ [] → b.take 8 ≠ [0xD0, 0xCF, 0x11, 0xE0, 0xA1, 0xB1, 0x1A, 0xE1] → StreamFile lower depth b b
  | stream (mem h p t d e secs b) : Document mem h p t → t.height ≤ depth →
      (Finds lower (nodesOf p.entries) t ["Workbook".toList] d ∨
        (Missing lower (nodesOf p.entries) t ["Workbook".toList] ∧ Finds lower (nodesOf p.entries) t ["Book".toList] d)) →
      p.entries[d]? = some e → d ≤ 249 → StreamAt mem h p e secs b → b ≠ [] → b.length = e.size → StreamFile lower depth mem b

end Xlrd.Spec
