/-!
# The parts of a number format string
-/
namespace Xlrd.Spec

/-- A part outside brackets: text in double quotes, a character after `\`, `_` or `*`, or a character that
stands for itself. -/
inductive FPart
  | quoted (s : List Char)
  | escaped (e c : Char)
  | plain (c : Char)

def FPart.text : FPart → List Char
  | .quoted s => '"' :: s ++ ['"']
  | .escaped e c => [e, c]
  | .plain c => [c]

def isMark (c : Char) : Prop := c = '"' ∨ c = '\\' ∨ c = '_' ∨ c = '*'
instance (c : Char) : Decidable (isMark c) := by unfold isMark; infer_instance

def FPart.Ok : FPart → Prop
  | .quoted s => '"' ∉ s
  | .escaped e _ => e = '\\' ∨ e = '_' ∨ e = '*'
  | .plain c => ¬ isMark c

/-- A part of a format string: one of the above, or a section in square brackets made of them. -/
inductive FTok
  | part (p : FPart)
  | bracket (ps : List FPart)

def FTok.text : FTok → List Char
  | .part p => p.text
  | .bracket ps => '[' :: ps.flatMap FPart.text ++ [']']

def FTok.Ok : FTok → Prop
  | .part p => p.Ok ∧ p.text ≠ ['[']
  | .bracket ps => ∀ p ∈ ps, p.Ok ∧ p.text ≠ [']']

/-- The end of a format string: nothing, a quote that is never closed, or a `\`, `_` or `*` with nothing
after it. -/
inductive FEnd
  | none
  | quote (s : List Char)
  | escape (e : Char)

def FEnd.text : FEnd → List Char
  | .none => []
  | .quote s => '"' :: s
  | .escape e => [e]

def FEnd.Ok : FEnd → Prop
  | .none => True
  | .quote s => '"' ∉ s
  | .escape e => e = '\\' ∨ e = '_' ∨ e = '*'

/-- A format string: parts, perhaps a bracket that is never closed with further parts, and the end. -/
structure FmtString where
  toks : List FTok
  opened : Option (List FPart)
  fin : FEnd

def FmtString.text (f : FmtString) : List Char :=
  f.toks.flatMap FTok.text ++ (match f.opened with | some ps => '[' :: ps.flatMap FPart.text | none => []) ++ f.fin.text

def FmtString.Ok (f : FmtString) : Prop :=
  (∀ t ∈ f.toks, t.Ok) ∧ (∀ ps, f.opened = some ps → ∀ p ∈ ps, p.Ok ∧ p.text ≠ [']']) ∧ f.fin.Ok

/-- The character of a part that is not literal text. -/
def FPart.char? : FPart → Option Char
  | .plain c => some c
  | _ => none

/-- The character of a part that is neither literal text nor a bracketed section. -/
def FTok.char? : FTok → Option Char
  | .part p => p.char?
  | .bracket _ => none

/-- The characters of the format that are neither literal text nor in a bracketed section. -/
def FmtString.active (f : FmtString) : List Char :=
  f.toks.filterMap FTok.char? ++ (match f.opened with | some ps => ps.filterMap FPart.char? | none => [])

/-- Year, month or minute, day, hour, second. -/
def isDateChar (c : Char) : Bool := c ∈ ['y', 'm', 'd', 'h', 's', 'Y', 'M', 'D', 'H', 'S']
/-- Digit place holders. -/
def isDigitChar (c : Char) : Bool := c ∈ ['0', '#', '?']

/-- Upper and lower case of an ASCII letter. -/
def sameLetter (a b : Char) : Prop := a = b ∨ a.toNat + 32 = b.toNat ∧ 65 ≤ a.toNat ∧ a.toNat ≤ 90 ∨ b.toNat + 32 = a.toNat ∧ 65 ≤ b.toNat ∧ b.toNat ≤ 90

end Xlrd.Spec
