import Verif.Model.Formatting
import Verif.Spec.Strings

/-!
# How formatting records are written

FONT and XF records as sequences of bit fields, lowest bit first.
-/
namespace Xlrd.Spec

/-- A number made of fields `(value, width in bits)`, lowest first. -/
def packFields : List (Nat × Nat) → Nat
  | [] => 0
  | (v, w) :: r => v + 2 ^ w * packFields r

/-- Every value fits its field. -/
def FieldsFit (l : List (Nat × Nat)) : Prop := ∀ f ∈ l, f.1 < 2 ^ f.2

/-- `n` bytes, lowest first. -/
def leBytes : Nat → Nat → Bytes
  | 0, _ => []
  | n + 1, x => UInt8.ofNat (x % 256) :: leBytes n (x / 256)

/-- BIFF8 XF record, 20 bytes.  `u` are the unused bits. -/
def xfFields8 (x : XF) (u : Nat × Nat × Nat × Nat × Nat) : List (Nat × Nat) :=
  [(x.fontIndex, 16), (x.formatKey, 16),
   (x.cellLocked, 1), (x.formulaHidden, 1), (x.isStyle, 1), (x.lotus123Prefix, 1), (x.parentStyleIndex, 12),
   (x.horAlign, 3), (x.textWrapped, 1), (x.vertAlign, 3), (u.1, 1),
   (x.rotation, 8),
   (x.indentLevel, 4), (x.shrinkToFit, 1), (u.2.1, 1), (x.textDirection, 2),
   (u.2.2.1, 2), (x.formatFlag, 1), (x.fontFlag, 1), (x.alignmentFlag, 1), (x.borderFlag, 1), (x.backgroundFlag, 1),
   (x.protectionFlag, 1),
   (x.leftLineStyle, 4), (x.rightLineStyle, 4), (x.topLineStyle, 4), (x.bottomLineStyle, 4),
   (x.leftColourIndex, 7), (x.rightColourIndex, 7), (x.diagDown, 1), (x.diagUp, 1),
   (x.topColourIndex, 7), (x.bottomColourIndex, 7), (x.diagColourIndex, 7), (x.diagLineStyle, 4), (u.2.2.2.1, 1),
   (x.fillPattern, 6),
   (x.patternColourIndex, 7), (x.backgroundColourIndex, 7), (u.2.2.2.2, 2)]

/-- Text orientation before BIFF8: not rotated, stacked, 90 degrees counterclockwise, 90 degrees clockwise. -/
def orientation (rotation : Nat) : Nat :=
  if rotation = 255 then 1 else if rotation = 90 then 2 else if rotation = 180 then 3 else 0

def IsOrientation (rotation : Nat) : Prop := rotation = 0 ∨ rotation = 255 ∨ rotation = 90 ∨ rotation = 180

/-- The attributes that only BIFF8 records have. -/
def NoBiff8Attributes (x : XF) : Prop :=
  x.indentLevel = 0 ∧ x.shrinkToFit = 0 ∧ x.textDirection = 0 ∧ x.diagLineStyle = 0 ∧ x.diagColourIndex = 0 ∧
  x.diagDown = 0 ∧ x.diagUp = 0

/-- BIFF5/BIFF7 XF record, 16 bytes. -/
def xfFields5 (x : XF) (u : Nat × Nat × Nat) : List (Nat × Nat) :=
  [(x.fontIndex, 16), (x.formatKey, 16),
   (x.cellLocked, 1), (x.formulaHidden, 1), (x.isStyle, 1), (x.lotus123Prefix, 1), (x.parentStyleIndex, 12),
   (x.horAlign, 3), (x.textWrapped, 1), (x.vertAlign, 3), (u.1, 1),
   (orientation x.rotation, 2),
   (x.formatFlag, 1), (x.fontFlag, 1), (x.alignmentFlag, 1), (x.borderFlag, 1), (x.backgroundFlag, 1), (x.protectionFlag, 1),
   (x.patternColourIndex, 7), (x.backgroundColourIndex, 7), (u.2.1, 2), (x.fillPattern, 6), (x.bottomLineStyle, 3),
   (x.bottomColourIndex, 7),
   (x.topLineStyle, 3), (x.leftLineStyle, 3), (x.rightLineStyle, 3), (x.topColourIndex, 7), (x.leftColourIndex, 7),
   (x.rightColourIndex, 7), (u.2.2, 2)]

/-- The background and border fields of BIFF3 and BIFF4. -/
def xfFields34 (x : XF) : List (Nat × Nat) :=
  [(x.fillPattern, 6), (x.patternColourIndex, 5), (x.backgroundColourIndex, 5),
   (x.topLineStyle, 3), (x.topColourIndex, 5), (x.leftLineStyle, 3), (x.leftColourIndex, 5),
   (x.bottomLineStyle, 3), (x.bottomColourIndex, 5), (x.rightLineStyle, 3), (x.rightColourIndex, 5)]

/-- BIFF4 XF record, 12 bytes. -/
def xfFields4 (x : XF) (u : Nat) : List (Nat × Nat) :=
  [(x.fontIndex, 8), (x.formatKey, 8),
   (x.cellLocked, 1), (x.formulaHidden, 1), (x.isStyle, 1), (x.lotus123Prefix, 1), (x.parentStyleIndex, 12),
   (x.horAlign, 3), (x.textWrapped, 1), (x.vertAlign, 2), (orientation x.rotation, 2),
   (u, 2), (x.formatFlag, 1), (x.fontFlag, 1), (x.alignmentFlag, 1), (x.borderFlag, 1), (x.backgroundFlag, 1),
   (x.protectionFlag, 1)] ++ xfFields34 x

/-- BIFF3 XF record, 12 bytes: text is at the bottom and not rotated. -/
def xfFields3 (x : XF) (u : Nat × Nat) : List (Nat × Nat) :=
  [(x.fontIndex, 8), (x.formatKey, 8),
   (x.cellLocked, 1), (x.formulaHidden, 1), (x.isStyle, 1), (x.lotus123Prefix, 1), (u.1, 4),
   (u.2, 2), (x.formatFlag, 1), (x.fontFlag, 1), (x.alignmentFlag, 1), (x.borderFlag, 1), (x.backgroundFlag, 1),
   (x.protectionFlag, 1),
   (x.horAlign, 3), (x.textWrapped, 1), (x.parentStyleIndex, 12)] ++ xfFields34 x

/-- BIFF2 XF record, 4 bytes: each border is there (thin, black) or not, the cell is shaded or not. -/
def xfFields2 (x : XF) (u : Nat) : List (Nat × Nat) :=
  [(x.fontIndex, 8), (u, 8), (x.formatKey, 6), (x.cellLocked, 1), (x.formulaHidden, 1), (x.horAlign, 3),
   (x.leftLineStyle, 1), (x.rightLineStyle, 1), (x.topLineStyle, 1), (x.bottomLineStyle, 1),
   (if x.fillPattern = 0 then 0 else 1, 1)]

/-- What a BIFF2 record cannot say, as the documentation of the attributes has it. -/
def Biff2Attributes (x : XF) : Prop :=
  NoBiff8Attributes x ∧ x.isStyle = 0 ∧ x.lotus123Prefix = 0 ∧ x.parentStyleIndex = 0 ∧ x.vertAlign = 2 ∧ x.rotation = 0 ∧
  x.textWrapped = 0 ∧ x.leftColourIndex = 8 * x.leftLineStyle ∧ x.rightColourIndex = 8 * x.rightLineStyle ∧
  x.topColourIndex = 8 * x.topLineStyle ∧ x.bottomColourIndex = 8 * x.bottomLineStyle ∧
  (x.fillPattern = 0 ∨ x.fillPattern = 17) ∧ x.backgroundColourIndex = 9 ∧ x.patternColourIndex = 8 ∧
  x.formatFlag = 1 ∧ x.fontFlag = 1 ∧ x.alignmentFlag = 1 ∧ x.borderFlag = 1 ∧ x.backgroundFlag = 1 ∧ x.protectionFlag = 1

/-- The option flags of a font. -/
def fontFlags (f : Font) (u : Nat) : List (Nat × Nat) :=
  [(f.bold, 1), (f.italic, 1), (f.underlined, 1), (f.struckOut, 1), (f.outline, 1), (f.shadow, 1), (u, 10)]

/-- FONT record of BIFF5 and later up to the name, 14 bytes. -/
def fontFields5 (f : Font) (u : Nat × Nat) : List (Nat × Nat) :=
  [(f.height, 16)] ++ fontFlags f u.1 ++
  [(f.colourIndex, 16), (f.weight, 16), (f.escapement, 16), (f.underlineType, 8), (f.family, 8), (f.characterSet, 8), (u.2, 8)]

/-- FONT record of BIFF3 and BIFF4 up to the name, 6 bytes. -/
def fontFields3 (f : Font) (u : Nat) : List (Nat × Nat) := [(f.height, 16)] ++ fontFlags f u ++ [(f.colourIndex, 16)]

/-- What the font records before BIFF5 leave open. -/
def OldFont (f : Font) : Prop :=
  f.weight = (if f.bold = 1 then 700 else 400) ∧ f.escapement = 0 ∧ f.underlineType = f.underlined ∧ f.family = 0 ∧ f.characterSet = 1

/-- FONT record of BIFF2 up to the name, 4 bytes. -/
def fontFields2 (f : Font) (u : Nat) : List (Nat × Nat) :=
  [(f.height, 16), (f.bold, 1), (f.italic, 1), (f.underlined, 1), (f.struckOut, 1), (u, 12)]

end Xlrd.Spec
