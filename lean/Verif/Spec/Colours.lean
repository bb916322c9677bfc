import Verif.Model.Formatting

/-!
# Colours in use (C66)
-/
namespace Xlrd.Spec

/-- The colour `c` is that of a border, of a pattern or of a background of the XF `x`. -/
def XfColour (x : XF) (c : Nat) : Prop :=
  c = x.leftColourIndex ∨ c = x.rightColourIndex ∨ c = x.topColourIndex ∨ c = x.bottomColourIndex ∨
  c = x.diagColourIndex ∨ c = x.patternColourIndex ∨ c = x.backgroundColourIndex

/-- The colour `c` is in the colour map, and an XF has it. -/
def UsedByXf (st : FmtSt) (c : Nat) : Prop := (itemsGet st.colourMap c).isSome = true ∧ ∃ x ∈ st.xfList, XfColour x c

/-- The colour `c` is in the colour map, and a font has it; font 4, which no file has, and the system text colour do not count. -/
def UsedByFont (st : FmtSt) (c : Nat) : Prop :=
  (itemsGet st.colourMap c).isSome = true ∧ c ≠ 0x7fff ∧ ∃ f ∈ st.fontList, f.fontIndex ≠ 4 ∧ f.colourIndex = c

end Xlrd.Spec
