import Verif.Spec.Formatting

/-!
# XF and FONT records, palettes and colour maps

Which bytes describe which attributes in which BIFF version, what a colour map should contain, and what
the nearest colour is.
-/
namespace Xlrd.Spec

/-- `data` is an XF record of BIFF version `bv` with the attributes `x` (its own index is not part of it).
From BIFF3 on a record may be longer than its fields. -/
inductive XfRecord (x : XF) : Nat → Bytes → Prop
  | biff8 (u : Nat × Nat × Nat × Nat × Nat) (tail : Bytes) (fit : FieldsFit (xfFields8 x u)) :
      XfRecord x 80 (leBytes 20 (packFields (xfFields8 x u)) ++ tail)
  | biff5 (bv : Nat) (hbv : bv = 50 ∨ bv = 70) (u : Nat × Nat × Nat) (tail : Bytes) (fit : FieldsFit (xfFields5 x u))
      (rot : IsOrientation x.rotation) (no8 : NoBiff8Attributes x) :
      XfRecord x bv (leBytes 16 (packFields (xfFields5 x u)) ++ tail)
  | biff4 (bv : Nat) (hbv : bv = 40 ∨ bv = 45) (u : Nat) (tail : Bytes) (fit : FieldsFit (xfFields4 x u))
      (rot : IsOrientation x.rotation) (no8 : NoBiff8Attributes x) :
      XfRecord x bv (leBytes 12 (packFields (xfFields4 x u)) ++ tail)
  | biff3 (u : Nat × Nat) (tail : Bytes) (fit : FieldsFit (xfFields3 x u)) (vert : x.vertAlign = 2) (rot : x.rotation = 0)
      (no8 : NoBiff8Attributes x) :
      XfRecord x 30 (leBytes 12 (packFields (xfFields3 x u)) ++ tail)
  | biff2 (u : Nat) (fit : FieldsFit (xfFields2 x u)) (attrs : Biff2Attributes x) :
      XfRecord x 21 (leBytes 4 (packFields (xfFields2 x u)))

/-- A BIFF version with XF records. -/
def HasXf (bv : Nat) : Prop := bv ∈ [80, 70, 50, 45, 40, 30, 21]

/-- The length of an XF record. -/
def xfLength (bv : Nat) : Nat := if bv = 80 then 20 else if bv ≥ 50 then 16 else if bv ≥ 30 then 12 else 4

/-- `data` is a FONT record of BIFF version `bv` with the attributes `f`; before BIFF8 the bytes of the name
decode to the name. -/
inductive FontRecord (dec : Bytes → R PyStr) (f : Font) : Nat → Bytes → Prop
  | biff8 (u : Nat × Nat) (name : UStr) (tail : Bytes) (fit : FieldsFit (fontFields5 f u)) (ok : name.Ok)
      (text : name.text = f.name) (len : (utf16 f.name).length < 256) :
      FontRecord dec f 80 (leBytes 14 (packFields (fontFields5 f u)) ++ (encLen 1 (utf16 f.name).length ++ name.body ++ tail))
  | biff5 (bv : Nat) (hbv : bv = 50 ∨ bv = 70) (u : Nat × Nat) (name tail : Bytes) (fit : FieldsFit (fontFields5 f u))
      (text : dec name = .ok f.name) (len : name.length < 256) :
      FontRecord dec f bv (leBytes 14 (packFields (fontFields5 f u)) ++ (encLen 1 name.length ++ name ++ tail))
  | biff34 (bv : Nat) (hbv : bv = 30 ∨ bv = 40 ∨ bv = 45) (u : Nat) (name tail : Bytes) (fit : FieldsFit (fontFields3 f u))
      (old : OldFont f) (text : dec name = .ok f.name) (len : name.length < 256) :
      FontRecord dec f bv (leBytes 6 (packFields (fontFields3 f u)) ++ (encLen 1 name.length ++ name ++ tail))
  | biff2 (bv : Nat) (hbv : bv = 20 ∨ bv = 21) (u : Nat) (name tail : Bytes) (fit : FieldsFit (fontFields2 f u))
      (old : OldFont f) (colour : f.colourIndex = 0x7fff) (outline : f.outline = 0) (shadow : f.shadow = 0)
      (text : dec name = .ok f.name) (len : name.length < 256) :
      FontRecord dec f bv (leBytes 4 (packFields (fontFields2 f u)) ++ (encLen 1 name.length ++ name ++ tail))

/-! ## Colours -/

/-- The eight fixed colours: black, white, red, green, blue, yellow, magenta, cyan. -/
def fixedColours : List Rgb :=
  [(0, 0, 0), (255, 255, 255), (255, 0, 0), (0, 255, 0), (0, 0, 255), (255, 255, 0), (255, 0, 255), (0, 255, 255)]

/-- The colour map of a file with default palette `dflt` and the colours `pal` of a PALETTE record: `none`
is an index that is not in the map, `some none` one without a fixed colour (automatic colours). -/
def ColourAt (dflt pal : List Rgb) (i : Nat) : Option (Option Rgb) :=
  if i < 8 then some fixedColours[i]?
  else if i - 8 < pal.length then some pal[i - 8]?
  else if i - 8 < dflt.length then some dflt[i - 8]?
  else if i - 8 = dflt.length ∨ i - 8 = dflt.length + 1 ∨ i = 0x51 ∨ i = 0x7fff then some none
  else none

/-- A PALETTE record: the number of colours, then red, green, blue and an unused byte for each; up to four
bytes more are tolerated. -/
def encColour (c : Rgb) (u : Nat) : Bytes := [UInt8.ofNat c.1, UInt8.ofNat c.2.1, UInt8.ofNat c.2.2, UInt8.ofNat u]

def encPalette (cs : List (Rgb × Nat)) (tail : Bytes) : Bytes :=
  le16 cs.length ++ cs.flatMap (fun c => encColour c.1 c.2) ++ tail

/-- The components are bytes. -/
def IsRgb (c : Rgb) : Prop := c.1 < 256 ∧ c.2.1 < 256 ∧ c.2.2 < 256

/-- Squared distance of two colours. -/
def sqDist (a b : Rgb) : Int :=
  ((a.1 : Int) - b.1) ^ 2 + ((a.2.1 : Int) - b.2.1) ^ 2 + ((a.2.2 : Int) - b.2.2) ^ 2

end Xlrd.Spec
