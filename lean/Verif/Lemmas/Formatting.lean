import Verif.Spec.Formatting
import Verif.Lemmas.Strings
import Verif.Lemmas.SheetItems

/-!
# Bit fields
-/
set_option linter.unusedSimpArgs false
namespace Xlrd
open Spec

/-- Bits `off .. off + w - 1` of a number. -/
def bitsAt (n off w : Nat) : Nat := n / 2 ^ off % 2 ^ w

/-- The field that begins at bit `off`. -/
def fieldAt : List (Nat × Nat) → Nat → Option (Nat × Nat)
  | [], _ => none
  | (v, w) :: r, off => if off = 0 then some (v, w) else if w ≤ off then fieldAt r (off - w) else none

theorem bits_pack (l : List (Nat × Nat)) (h : FieldsFit l) : ∀ {off v w : Nat}, fieldAt l off = some (v, w) → bitsAt (packFields l) off w = v := by
  induction l with
  | nil => intro off v w h; cases h
  | cons f r ih =>
    obtain ⟨v', w'⟩ := f
    intro off v w he
    have hf : v' < 2 ^ w' := h (v', w') (List.mem_cons_self ..)
    have hr : FieldsFit r := fun g hg => h g (List.mem_cons_of_mem _ hg)
    simp only [fieldAt] at he
    by_cases h0 : off = 0
    · subst h0
      rw [if_pos rfl] at he
      cases he
      simp only [bitsAt, packFields, Nat.pow_zero, Nat.div_one]
      rw [Nat.add_mul_mod_self_left, Nat.mod_eq_of_lt hf]
    · rw [if_neg h0] at he
      by_cases hw : w' ≤ off
      · rw [if_pos hw] at he
        rw [← ih hr he]
        simp only [bitsAt, packFields]
        have : 2 ^ off = 2 ^ w' * 2 ^ (off - w') := by rw [← Nat.pow_add]; congr 1; omega
        rw [this, ← Nat.div_div_eq_div_mul, Nat.add_mul_div_left _ _ (Nat.pow_pos (by decide)), Nat.div_eq_of_lt hf, Nat.zero_add]
      · rw [if_neg hw] at he; cases he

theorem leBytes_length (n x : Nat) : (leBytes n x).length = n := by
  induction n generalizing x with
  | zero => rfl
  | succ n ih => simp [leBytes, ih]

theorem le_leBytes (n x : Nat) : le (leBytes n x) = x % 256 ^ n := by
  induction n generalizing x with
  | zero => simp [leBytes, le, Nat.mod_one]
  | succ n ih =>
    simp only [leBytes, le]
    rw [ih, u8_toNat_ofNat, Nat.mod_mod, Nat.pow_succ, Nat.mul_comm (256 ^ n), Nat.mod_mul]

theorem take_leBytes (n k x : Nat) (h : k ≤ n) : (leBytes n x).take k = leBytes k x := by
  induction n generalizing k x with
  | zero => have : k = 0 := by omega
            subst this; rfl
  | succ n ih =>
    cases k with
    | zero => rfl
    | succ k => simp only [leBytes, List.take_succ_cons]; rw [ih k _ (by omega)]

theorem drop_leBytes (n k x : Nat) : (leBytes n x).drop k = leBytes (n - k) (x / 256 ^ k) := by
  induction n generalizing k x with
  | zero => simp [leBytes]
  | succ n ih =>
    cases k with
    | zero => simp
    | succ k =>
      simp only [leBytes, List.drop_succ_cons]
      rw [ih, Nat.div_div_eq_div_mul, Nat.pow_succ, Nat.mul_comm, Nat.add_sub_add_right]

/-- A field of a byte string is a field of the number. -/
theorem fld_leBytes (n x o k : Nat) (h : o + k ≤ n) : fld (leBytes n x) o k = bitsAt x (8 * o) (8 * k) := by
  unfold fld bitsAt
  rw [drop_leBytes, take_leBytes _ _ _ (by omega), le_leBytes]
  rw [show (256 : Nat) = 2 ^ 8 from rfl, ← Nat.pow_mul, ← Nat.pow_mul]

theorem bits_mask (n k w : Nat) : (n &&& (2 ^ w - 1) * 2 ^ k) >>> k = bitsAt n k w := by
  unfold bitsAt
  rw [Nat.shiftRight_eq_div_pow, Nat.and_div_two_pow, Nat.mul_div_cancel _ (Nat.pow_pos (by decide)), Nat.and_two_pow_sub_one_eq_mod]

theorem bits_bits (n o a k w : Nat) (h : k + w ≤ a) : bitsAt (bitsAt n o a) k w = bitsAt n (o + k) w := by
  unfold bitsAt
  have e : 2 ^ a = 2 ^ k * 2 ^ (a - k) := by rw [← Nat.pow_add]; congr 1; omega
  rw [e, Nat.mod_mul_right_div_self, Nat.div_div_eq_div_mul, ← Nat.pow_add]
  exact Nat.mod_mod_of_dvd _ (Nat.pow_dvd_pow 2 (by omega))

theorem upk_bits (n k w mask : Nat) (h : mask = (2 ^ w - 1) * 2 ^ k) : upk n k mask = bitsAt n k w := by
  rw [upk, h, bits_mask]

theorem usedFlag_bits (n s i : Nat) : usedFlag (n >>> s) i = bitsAt n (s + i) 1 := by
  unfold usedFlag bitsAt
  rw [← Nat.shiftRight_add, Nat.and_one_is_mod, Nat.shiftRight_eq_div_pow, Nat.pow_one]

theorem and_bits (n w mask : Nat) (h : mask = 2 ^ w - 1) : n &&& mask = bitsAt n 0 w := by
  unfold bitsAt
  rw [h, Nat.and_two_pow_sub_one_eq_mod, Nat.pow_zero, Nat.div_one]

theorem slice_front (n : Nat) (a b : Bytes) (h : a.length = n) : slice (a ++ b) 0 (n : Int) = a := by
  unfold slice clampIdx
  have h0 : ¬ (n : Int) < 0 := by omega
  have h1 : ¬ (0 : Int) < 0 := by omega
  rw [if_neg h0, if_neg h1]
  simp only [Int.toNat_natCast, List.length_append, Int.toNat_zero, Nat.zero_min, List.drop_zero]
  rw [Nat.min_eq_left (by omega), ← h, List.take_left']
  rfl

section
variable {l : List (Nat × Nat)} (hl : FieldsFit l)
include hl

theorem field_plain {m o n v : Nat} (h : fieldAt l (8 * o) = some (v, 8 * n)) (ho : o + n ≤ m) :
    fld (leBytes m (packFields l)) o n = v := by
  rw [fld_leBytes _ _ _ _ ho, bits_pack l hl h]

theorem field_bits {m o n k v w : Nat} (h : fieldAt l (8 * o + k) = some (v, w)) (hk : k + w ≤ 8 * n) (ho : o + n ≤ m) :
    bitsAt (fld (leBytes m (packFields l)) o n) k w = v := by
  rw [fld_leBytes _ _ _ _ ho, bits_bits _ _ _ _ _ hk, bits_pack l hl h]

theorem field_upk {m o n k v w mask : Nat} (h : fieldAt l (8 * o + k) = some (v, w)) (hm : mask = (2 ^ w - 1) * 2 ^ k)
    (hk : k + w ≤ 8 * n) (ho : o + n ≤ m) : upk (fld (leBytes m (packFields l)) o n) k mask = v := by
  rw [upk_bits _ _ _ _ hm, field_bits hl h hk ho]

theorem field_and {m o n v w mask : Nat} (h : fieldAt l (8 * o) = some (v, w)) (hm : mask = 2 ^ w - 1)
    (hk : w ≤ 8 * n) (ho : o + n ≤ m) : fld (leBytes m (packFields l)) o n &&& mask = v := by
  rw [and_bits _ _ _ hm]
  exact field_bits hl (k := 0) h (by omega) ho

theorem field_flag {m o n s i v : Nat} (h : fieldAt l (8 * o + (s + i)) = some (v, 1)) (hk : s + i + 1 ≤ 8 * n) (ho : o + n ≤ m) :
    usedFlag (fld (leBytes m (packFields l)) o n >>> s) i = v := by
  rw [usedFlag_bits, field_bits hl h hk ho]

end

/-- Reads one field back. -/
macro "read_field" h:ident : tactic => `(tactic| first
  | with_reducible rfl
  | ((with_reducible show upk _ _ _ = _); exact field_upk $h rfl (by decide) (by decide) (by decide))
  | ((with_reducible show fld _ _ _ = _); exact field_plain $h rfl (by decide))
  | ((with_reducible show usedFlag _ _ = _); exact field_flag $h rfl (by decide) (by decide))
  | ((with_reducible show _ &&& _ = _); exact field_and $h rfl (by decide) (by decide) (by decide)))

theorem xf80_roundtrip (x : XF) (u : Nat × Nat × Nat × Nat × Nat) (hl : FieldsFit (xfFields8 x u)) (hx : x.xfIndex = 0) (tail : Bytes) :
    decodeXf80 (leBytes 20 (packFields (xfFields8 x u)) ++ tail) = .ok x := by
  unfold decodeXf80
  have := slice_front 20 (leBytes 20 (packFields (xfFields8 x u))) tail (leBytes_length _ _)
  simp only [Nat.cast_ofNat] at this
  rw [this, unpackN_ok (leBytes_length _ _)]
  obtain ⟨⟩ := x
  simp only at hx
  subst hx
  simp only [bind, Except.bind, pure, Except.pure]
  refine congrArg Except.ok ?_
  rw [XF.mk.injEq]
  refine ⟨rfl, ?_⟩
  repeat' apply And.intro
  all_goals read_field hl

theorem rotation_of {r : Nat} (h : IsOrientation r) : rotationOf (orientation r) = r := by
  rcases h with rfl | rfl | rfl | rfl <;> rfl

theorem xf50_roundtrip (x : XF) (u : Nat × Nat × Nat) (hl : FieldsFit (xfFields5 x u)) (hx : x.xfIndex = 0)
    (hr : IsOrientation x.rotation) (h8 : NoBiff8Attributes x) (tail : Bytes) :
    decodeXf50 (leBytes 16 (packFields (xfFields5 x u)) ++ tail) = .ok x := by
  unfold decodeXf50
  have := slice_front 16 (leBytes 16 (packFields (xfFields5 x u))) tail (leBytes_length _ _)
  simp only [Nat.cast_ofNat] at this
  rw [this, unpackN_ok (leBytes_length _ _)]
  have hrot : rotationOf (fld (leBytes 16 (packFields (xfFields5 x u))) 7 1 &&& 0x03) = x.rotation := by
    rw [show fld (leBytes 16 (packFields (xfFields5 x u))) 7 1 &&& 0x03 = orientation x.rotation by read_field hl]
    exact rotation_of hr
  obtain ⟨⟩ := x
  obtain ⟨h1, h2, h3, h4, h5, h6, h7⟩ := h8
  simp only at hx h1 h2 h3 h4 h5 h6 h7
  subst hx h1 h2 h3 h4 h5 h6 h7
  simp only [bind, Except.bind, pure, Except.pure]
  refine congrArg Except.ok ?_
  rw [XF.mk.injEq]
  refine ⟨rfl, ?_⟩
  repeat' apply And.intro
  all_goals first | read_field hl | exact hrot

theorem xf40_roundtrip (x : XF) (u : Nat) (hl : FieldsFit (xfFields4 x u)) (hx : x.xfIndex = 0)
    (hr : IsOrientation x.rotation) (h8 : NoBiff8Attributes x) (tail : Bytes) :
    decodeXf40 (leBytes 12 (packFields (xfFields4 x u)) ++ tail) = .ok x := by
  unfold decodeXf40
  have := slice_front 12 (leBytes 12 (packFields (xfFields4 x u))) tail (leBytes_length _ _)
  simp only [Nat.cast_ofNat] at this
  rw [this, unpackN_ok (leBytes_length _ _)]
  have hrot : rotationOf ((fld (leBytes 12 (packFields (xfFields4 x u))) 4 1 &&& 0xC0) >>> 6) = x.rotation := by
    have e : upk (fld (leBytes 12 (packFields (xfFields4 x u))) 4 1) 6 0xC0 = orientation x.rotation := by read_field hl
    unfold upk at e
    rw [e]
    exact rotation_of hr
  obtain ⟨⟩ := x
  obtain ⟨h1, h2, h3, h4, h5, h6, h7⟩ := h8
  simp only at hx h1 h2 h3 h4 h5 h6 h7
  subst hx h1 h2 h3 h4 h5 h6 h7
  simp only [bind, Except.bind, pure, Except.pure]
  refine congrArg Except.ok ?_
  rw [XF.mk.injEq]
  refine ⟨rfl, ?_⟩
  repeat' apply And.intro
  all_goals first | read_field hl | exact hrot

theorem xf30_roundtrip (x : XF) (u : Nat × Nat) (hl : FieldsFit (xfFields3 x u)) (hx : x.xfIndex = 0)
    (hv : x.vertAlign = 2) (hr : x.rotation = 0) (h8 : NoBiff8Attributes x) (tail : Bytes) :
    decodeXf30 (leBytes 12 (packFields (xfFields3 x u)) ++ tail) = .ok x := by
  unfold decodeXf30
  have := slice_front 12 (leBytes 12 (packFields (xfFields3 x u))) tail (leBytes_length _ _)
  simp only [Nat.cast_ofNat] at this
  rw [this, unpackN_ok (leBytes_length _ _)]
  obtain ⟨⟩ := x
  obtain ⟨h1, h2, h3, h4, h5, h6, h7⟩ := h8
  simp only at hx h1 h2 h3 h4 h5 h6 h7 hv hr
  subst hx h1 h2 h3 h4 h5 h6 h7 hv hr
  simp only [bind, Except.bind, pure, Except.pure]
  refine congrArg Except.ok ?_
  rw [XF.mk.injEq]
  refine ⟨rfl, ?_⟩
  repeat' apply And.intro
  all_goals read_field hl

theorem and_bit (n k : Nat) : n &&& 2 ^ k ≠ 0 ↔ bitsAt n k 1 = 1 := by
  have e := bits_mask n k 1
  simp only [Nat.pow_one, Nat.reduceSub, Nat.one_mul] at e
  rw [← e]
  have h1 : n &&& 2 ^ k = ((n &&& 2 ^ k) >>> k) * 2 ^ k := by
    rw [Nat.shiftRight_eq_div_pow, Nat.and_div_two_pow, Nat.div_self (Nat.pow_pos (by decide)), Nat.and_one_is_mod]
    apply Nat.eq_of_testBit_eq
    intro i
    rw [Nat.testBit_and, Nat.testBit_two_pow, Nat.testBit_mul_two_pow]
    by_cases hi : k = i
    · subst hi
      simp [Nat.testBit_eq_decide_div_mod_eq]
    · by_cases hk : k ≤ i
      · have : (n / 2 ^ k % 2).testBit (i - k) = false := by
          apply Nat.testBit_lt_two_pow
          have : 2 ^ 1 ≤ 2 ^ (i - k) := Nat.pow_le_pow_right (by decide) (by omega)
          omega
        simp [hi, this]
      · simp [hi, hk]
  have h3 : (n &&& 2 ^ k) >>> k < 2 := by
    rw [e, bitsAt]; exact Nat.mod_lt _ (by decide)
  have h2 : 0 < 2 ^ k := Nat.pow_pos (by decide)
  generalize (n &&& 2 ^ k) >>> k = b at *
  rw [h1]
  constructor
  · intro h
    rcases (show b = 0 ∨ b = 1 by omega) with rfl | rfl
    · simp at h
    · rfl
  · rintro rfl; omega

theorem thin_border {l : List (Nat × Nat)} (hl : FieldsFit l) {m o n k v mask : Nat} (h : fieldAt l (8 * o + k) = some (v, 1))
    (hm : mask = 2 ^ k) (hk : k + 1 ≤ 8 * n) (ho : o + n ≤ m) (hv : v < 2) :
    thinBorder (fld (leBytes m (packFields l)) o n) mask = (8 * v, v) := by
  unfold thinBorder
  have e := field_bits hl h hk ho
  rw [hm]
  by_cases h1 : v = 1
  · rw [if_pos ((and_bit _ _).mpr (e.trans h1)), h1]
  · rw [if_neg (fun hh => h1 (e.symm.trans ((and_bit _ _).mp hh))), show v = 0 by omega]

theorem xf21_roundtrip (x : XF) (u : Nat) (hl : FieldsFit (xfFields2 x u)) (hx : x.xfIndex = 0) (h2 : Biff2Attributes x) :
    decodeXf21 (leBytes 4 (packFields (xfFields2 x u))) = .ok x := by
  unfold decodeXf21
  rw [unpackN_ok (leBytes_length _ _)]
  have b1 : x.leftLineStyle < 2 := hl (x.leftLineStyle, 1) (by simp [xfFields2])
  have b2 : x.rightLineStyle < 2 := hl (x.rightLineStyle, 1) (by simp [xfFields2])
  have b3 : x.topLineStyle < 2 := hl (x.topLineStyle, 1) (by simp [xfFields2])
  have b4 : x.bottomLineStyle < 2 := hl (x.bottomLineStyle, 1) (by simp [xfFields2])
  have e1 : thinBorder (fld (leBytes 4 (packFields (xfFields2 x u))) 3 1) 0x08 = _ := thin_border hl rfl (k := 3) rfl (by decide) (by decide) b1
  have e2 : thinBorder (fld (leBytes 4 (packFields (xfFields2 x u))) 3 1) 0x10 = _ := thin_border hl rfl (k := 4) rfl (by decide) (by decide) b2
  have e3 : thinBorder (fld (leBytes 4 (packFields (xfFields2 x u))) 3 1) 0x20 = _ := thin_border hl rfl (k := 5) rfl (by decide) (by decide) b3
  have e4 : thinBorder (fld (leBytes 4 (packFields (xfFields2 x u))) 3 1) 0x40 = _ := thin_border hl rfl (k := 6) rfl (by decide) (by decide) b4
  have e5 : fld (leBytes 4 (packFields (xfFields2 x u))) 3 1 &&& 0x80 ≠ 0 ↔ (if x.fillPattern = 0 then 0 else 1) = 1 := by
    rw [show (0x80 : Nat) = 2 ^ 7 from rfl, and_bit, field_bits hl (v := if x.fillPattern = 0 then 0 else 1) rfl (by decide) (by decide)]
  obtain ⟨⟩ := x
  obtain ⟨⟨h1, h2, h3, h4, h5, h6, h7⟩, g1, g2, g3, g4, g5, g6, g7, g8, g9, g10, g11, g12, g13, g14, g15, g16, g17, g18, g19⟩ := h2
  simp only at hx h1 h2 h3 h4 h5 h6 h7 g1 g2 g3 g4 g5 g6 g7 g8 g9 g10 g11 g12 g13 g14 g15 g16 g17 g18 g19 e1 e2 e3 e4 e5
  subst hx h1 h2 h3 h4 h5 h6 h7 g1 g2 g3 g4 g5 g6 g7 g8 g9 g10 g12 g13 g14 g15 g16 g17 g18 g19
  simp only [bind, Except.bind, pure, Except.pure]
  refine congrArg Except.ok ?_
  rw [XF.mk.injEq]
  refine ⟨rfl, ?_⟩
  repeat' apply And.intro
  all_goals first | read_field hl | (rw [e1]; done) | (rw [e2]; done) | (rw [e3]; done) | (rw [e4]; done) | skip
  all_goals first | rfl | skip
  rcases g11 with rfl | rfl
  · rw [if_neg]; rw [e5]; simp
  · rw [if_pos]; rw [e5]; simp

/-- The font attributes before the name. -/
theorem font5_roundtrip (f : Font) (u : Nat × Nat) (hl : FieldsFit (fontFields5 f u)) (bv : Nat) (hbv : 50 ≤ bv) (dec : Bytes → R PyStr)
    (tail : Bytes)
    (hn : (if bv ≥ 80 then unpackUnicode (leBytes 14 (packFields (fontFields5 f u)) ++ tail) 14 1
      else unpackString dec (leBytes 14 (packFields (fontFields5 f u)) ++ tail) 14 1) = .ok f.name) :
    decodeFont bv dec f.fontIndex (leBytes 14 (packFields (fontFields5 f u)) ++ tail) = .ok f := by
  unfold decodeFont
  have h13 : slice (leBytes 14 (packFields (fontFields5 f u)) ++ tail) 0 13 = leBytes 13 (packFields (fontFields5 f u)) := by
    have e : leBytes 14 (packFields (fontFields5 f u)) = leBytes 13 (packFields (fontFields5 f u)) ++ (leBytes 14 (packFields (fontFields5 f u))).drop 13 := by
      rw [← take_leBytes 14 13 _ (by decide), List.take_append_drop]
    rw [e, List.append_assoc]
    exact slice_front 13 _ _ (leBytes_length _ _)
  rw [if_pos (by omega), h13, unpackN_ok (leBytes_length _ _)]
  have e : ∀ g : PyStr → R Font, (if bv ≥ 80 then unpackUnicode (leBytes 14 (packFields (fontFields5 f u)) ++ tail) 14 1 >>= g
      else unpackString dec (leBytes 14 (packFields (fontFields5 f u)) ++ tail) 14 1 >>= g) = g f.name := by
    intro g
    by_cases h8 : bv ≥ 80
    · rw [if_pos h8] at hn ⊢; rw [hn]; rfl
    · rw [if_neg h8] at hn ⊢; rw [hn]; rfl
  refine (e _).trans ?_
  obtain ⟨⟩ := f
  simp only [pure, Except.pure]
  refine congrArg Except.ok ?_
  rw [Font.mk.injEq]
  repeat' apply And.intro
  all_goals read_field hl

theorem font3_roundtrip (f : Font) (u : Nat) (hl : FieldsFit (fontFields3 f u)) (bv : Nat) (h30 : 30 ≤ bv) (h50 : bv < 50) (hf : OldFont f)
    (dec : Bytes → R PyStr) (tail : Bytes)
    (hn : unpackString dec (leBytes 6 (packFields (fontFields3 f u)) ++ tail) 6 1 = .ok f.name) :
    decodeFont bv dec f.fontIndex (leBytes 6 (packFields (fontFields3 f u)) ++ tail) = .ok f := by
  unfold decodeFont
  have h13 := slice_front 6 (leBytes 6 (packFields (fontFields3 f u))) tail (leBytes_length _ _)
  simp only [Nat.cast_ofNat] at h13
  rw [if_neg (by omega), if_pos (by omega), h13, unpackN_ok (leBytes_length _ _)]
  simp only [bind, Except.bind]
  rw [hn]
  have hb : f.bold < 2 := hl (f.bold, 1) (by simp [fontFields3, fontFlags])
  obtain ⟨⟩ := f
  obtain ⟨h1, h2, h3, h4, h5⟩ := hf
  simp only at h1 h2 h3 h4 h5 hb
  subst h2 h3 h4 h5
  simp only [pure, Except.pure]
  refine congrArg Except.ok ?_
  rw [Font.mk.injEq]
  repeat' apply And.intro
  all_goals first | read_field hl | skip
  rw [field_and hl (o := 2) (n := 2) (w := 1) (mask := 1) rfl rfl (by decide) (by decide), h1]
  exact (by decide : ∀ b < 2, (if b = 0 then 400 else 700) = if b = 1 then 700 else 400) _ hb

theorem font2_roundtrip (f : Font) (u : Nat) (hl : FieldsFit (fontFields2 f u)) (bv : Nat) (h30 : bv < 30) (hf : OldFont f)
    (hc : f.colourIndex = 0x7fff) (ho : f.outline = 0) (hs : f.shadow = 0) (dec : Bytes → R PyStr) (tail : Bytes)
    (hn : unpackString dec (leBytes 4 (packFields (fontFields2 f u)) ++ tail) 4 1 = .ok f.name) :
    decodeFont bv dec f.fontIndex (leBytes 4 (packFields (fontFields2 f u)) ++ tail) = .ok f := by
  unfold decodeFont
  have h13 := slice_front 4 (leBytes 4 (packFields (fontFields2 f u))) tail (leBytes_length _ _)
  simp only [Nat.cast_ofNat] at h13
  rw [if_neg (by omega), if_neg (by omega), h13, unpackN_ok (leBytes_length _ _)]
  simp only [bind, Except.bind]
  rw [hn]
  have hb : f.bold < 2 := hl (f.bold, 1) (by simp [fontFields2])
  obtain ⟨⟩ := f
  obtain ⟨h1, h2, h3, h4, h5⟩ := hf
  simp only at h1 h2 h3 h4 h5 hb hc ho hs
  subst h2 h3 h4 h5 hc ho hs
  simp only [pure, Except.pure]
  refine congrArg Except.ok ?_
  rw [Font.mk.injEq]
  repeat' apply And.intro
  all_goals first | read_field hl | skip
  rw [field_and hl (o := 2) (n := 2) (w := 1) (mask := 1) rfl rfl (by decide) (by decide), h1]
  exact (by decide : ∀ b < 2, (if b = 0 then 400 else 700) = if b = 1 then 700 else 400) _ hb

end Xlrd
