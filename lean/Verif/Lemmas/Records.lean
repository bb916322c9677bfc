import Verif.Model.Records
import Verif.Spec.Strings
import Verif.Lemmas.CompDoc

/-!
# Decoding what was encoded: records and strings
-/
set_option linter.unusedSimpArgs false
namespace Xlrd
open Spec

/-! ## Little-endian fields -/

theorem u8_toNat_ofNat (n : Nat) : (UInt8.ofNat n).toNat = n % 256 := by simp [UInt8.toNat_ofNat']

@[simp] theorem le16_length (n : Nat) : (le16 n).length = 2 := rfl
@[simp] theorem le32_length (n : Nat) : (le32 n).length = 4 := rfl

theorem le_le16 (n : Nat) (h : n < 65536) (r : Bytes) : le ((le16 n ++ r).take 2) = n := by
  simp [le16, le, u8_toNat_ofNat]; omega

theorem le_le32 (n : Nat) (h : n < 2 ^ 32) (r : Bytes) : le ((le32 n ++ r).take 4) = n := by
  simp [le32, le16, le, u8_toNat_ofNat]; omega

theorem fld_le16 (n : Nat) (h : n < 65536) : fld (le16 n) 0 2 = n := by
  have := le_le16 n h []
  simpa [fld] using this

theorem fld_le32 (n : Nat) (h : n < 2 ^ 32) : fld (le32 n) 0 4 = n := by
  have := le_le32 n h []
  simpa [fld] using this

/-- a field behind a prefix of known length -/
theorem fld_skip (a b : Bytes) (o n : Nat) (h : a.length = o) : fld (a ++ b) o n = le (b.take n) := by
  unfold fld; rw [← h, List.drop_left]

theorem fld_skip' (a b : Bytes) (o k n : Nat) (h : a.length = o) : fld (a ++ b) (o + k) n = fld b k n := by
  unfold fld; rw [← h, ← List.drop_drop, List.drop_left]

/-! ## Reading at a position -/

theorem slice_at {α} {data x r : List α} {p n : Nat} (h : data.drop p = x ++ r) (hn : x.length = n) :
    slice data (p : Int) ((p : Int) + (n : Int)) = x := by
  rw [← Int.natCast_add, slice_nat]
  rw [List.drop_take, show (p : Nat) + n - p = n by omega, h, ← hn, List.take_left]

theorem drop_at {α} {data x r : List α} {p n : Nat} (h : data.drop p = x ++ r) (hn : x.length = n) :
    data.drop (p + n) = r := by
  rw [← List.drop_drop, h, ← hn, List.drop_left]

theorem unpackN_ok {n : Nat} {b : Bytes} (h : b.length = n) : unpackN n b = .ok b := by
  unfold unpackN; rw [if_pos h]

theorem unpackH_at {data r : Bytes} {p n : Nat} (hn : n < 65536) (h : data.drop p = le16 n ++ r) :
    unpackH (slice data (p : Int) ((p : Int) + 2)) = .ok n := by
  rw [show ((2 : Int)) = ((2 : Nat) : Int) from rfl, slice_at h (le16_length n)]
  simp [unpackH, unpackN_ok (le16_length n), bind, Except.bind, pure, Except.pure, fld_le16 n hn]

theorem unpacki_at {data r : Bytes} {p n : Nat} (hn : n < 2 ^ 31) (h : data.drop p = le32 n ++ r) :
    unpacki (slice data (p : Int) ((p : Int) + 4)) = .ok (n : Int) := by
  rw [show ((4 : Int)) = ((4 : Nat) : Int) from rfl, slice_at h (le32_length n)]
  simp only [unpacki, unpackN_ok (le32_length n), bind, Except.bind, pure, Except.pure, fld_le32 n (by omega)]
  have : n < 2147483648 := by omega
  simp [sgn, this]

theorem encLen_length (l n : Nat) (hl : l = 1 ∨ l = 2) : (encLen l n).length = l := by
  rcases hl with rfl | rfl <;> simp [encLen]

theorem unpackLen_at {data r : Bytes} {p l n : Nat} (hl : l = 1 ∨ l = 2) (hn : n < 256 ^ l)
    (h : data.drop p = encLen l n ++ r) : unpackLen l data (p : Int) = .ok n := by
  unfold unpackLen
  rw [slice_at h (encLen_length l n hl), unpackN_ok (encLen_length l n hl)]
  rcases hl with rfl | rfl
  · simp [bind, Except.bind, pure, Except.pure, encLen, fld, le, u8_toNat_ofNat]; omega
  · simp [bind, Except.bind, pure, Except.pure, encLen, fld_le16 n (by omega)]

theorem byteAt_at {data r : Bytes} {p : Nat} {b : UInt8} (h : data.drop p = b :: r) : byteAt data (p : Int) = .ok b.toNat := by
  have : data[p]? = some b := by
    have := congrArg (fun l => l[0]?) h
    simpa using this
  unfold byteAt
  rw [(idx_ok_nat data p b).mpr this]
  rfl

/-! ## Records -/

theorem encRec_length (c : Nat) (b : Bytes) : (encRec c b).length = 4 + b.length := by
  simp [encRec]; omega

theorem getRecordParts_at {mem r b : Bytes} {p c : Nat} (hc : c < 65536) (hb : b.length < 65536)
    (h : mem.drop p = encRec c b ++ r) :
    getRecordParts mem (p : Int) = .ok ((c, b.length, b), ((p + 4 + b.length : Nat) : Int)) := by
  have h4 : mem.drop p = (le16 c ++ le16 b.length) ++ (b ++ r) := by rw [h]; simp [encRec]
  have hl : (le16 c ++ le16 b.length).length = 4 := by simp
  unfold getRecordParts
  rw [show ((4 : Int)) = ((4 : Nat) : Int) from rfl, slice_at h4 hl, unpackN_ok hl]
  have e1 : fld (le16 c ++ le16 b.length) 0 2 = c := by
    have := le_le16 c hc (le16 b.length); simpa [fld] using this
  have e2 : fld (le16 c ++ le16 b.length) 2 2 = b.length := by
    rw [fld_skip _ _ _ _ (le16_length c)]
    have := le_le16 b.length hb []; simpa using this
  have h5 := drop_at h4 hl
  simp only [bind, Except.bind, pure, Except.pure, e1, e2]
  rw [← Int.natCast_add, slice_at h5 rfl]
  simp

theorem conditional_at {mem r b : Bytes} {p c q : Nat} (hc : c < 65536) (hb : b.length < 65536)
    (h : mem.drop p = encRec c b ++ r) :
    getRecordPartsConditional mem (p : Int) q =
      if c = q then .ok (some (c, b.length, b), ((p + 4 + b.length : Nat) : Int)) else .ok (none, (p : Int)) := by
  have h4 : mem.drop p = (le16 c ++ le16 b.length) ++ (b ++ r) := by rw [h]; simp [encRec]
  have hl : (le16 c ++ le16 b.length).length = 4 := by simp
  unfold getRecordPartsConditional
  rw [show ((4 : Int)) = ((4 : Nat) : Int) from rfl, slice_at h4 hl, unpackN_ok hl]
  have e1 : fld (le16 c ++ le16 b.length) 0 2 = c := by
    have := le_le16 c hc (le16 b.length); simpa [fld] using this
  have e2 : fld (le16 c ++ le16 b.length) 2 2 = b.length := by
    rw [fld_skip _ _ _ _ (le16_length c)]
    have := le_le16 b.length hb []; simpa using this
  have h5 := drop_at h4 hl
  simp only [bind, Except.bind, pure, Except.pure, e1, e2]
  rw [← Int.natCast_add, slice_at h5 rfl]
  by_cases hq : c = q
  · rw [if_neg (by simp [hq]), if_pos hq]; simp
  · rw [if_pos hq, if_neg hq]

/-! ## Codecs -/

theorem chr?_toNat (c : Char) : chr? c.toNat = some c := by
  unfold chr?
  have h : c.toNat.isValidChar := c.valid
  rw [dif_pos h]
  congr 1

theorem char_range (c : Char) : c.toNat < 0xD800 ∨ (0xE000 ≤ c.toNat ∧ c.toNat < 0x110000) := by
  have h : c.toNat.isValidChar := c.valid
  rcases h with h | h
  · exact .inl h
  · exact .inr ⟨by omega, h.2⟩

theorem unitsOf_lt (c : Char) : ∀ u ∈ unitsOf c, u < 65536 := by
  have := char_range c
  intro u hu
  unfold unitsOf at hu
  split_ifs at hu with h
  · simp at hu; omega
  · simp at hu; omega

theorem units16_enc (us : List Nat) (h : ∀ u ∈ us, u < 65536) : units16 (us.flatMap le16) = some us := by
  induction us with
  | nil => rfl
  | cons u us ih =>
    have e : (u :: us).flatMap le16 = UInt8.ofNat (u % 256) :: UInt8.ofNat (u / 256 % 256) :: us.flatMap le16 := by
      simp [le16]
    rw [e, units16, ih (fun v hv => h v (by simp [hv]))]
    have := h u (by simp)
    simp only [u8_toNat_ofNat, Option.map_some]
    congr 2
    omega

theorem decodeUnits_utf16 (s : PyStr) : decodeUnits (utf16 s) = some s := by
  induction s with
  | nil => rfl
  | cons c s ih =>
    have hr := char_range c
    by_cases hc : c.toNat < 0x10000
    · have e : utf16 (c :: s) = c.toNat :: utf16 s := by simp [utf16, unitsOf, hc]
      have h : isPlainUnit c.toNat = true := by simp only [isPlainUnit, decide_eq_true_eq]; omega
      rw [e]
      unfold decodeUnits
      simp only [h, ↓reduceIte, ih, chr?_toNat]
      rfl
    · have e : utf16 (c :: s) = (0xD800 + (c.toNat - 0x10000) / 0x400) :: (0xDC00 + (c.toNat - 0x10000) % 0x400) :: utf16 s := by
        simp [utf16, unitsOf, hc]
      rw [e]
      generalize hu : 0xD800 + (c.toNat - 0x10000) / 0x400 = u
      generalize hv : 0xDC00 + (c.toNat - 0x10000) % 0x400 = v
      have n1 : isPlainUnit u = false := by simp only [isPlainUnit, decide_eq_false_iff_not]; omega
      have n2 : isHighUnit u = true := by simp only [isHighUnit, decide_eq_true_eq]; omega
      have n3 : isLowUnit v = true := by simp only [isLowUnit, decide_eq_true_eq]; omega
      have n4 : pairChar? u v = some c := by
        unfold pairChar?
        rw [show 0x10000 + (u - 0xD800) * 0x400 + (v - 0xDC00) = c.toNat by omega]
        exact chr?_toNat c
      unfold decodeUnits
      simp only [n1, n2, n3, n4, Bool.false_eq_true, ↓reduceIte, ih, Bool.and_self]
      rfl

theorem utf16_lt (s : PyStr) : ∀ u ∈ utf16 s, u < 65536 := by
  intro u hu
  simp only [utf16, List.mem_flatMap] at hu
  obtain ⟨c, _, h⟩ := hu
  exact unitsOf_lt c u h

theorem utf16_decode' (s : PyStr) : utf16leDecode ((utf16 s).flatMap le16) = .ok s := by
  unfold utf16leDecode
  rw [units16_enc _ (utf16_lt s)]
  simp [decodeUnits_utf16]

theorem flatMap_le16_length (us : List Nat) : (us.flatMap le16).length = 2 * us.length := by
  induction us with
  | nil => rfl
  | cons u us ih => simp only [List.flatMap_cons, List.length_append, ih, le16_length, List.length_cons]; omega

/-- a text all of whose units fit a byte: one unit per character -/
theorem narrow_units (s : PyStr) (h : Fits false (utf16 s)) : utf16 s = s.map Char.toNat := by
  induction s with
  | nil => rfl
  | cons c s ih =>
    have hc : c.toNat < 0x10000 := by
      by_contra hx
      have := h (0xD800 + (c.toNat - 0x10000) / 0x400) (by simp [utf16, unitsOf, hx])
      simp at this
      omega
    have hs : Fits false (utf16 s) := fun u hu => h u (by simp [utf16] at hu ⊢; exact .inr hu)
    have e : utf16 (c :: s) = c.toNat :: utf16 s := by simp [utf16, unitsOf, hc]
    rw [e, ih hs]
    rfl

theorem latin1_decode (s : PyStr) (h : Fits false (utf16 s)) : latin1Decode ((utf16 s).map UInt8.ofNat) = s := by
  have e := narrow_units s h
  unfold latin1Decode
  rw [e] at h ⊢
  clear e
  induction s with
  | nil => rfl
  | cons c s ih =>
    simp only [List.map_cons, List.map_map] at *
    have hc := h c.toNat (by simp)
    simp only [Bool.false_eq_true, ↓reduceIte] at hc
    rw [u8_toNat_ofNat, Nat.mod_eq_of_lt hc, Char.ofNat_toNat]
    rw [ih (fun u hu => h u (by simp at hu ⊢; exact .inr hu))]

/-- the decoder chosen by bit 0 of the options byte -/
def decUnits (wide : Bool) (b : Bytes) : R PyStr := if wide then utf16leDecode b else .ok (latin1Decode b)

theorem decUnits_enc (wide : Bool) (s : PyStr) (h : Fits wide (utf16 s)) :
    decUnits wide (encUnits wide (utf16 s)) = .ok s := by
  cases wide with
  | true => simp [decUnits, encUnits, utf16_decode']
  | false => simp [decUnits, encUnits, latin1_decode s h]

theorem encUnits_length (wide : Bool) (us : List Nat) : (encUnits wide us).length = (if wide then 2 else 1) * us.length := by
  cases wide
  · simp [encUnits]
  · simp only [encUnits, ↓reduceIte, flatMap_le16_length]

end Xlrd
