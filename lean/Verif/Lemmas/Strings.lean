import Verif.Lemmas.Records

/-!
# Strings and range lists inside a record
-/
set_option linter.unusedSimpArgs false
namespace Xlrd
open Spec

theorem flags_byte (opt : Nat) (h : opt < 256) : (UInt8.ofNat opt).toNat = opt := by
  rw [u8_toNat_ofNat, Nat.mod_eq_of_lt h]

theorem flatMap_run_length (rs : List (Nat × Nat)) : (rs.flatMap encRun).length = 4 * rs.length := by
  induction rs with
  | nil => rfl
  | cons u us ih => simp only [List.flatMap_cons, List.length_append, ih, List.length_cons, encRun, le16_length]; omega

theorem slice_chars {data r : Bytes} {p : Nat} (wide : Bool) (t : PyStr) (hf : Fits wide (utf16 t))
    (h : data.drop p = encUnits wide (utf16 t) ++ r) :
    (wide = true → utf16leDecode (slice data (p : Int) ((p : Int) + 2 * ((utf16 t).length : Nat))) = .ok t) ∧
    (wide = false → latin1Decode (slice data (p : Int) ((p : Int) + ((utf16 t).length : Nat))) = t) := by
  constructor
  · rintro rfl
    have hl : (encUnits true (utf16 t)).length = 2 * (utf16 t).length := by rw [encUnits_length]; simp
    have := slice_at h hl
    rw [show (2 : Int) * ((utf16 t).length : Nat) = ((2 * (utf16 t).length : Nat) : Int) by push_cast; rfl, this]
    have := decUnits_enc true t hf
    simpa [decUnits] using this
  · rintro rfl
    have hl : (encUnits false (utf16 t)).length = (utf16 t).length := by rw [encUnits_length]; simp
    rw [slice_at h hl]
    have := decUnits_enc false t hf
    simpa [decUnits] using this

/-- The parts of a string after the options byte. -/
def runsLen (u : UStr) : Bytes := match u.runs with | some rs => le16 rs.length | none => []
def phonLen (u : UStr) : Bytes := match u.phon with | some p => le32 p.length | none => []
def runsBytes (u : UStr) : Bytes := match u.runs with | some rs => rs.flatMap encRun | none => []
def phonBytes (u : UStr) : Bytes := match u.phon with | some p => p | none => []

theorem body_eq (u : UStr) : u.body =
    [UInt8.ofNat u.opt] ++ (runsLen u ++ (phonLen u ++ (encUnits u.wide (utf16 u.text) ++ (runsBytes u ++ phonBytes u)))) := by
  unfold UStr.body runsLen phonLen runsBytes phonBytes
  simp only [List.append_assoc]
  rfl

theorem unpackUnicode_at {data r : Bytes} {p l : Nat} (u : UStr) (hu : u.Ok) (hl : l = 1 ∨ l = 2)
    (hn : (utf16 u.text).length < 256 ^ l) (h : data.drop p = encLen l (utf16 u.text).length ++ (u.body ++ r)) :
    unpackUnicode data (p : Int) l = .ok u.text := by
  unfold unpackUnicode
  rw [unpackLen_at hl hn h]
  simp only [bind, Except.bind, pure, Except.pure]
  by_cases h0 : (utf16 u.text).length = 0
  · rw [if_pos h0]
    have : u.text = [] := by
      have h1 := List.length_eq_zero_iff.mp h0
      have := decodeUnits_utf16 u.text
      rw [h1] at this
      simpa [decodeUnits] using this.symm
    rw [this]
  · rw [if_neg h0]
    have d1 := drop_at h (encLen_length l _ hl)
    rw [body_eq] at d1
    simp only [List.append_assoc] at d1
    rw [← Int.natCast_add, byteAt_at d1]
    simp only [flags_byte u.opt hu.flags.1]
    have d2 := drop_at d1 (n := 1) rfl
    rw [show (((p + l : Nat) : Int) + 1) = ((p + l + 1 : Nat) : Int) by push_cast; rfl]
    have d3 : ∃ q : Nat, (if u.opt.testBit 3 = true then ((p + l + 1 : Nat) : Int) + 2 else ((p + l + 1 : Nat) : Int)) = (q : Int) ∧
        data.drop q = phonLen u ++ (encUnits u.wide (utf16 u.text) ++ (runsBytes u ++ (phonBytes u ++ r))) := by
      rw [hu.flags.2.2.1]
      cases hr : u.runs with
      | none => exact ⟨p + l + 1, by simp, by simpa [runsLen, hr] using d2⟩
      | some rs => exact ⟨p + l + 1 + 2, by simp, drop_at d2 (by simp [runsLen, hr])⟩
    obtain ⟨q, e3, d3⟩ := d3
    rw [e3]
    have d4 : ∃ q' : Nat, (if u.opt.testBit 2 = true then (q : Int) + 4 else (q : Int)) = (q' : Int) ∧
        data.drop q' = encUnits u.wide (utf16 u.text) ++ (runsBytes u ++ (phonBytes u ++ r)) := by
      rw [hu.flags.2.2.2]
      cases hr : u.phon with
      | none => exact ⟨q, by simp, by simpa [phonLen, hr] using d3⟩
      | some rs => exact ⟨q + 4, by simp, drop_at d3 (by simp [phonLen, hr])⟩
    obtain ⟨q', e4, d4⟩ := d4
    rw [e4]
    have hs := slice_chars u.wide u.text hu.fits d4
    rw [hu.flags.2.1]
    cases hw : u.wide with
    | true => simpa using hs.1 hw
    | false => simp [hs.2 hw]

/-- What `unpack_unicode_update_pos` does after the length. -/
theorem unicodeBody_at {data r : Bytes} {p : Nat} (u : UStr) (hu : u.Ok) (l : Nat) (h : data.drop p = u.body ++ r) :
    unpackUnicodeUpdatePos data (p : Int) l (some ((utf16 u.text).length : Nat)) =
      .ok (u.text, ((p + u.body.length : Nat) : Int)) := by
  have hne : sliceFrom data (p : Int) ≠ [] := by
    have hp : p ≤ data.length := by
      by_contra hx
      rw [List.drop_of_length_le (by omega), body_eq] at h
      simp at h
    have : sliceFrom data (p : Int) = data.drop p := by
      unfold sliceFrom clampIdx
      have h1 : ¬ ((p : Int) < 0) := by omega
      simp only [h1, ↓reduceIte, Int.toNat_natCast, Nat.min_eq_left hp]
    rw [this, h, body_eq]
    simp
  unfold unpackUnicodeUpdatePos
  simp only [bind, Except.bind, pure, Except.pure]
  rw [if_neg (by rintro ⟨_, h2⟩; exact hne h2)]
  have d1 := h
  rw [body_eq] at d1
  simp only [List.append_assoc] at d1
  rw [byteAt_at d1]
  simp only [flags_byte u.opt hu.flags.1]
  have d2 := drop_at d1 (n := 1) rfl
  rw [show ((p : Int) + 1) = ((p + 1 : Nat) : Int) by push_cast; rfl]
  simp only [hu.flags.2.1, hu.flags.2.2.1, hu.flags.2.2.2]
  have hlen : u.body.length = 1 + (runsLen u).length + (phonLen u).length + (encUnits u.wide (utf16 u.text)).length +
      (runsBytes u).length + (phonBytes u).length := by rw [body_eq]; simp; omega
  have hc := encUnits_length u.wide (utf16 u.text)
  cases hr : u.runs with
  | none =>
    have l1 : runsLen u = [] := by simp [runsLen, hr]
    have l2 : runsBytes u = [] := by simp [runsBytes, hr]
    rw [l1, l2] at d2
    simp only [List.nil_append] at d2
    simp only [Option.isSome_none, Bool.false_eq_true, ↓reduceIte]
    cases hp : u.phon with
    | none =>
      have l3 : phonLen u = [] := by simp [phonLen, hp]
      have l4 : phonBytes u = [] := by simp [phonBytes, hp]
      rw [l3, l4] at d2
      simp only [List.nil_append] at d2
      simp only [Option.isSome_none, Bool.false_eq_true, ↓reduceIte]
      have hs := slice_chars u.wide u.text hu.fits d2
      cases hw : u.wide with
      | true =>
        rw [hw] at hc; simp only [↓reduceIte] at hc ⊢
        rw [hs.1 hw]
        simp only [hlen, hc, l1, l2, l3, l4, List.length_nil, hw]
        congr 2; push_cast; omega
      | false =>
        rw [hw] at hc; simp only [Bool.false_eq_true, ↓reduceIte] at hc ⊢
        rw [hs.2 hw]
        simp only [hlen, hc, l1, l2, l3, l4, List.length_nil, hw]
        congr 2; push_cast; omega
    | some ph =>
      have l3 : phonLen u = le32 ph.length := by simp [phonLen, hp]
      have l4 : phonBytes u = ph := by simp [phonBytes, hp]
      rw [l3, l4] at d2
      simp only [Option.isSome_some, ↓reduceIte]
      rw [unpacki_at (hu.phon ph hp) d2]
      have d3 := drop_at d2 (le32_length _)
      simp only []
      rw [show (((p + 1 : Nat) : Int) + 4) = ((p + 1 + 4 : Nat) : Int) by push_cast; rfl]
      have hs := slice_chars u.wide u.text hu.fits d3
      cases hw : u.wide with
      | true =>
        rw [hw] at hc; simp only [↓reduceIte] at hc ⊢
        rw [hs.1 hw]
        simp only [hlen, hc, l1, l2, l3, l4, List.length_nil, le32_length, hw]
        congr 2; push_cast; omega
      | false =>
        rw [hw] at hc; simp only [Bool.false_eq_true, ↓reduceIte] at hc ⊢
        rw [hs.2 hw]
        simp only [hlen, hc, l1, l2, l3, l4, List.length_nil, le32_length, hw]
        congr 2; push_cast; omega
  | some rs =>
    have l1 : runsLen u = le16 rs.length := by simp [runsLen, hr]
    have l2 : runsBytes u = rs.flatMap encRun := by simp [runsBytes, hr]
    have l2' := flatMap_run_length rs
    rw [l1, l2] at d2
    simp only [Option.isSome_some, ↓reduceIte]
    rw [unpackH_at (hu.runs rs hr) d2]
    have d3 := drop_at d2 (le16_length _)
    simp only []
    rw [show (((p + 1 : Nat) : Int) + 2) = ((p + 1 + 2 : Nat) : Int) by push_cast; rfl]
    cases hp : u.phon with
    | none =>
      have l3 : phonLen u = [] := by simp [phonLen, hp]
      have l4 : phonBytes u = [] := by simp [phonBytes, hp]
      rw [l3, l4] at d3
      simp only [List.nil_append] at d3
      simp only [Option.isSome_none, Bool.false_eq_true, ↓reduceIte]
      have hs := slice_chars u.wide u.text hu.fits d3
      cases hw : u.wide with
      | true =>
        rw [hw] at hc; simp only [↓reduceIte] at hc ⊢
        rw [hs.1 hw]
        simp only [hlen, hc, l1, l2, l2', l3, l4, List.length_nil, le16_length, hw]
        congr 2; push_cast; omega
      | false =>
        rw [hw] at hc; simp only [Bool.false_eq_true, ↓reduceIte] at hc ⊢
        rw [hs.2 hw]
        simp only [hlen, hc, l1, l2, l2', l3, l4, List.length_nil, le16_length, hw]
        congr 2; push_cast; omega
    | some ph =>
      have l3 : phonLen u = le32 ph.length := by simp [phonLen, hp]
      have l4 : phonBytes u = ph := by simp [phonBytes, hp]
      rw [l3, l4] at d3
      simp only [Option.isSome_some, ↓reduceIte]
      rw [unpacki_at (hu.phon ph hp) d3]
      have d4 := drop_at d3 (le32_length _)
      simp only []
      rw [show (((p + 1 + 2 : Nat) : Int) + 4) = ((p + 1 + 2 + 4 : Nat) : Int) by push_cast; rfl]
      have hs := slice_chars u.wide u.text hu.fits d4
      cases hw : u.wide with
      | true =>
        rw [hw] at hc; simp only [↓reduceIte] at hc ⊢
        rw [hs.1 hw]
        simp only [hlen, hc, l1, l2, l2', l3, l4, le16_length, le32_length, hw]
        congr 2; push_cast; omega
      | false =>
        rw [hw] at hc; simp only [Bool.false_eq_true, ↓reduceIte] at hc ⊢
        rw [hs.2 hw]
        simp only [hlen, hc, l1, l2, l2', l3, l4, le16_length, le32_length, hw]
        congr 2; push_cast; omega

theorem unicodeLen_at {data r : Bytes} {p l : Nat} (u : UStr) (hu : u.Ok) (hl : l = 1 ∨ l = 2)
    (hn : (utf16 u.text).length < 256 ^ l) (h : data.drop p = encLen l (utf16 u.text).length ++ (u.body ++ r)) :
    unpackUnicodeUpdatePos data (p : Int) l none = .ok (u.text, ((p + l + u.body.length : Nat) : Int)) := by
  have d1 := drop_at h (encLen_length l _ hl)
  rw [← unicodeBody_at u hu l d1]
  unfold unpackUnicodeUpdatePos
  rw [unpackLen_at hl hn h]
  simp only [bind, Except.bind, pure, Except.pure, Int.natCast_add]

/-! ## Byte strings -/

theorem unpackString_at {data r b : Bytes} {p l : Nat} (dec : Bytes → R PyStr) (hl : l = 1 ∨ l = 2) (hn : b.length < 256 ^ l)
    (h : data.drop p = encLen l b.length ++ (b ++ r)) : unpackString dec data (p : Int) l = dec b := by
  unfold unpackString
  rw [unpackLen_at hl hn h]
  simp only [bind, Except.bind]
  rw [← Int.natCast_add, slice_at (drop_at h (encLen_length l _ hl)) rfl]

theorem unpackStringPos_at {data r b : Bytes} {p l : Nat} (dec : Bytes → R PyStr)
    (h : data.drop p = b ++ r) :
    unpackStringUpdatePos dec data (p : Int) l (some (b.length : Nat)) = (dec b).map fun s => (s, ((p + b.length : Nat) : Int)) := by
  unfold unpackStringUpdatePos
  simp only [bind, Except.bind, pure, Except.pure]
  rw [slice_at h rfl]
  cases dec b <;> simp [Except.map]

theorem unpackStringLen_at {data r b : Bytes} {p l : Nat} (dec : Bytes → R PyStr) (hl : l = 1 ∨ l = 2) (hn : b.length < 256 ^ l)
    (h : data.drop p = encLen l b.length ++ (b ++ r)) :
    unpackStringUpdatePos dec data (p : Int) l none = (dec b).map fun s => (s, ((p + l + b.length : Nat) : Int)) := by
  rw [← unpackStringPos_at dec (drop_at h (encLen_length l _ hl)) (l := l)]
  unfold unpackStringUpdatePos
  rw [unpackLen_at hl hn h]
  simp only [bind, Except.bind, pure, Except.pure, Int.natCast_add]

/-! ## Range lists -/

theorem encRange_length (a : Nat) (ha : a = 6 ∨ a = 8) (r : Nat × Nat × Nat × Nat) : (encRange a r).length = a := by
  rcases ha with rfl | rfl <;> simp [encRange]

theorem unpackRanges_at {data : Bytes} (a : Nat) (ha : a = 6 ∨ a = 8) (rs : List (Nat × Nat × Nat × Nat))
    (hr : ∀ r ∈ rs, r.1 < 65536 ∧ r.2.1 < 65536 ∧ r.2.2.1 < (if a = 6 then 256 else 65536) ∧
      r.2.2.2 < (if a = 6 then 256 else 65536)) (p : Nat) (tail : Bytes) (h : data.drop p = rs.flatMap (encRange a) ++ tail) :
    unpackRanges data a rs.length (p : Int) =
      .ok (rs.map fun r => (r.1, r.2.1 + 1, r.2.2.1, r.2.2.2 + 1), ((p + a * rs.length : Nat) : Int)) := by
  induction rs generalizing p with
  | nil => simp [unpackRanges]
  | cons r rs ih =>
    have hl := encRange_length a ha r
    have h' : data.drop p = encRange a r ++ (rs.flatMap (encRange a) ++ tail) := by rw [h]; simp
    have d := drop_at h' hl
    have := ih (fun x hx => hr x (by simp [hx])) (p + a) d
    have hb := hr r (by simp)
    rw [List.length_cons, unpackRanges, slice_at h' hl, unpackN_ok hl]
    simp only [bind, Except.bind, pure, Except.pure]
    rw [← Int.natCast_add, this]
    simp only [List.map_cons, Except.ok.injEq, Prod.mk.injEq, List.cons.injEq]
    refine ⟨⟨?_, trivial⟩, ?_⟩
    · obtain ⟨r1, r2, r3, r4⟩ := r
      simp only at hb
      rcases ha with rfl | rfl
      · simp only [↓reduceIte] at hb ⊢
        simp [encRange, fld, le16, le, u8_toNat_ofNat]; omega
      · simp only [show ¬ (8 = 6) by decide, ↓reduceIte] at hb ⊢
        simp [encRange, fld, le16, le, u8_toNat_ofNat]; omega
    · congr 1
      rw [Nat.mul_add]; omega

end Xlrd
