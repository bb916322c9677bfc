import Verif.Model.Rk
import Verif.Spec.Numbers
import Verif.Lemmas.Records
import Mathlib.Tactic.Ring

/-!
# Decoding numbers
-/
set_option linter.unusedSimpArgs false
namespace Xlrd
open Spec

theorem B64.fields (x : B64) (h : x.Ok) :
    x.bits < 2 ^ 64 ∧ x.bits.testBit 63 = x.neg ∧ x.bits / 2 ^ 52 % 2 ^ 11 = x.e ∧ x.bits % 2 ^ 52 = x.m := by
  obtain ⟨h1, h2⟩ := h
  unfold B64.bits
  rw [Nat.testBit_eq_decide_div_mod_eq]
  cases x.neg <;> simp <;> omega

theorem f64OfBits_bits (x : B64) (h : x.Ok) : f64OfBits x.bits = x.value := by
  obtain ⟨_, h1, h2, h3⟩ := B64.fields x h
  unfold f64OfBits B64.value
  simp only [h1, h2, h3]
  by_cases a : x.e = 2047
  · simp only [a, ↓reduceIte]
  · by_cases b : x.e = 0
    · simp only [a, b, ↓reduceIte, zpow_neg, F64.fin.injEq]
      rw [if_neg (by omega)]
      simp [div_eq_mul_inv]
    · simp only [a, b, ↓reduceIte]

theorem le_append4 (a b : Nat) (ha : a < 2 ^ 32) (hb : b < 2 ^ 32) : le (le32 a ++ le32 b) = a + 2 ^ 32 * b := by
  simp [le32, le16, le, u8_toNat_ofNat]; omega

theorem B64.bytes_length (x : B64) : x.bytes.length = 8 := rfl

theorem unpackd_bytes (x : B64) (h : x.Ok) : unpackd x.bytes = .ok x.value := by
  have h1 := (B64.fields x h).1
  have h2 : fld x.bytes 0 8 = x.bits := by
    unfold fld B64.bytes
    rw [List.drop_zero, List.take_of_length_le (by simp), le_append4 _ _ (by omega) (by omega)]
    omega
  simp [unpackd, unpackN_ok (B64.bytes_length x), bind, Except.bind, pure, Except.pure, h2, f64OfBits_bits x h]

theorem Rk.word_lt (x : Rk) (h : x.Ok) : x.word < 2 ^ 32 := by
  cases x with
  | int i c => simp only [Rk.word]; have := Int.emod_nonneg i (show (2 : ℤ) ^ 30 ≠ 0 by decide); have := Int.emod_lt_of_pos i (show (0 : ℤ) < 2 ^ 30 by decide); split_ifs <;> omega
  | flt n e m c => simp only [Rk.word]; obtain ⟨h1, h2⟩ := h; split_ifs <;> omega

theorem idx0_le32 (w : Nat) : idx (le32 w) 0 = .ok (UInt8.ofNat (w % 65536 % 256)) := rfl

theorem and252 : ∀ f < 256, f &&& 252 = f - f % 4 := by decide +kernel

theorem div100_eq (x : F64) : x.div100 = hundredth fl x := by cases x <;> rfl

theorem rk_num (w : Nat) (h : w < 2 ^ 32) :
    256 ^ 4 * ((w % 256 - w % 256 % 4) % 256 + 256 * (w % 65536 / 256 % 256 % 256 + 256 * (w / 65536 % 256 % 256 + 256 * (w / 65536 / 256 % 256 % 256)))) =
      2 ^ 32 * (w / 4 * 4) := by omega

theorem rk_double (w : Nat) (h : w < 2 ^ 32) :
    unpackd ([0, 0, 0, 0] ++ [UInt8.ofNat (w % 256 &&& 252)] ++ slice (le32 w) 1 4) = .ok (f64OfBits (2 ^ 32 * (w / 4 * 4))) := by
  have hs : slice (le32 w) 1 4 = [UInt8.ofNat (w % 65536 / 256 % 256), UInt8.ofNat (w / 65536 % 256), UInt8.ofNat (w / 65536 / 256 % 256)] := rfl
  rw [hs, and252 _ (by omega)]
  unfold unpackd
  rw [unpackN_ok (by rfl)]
  simp only [bind, Except.bind, pure, Except.pure]
  refine congrArg (fun k => Except.ok (f64OfBits k)) ?_
  rw [← rk_num w h]
  simp only [fld, le, u8_toNat_ofNat, List.drop_zero, List.cons_append, List.nil_append, List.take_succ_cons, List.take_zero, UInt8.toNat_zero]
  ring

theorem unpackRK_ok (x : Rk) (h : x.Ok) : unpackRK x.bytes = .ok (x.value fl) := by
  have hw := Rk.word_lt x h
  unfold unpackRK Rk.bytes
  rw [idx0_le32]
  simp only [bind, Except.bind, u8_toNat_ofNat]
  have e0 : x.word % 65536 % 256 % 256 = x.word % 256 := by omega
  rw [e0]
  have t1 : (x.word % 256).testBit 1 = decide (x.word / 2 % 2 = 1) := by
    rw [Nat.testBit_eq_decide_div_mod_eq]; congr 1; rw [eq_iff_iff]; omega
  have t0 : (x.word % 256).testBit 0 = decide (x.word % 2 = 1) := by
    rw [Nat.testBit_eq_decide_div_mod_eq]; congr 1; rw [eq_iff_iff]; omega
  rw [t1, t0]
  cases x with
  | int i c =>
    obtain ⟨h1, h2⟩ := h
    have p1 := Int.emod_nonneg i (show (2 : ℤ) ^ 30 ≠ 0 by decide)
    have p2 := Int.emod_lt_of_pos i (show (0 : ℤ) < 2 ^ 30 by decide)
    have b1 : (Rk.int i c).word / 2 % 2 = 1 := by simp only [Rk.word]; split_ifs <;> omega
    have b0 : ((Rk.int i c).word % 2 = 1) ↔ c = true := by simp only [Rk.word]; cases c <;> simp <;> omega
    have hi : unpacki (le32 (Rk.int i c).word) = .ok (sgn 32 (Rk.int i c).word) := by
      simp [unpacki, unpackN_ok (le32_length _), bind, Except.bind, pure, Except.pure, fld_le32 _ hw]
    have hv : sgn 32 (Rk.int i c).word / 4 = i := by
      simp only [sgn, Rk.word]
      split_ifs <;> omega
    simp only [b1, b0, decide_true, ↓reduceIte, hi, hv, pure, Except.pure, Rk.value, div100_eq]
    cases c <;> simp
  | flt n e m c =>
    obtain ⟨h1, h2⟩ := h
    have b1 : (Rk.flt n e m c).word / 2 % 2 = 0 := by simp only [Rk.word]; split_ifs <;> omega
    have b0 : ((Rk.flt n e m c).word % 2 = 1) ↔ c = true := by simp only [Rk.word]; cases c <;> simp <;> omega
    have hx : (B64.Ok ⟨n, e, m * 2 ^ 34⟩) := ⟨h1, by simp only; omega⟩
    set w := (Rk.flt n e m c).word with hwdef
    have hbits : (⟨n, e, m * 2 ^ 34⟩ : B64).bits = 2 ^ 32 * (w / 4 * 4) := by
      rw [hwdef]; simp only [Rk.word, B64.bits]; cases n <;> cases c <;> simp <;> omega
    have hd := rk_double w hw
    rw [← hbits, f64OfBits_bits _ hx] at hd
    simp only [b1, Nat.zero_ne_one, decide_false, Bool.false_eq_true, ↓reduceIte, hd, b0, pure, Except.pure, Rk.value, div100_eq]
    cases c <;> simp

/-- every 32-bit word is the word of an RK number -/
theorem Rk.exists_word (w : Nat) (h : w < 2 ^ 32) : ∃ x : Rk, x.Ok ∧ x.word = w := by
  by_cases hb : w / 2 % 2 = 1
  · refine ⟨.int (if w / 4 < 2 ^ 29 then (w / 4 : Nat) else (w / 4 : Nat) - 2 ^ 30) (decide (w % 2 = 1)), ?_, ?_⟩
    · simp only [Rk.Ok]; split_ifs <;> omega
    · simp only [Rk.word]; simp only [decide_eq_true_eq]; split_ifs <;> omega
  · refine ⟨.flt (decide (w / 2 ^ 31 = 1)) (w / 2 ^ 20 % 2048) (w / 4 % 2 ^ 18) (decide (w % 2 = 1)), ?_, ?_⟩
    · simp only [Rk.Ok]; omega
    · simp only [Rk.word]; simp only [decide_eq_true_eq]; split_ifs <;> omega

end Xlrd
