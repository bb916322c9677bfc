import Verif.Lemmas.Numbers

/-!
# C30 RK numbers
-/
set_option linter.unusedSimpArgs false
namespace Xlrd
open Spec

/-- C30: an RK value decodes to the number it denotes: the signed integer, or the binary64 number with the
given sign, exponent and leading fraction bits, or the binary64 number nearest to a hundredth of it. -/
theorem C30_rk_decodes (x : Rk) (h : x.Ok) : unpackRK x.bytes = .ok (x.value fl) := unpackRK_ok x h

/-- C30: this covers all 2^32 four-byte strings, so decoding never fails on four bytes. -/
theorem C30_every_pattern (b : Bytes) (hb : b.length = 4) : ∃ x : Rk, x.Ok ∧ b = x.bytes ∧ unpackRK b = .ok (x.value fl) := by
  match b, hb with
  | [a0, a1, a2, a3], _ =>
    have l0 := a0.toNat_lt; have l1 := a1.toNat_lt; have l2 := a2.toNat_lt; have l3 := a3.toNat_lt
    obtain ⟨x, hx, hw⟩ := Rk.exists_word (a0.toNat + 256 * a1.toNat + 65536 * a2.toNat + 16777216 * a3.toNat) (by omega)
    have e : ([a0, a1, a2, a3] : Bytes) = x.bytes := by
      unfold Rk.bytes le32 le16
      rw [hw]
      have f : ∀ (a : UInt8) (n : Nat), n = a.toNat → a = UInt8.ofNat n := by rintro a _ rfl; simp
      simp only [List.cons_append, List.nil_append, List.cons.injEq, and_true]
      refine ⟨f _ _ ?_, f _ _ ?_, f _ _ ?_, f _ _ ?_⟩ <;> omega
    exact ⟨x, hx, e, by rw [e]; exact unpackRK_ok x hx⟩

/-- C30: an eight-byte number decodes to the binary64 number with those fields. -/
theorem C30_binary64_decodes (x : B64) (h : x.Ok) : unpackd x.bytes = .ok x.value := unpackd_bytes x h

example : (Rk.int (-3) true).Ok ∧ (Rk.int (-3) true).word = 0xFFFFFFF7 ∧ (Rk.int (-3) true).value fl = .fin (fl (-3 / 100)) := by
  refine ⟨?_, by decide, by simp [Rk.value, hundredth]⟩
  unfold Rk.Ok; norm_num
example : (Rk.flt false 1023 (2 ^ 17) false).Ok ∧ (Rk.flt false 1023 (2 ^ 17) false).bytes = [0, 0, 0xF8, 0x3F] ∧
    (Rk.flt false 1023 (2 ^ 17) false).value fl = .fin (3 / 2) := by
  refine ⟨?_, by decide, ?_⟩
  · unfold Rk.Ok; norm_num
  · simp [Rk.value, B64.value]; norm_num
example : (⟨true, 1024, 2 ^ 51⟩ : B64).Ok ∧ (⟨true, 1024, 2 ^ 51⟩ : B64).value = .fin (-3) := by
  refine ⟨by unfold B64.Ok; norm_num, ?_⟩
  simp [B64.value]; norm_num

end Xlrd
