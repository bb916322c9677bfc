import Verif.Lemmas.Float
import Verif.Lemmas.Records
import Verif.Model.CompDoc
import Verif.Model.Formula
import Mathlib.Tactic.IntervalCases

/-!
# Checks of the Python semantics that the model takes for granted

The model writes out a few operations of Python itself: rounding to binary64, indexing, slicing, splitting at slashes, UTF-16 decoding, two's complement.  The theorems here say
that the definitions are what IEEE 754, Unicode and the Python reference describe.
-/
set_option linter.unusedSimpArgs false
namespace Xlrd
open Spec

/-! ## Rounding -/

/-- Python's `round`: a nearest integer. -/
theorem rne_nearest (q : ℚ) (n : ℤ) : |(rne q : ℚ) - q| ≤ |(n : ℚ) - q| := by
  by_cases hn : n = rne q
  · rw [hn]
  · have h := rne_err q
    have h1 : (1 : ℚ) ≤ |(n : ℚ) - rne q| := by
      have : (1 : ℤ) ≤ |n - rne q| := Int.one_le_abs (by omega)
      exact_mod_cast this
    have h2 : |(n : ℚ) - rne q| ≤ |(n : ℚ) - q| + |(rne q : ℚ) - q| := by
      have := abs_sub_le (n : ℚ) q (rne q)
      rwa [abs_sub_comm q (rne q : ℚ)] at this
    linarith

/-- Of two nearest integers, the even one. -/
theorem rne_tie (q : ℚ) (h : |(rne q : ℚ) - q| = 1 / 2) : rne q % 2 = 0 := by
  have h1 := Int.floor_le q
  have h2 := Int.lt_floor_add_one q
  unfold rne at h ⊢
  simp only at h ⊢
  by_cases c1 : q - ⌊q⌋ < 1 / 2
  · rw [if_pos c1] at h
    rw [abs_sub_comm, abs_of_nonneg (by linarith)] at h
    linarith
  · rw [if_neg c1] at h ⊢
    by_cases c2 : 1 / 2 < q - ⌊q⌋
    · rw [if_pos c2] at h
      push_cast at h
      rw [abs_of_nonneg (by linarith)] at h
      linarith
    · rw [if_neg c2]
      by_cases c3 : ⌊q⌋ % 2 = 0
      · rw [if_pos c3]; exact c3
      · rw [if_neg c3]; omega

/-- The finite binary64 numbers, with no upper limit on the exponent: 53 bits times a power of two, which is at least 2^-1074. -/
def IsBinary64 (y : ℚ) : Prop := ∃ m e : ℤ, |m| < 2 ^ 53 ∧ -1074 ≤ e ∧ y = m * 2 ^ e

theorem abs_scaled (q : ℚ) : |q / 2 ^ ulpExp q| < 2 ^ 53 := by
  rw [abs_div, abs_of_pos (two_zpow_pos _), div_lt_iff₀ (two_zpow_pos _)]
  refine lt_of_lt_of_le (abs_lt_log q) ?_
  rw [show (2 : ℚ) ^ 53 = 2 ^ (53 : ℤ) from by norm_num, ← zpow_add₀ (by norm_num : (2 : ℚ) ≠ 0)]
  exact zpow_le_zpow_right₀ (by norm_num) (by unfold ulpExp; omega)

/-- The result of rounding is a binary64 number. -/
theorem fl_isBinary64 (q : ℚ) : IsBinary64 (fl q) := by
  have hb := abs_scaled q
  have hlo : (-(2 ^ 53) : ℤ) ≤ rne (q / 2 ^ ulpExp q) := by
    have := rne_mono (p := ((-(2 ^ 53) : ℤ) : ℚ)) (q := q / 2 ^ ulpExp q) (by push_cast; exact le_of_lt (abs_lt.mp hb).1)
    rwa [rne_int] at this
  have hhi : rne (q / 2 ^ ulpExp q) ≤ 2 ^ 53 := by
    have := rne_mono (p := q / 2 ^ ulpExp q) (q := ((2 ^ 53 : ℤ) : ℚ)) (by push_cast; exact le_of_lt (abs_lt.mp hb).2)
    rwa [rne_int] at this
  have hu : -1074 ≤ ulpExp q := by unfold ulpExp; omega
  by_cases h : |rne (q / 2 ^ ulpExp q)| < 2 ^ 53
  · exact ⟨_, _, h, hu, rfl⟩
  · have hs : rne (q / 2 ^ ulpExp q) = 2 ^ 53 ∨ rne (q / 2 ^ ulpExp q) = -(2 ^ 53) := by
      rcases abs_cases (rne (q / 2 ^ ulpExp q)) with ⟨a, _⟩ | ⟨a, _⟩
      · left; omega
      · right; omega
    have h2 : (2 : ℚ) ^ (ulpExp q + 1) = 2 ^ ulpExp q * 2 := zpow_add_one₀ (by norm_num) _
    rcases hs with hs | hs
    · refine ⟨2 ^ 52, ulpExp q + 1, by norm_num, by omega, ?_⟩
      unfold fl
      rw [hs, h2]; push_cast; ring
    · refine ⟨-(2 ^ 52), ulpExp q + 1, by norm_num, by omega, ?_⟩
      unfold fl
      rw [hs, h2]; push_cast; ring

/-- The numbers that are finer than the unit in the last place of `q` are nearer to zero than the binade of `q`. -/
theorem finer_small {q : ℚ} (hq : q ≠ 0) {m e : ℤ} (hm : |m| < 2 ^ 53) (he : -1074 ≤ e) (hu : e < ulpExp q) :
    |(m : ℚ) * 2 ^ e| < 2 ^ 52 * 2 ^ ulpExp q ∧ (2 : ℚ) ^ 52 * 2 ^ ulpExp q ≤ |q| := by
  constructor
  · rw [abs_mul, abs_of_pos (two_zpow_pos e)]
    have h1 : |(m : ℚ)| < 2 ^ 53 := by exact_mod_cast hm
    have h2 : (2 : ℚ) ^ e * 2 ≤ 2 ^ ulpExp q := by
      rw [← zpow_add_one₀ (by norm_num : (2 : ℚ) ≠ 0)]
      exact zpow_le_zpow_right₀ (by norm_num) (by omega)
    have h3 := mul_lt_mul_of_pos_right h1 (two_zpow_pos e)
    have h4 : (2 : ℚ) ^ 53 * 2 ^ e = 2 ^ 52 * (2 ^ e * 2) := by ring
    rw [h4] at h3
    exact lt_of_lt_of_le h3 (mul_le_mul_of_nonneg_left h2 (by norm_num))
  · have hl : ulpExp q = Int.log 2 |q| - 52 := by unfold ulpExp at hu ⊢; omega
    refine le_trans (le_of_eq ?_) (log_le_abs q hq)
    rw [hl, show (2 : ℚ) ^ 52 = 2 ^ (52 : ℤ) from by norm_num, ← zpow_add₀ (by norm_num : (2 : ℚ) ≠ 0)]
    congr 1
    omega

theorem fl_grid (q : ℚ) (n : ℤ) : |fl q - q| ≤ |(n : ℚ) * 2 ^ ulpExp q - q| := by
  have hp := two_zpow_pos (ulpExp q)
  have h := mul_le_mul_of_nonneg_right (rne_nearest (q / 2 ^ ulpExp q) n) (le_of_lt hp)
  rw [← abs_of_pos hp, ← abs_mul, ← abs_mul, abs_of_pos hp, sub_mul, sub_mul, div_mul_cancel₀ _ (ne_of_gt hp)] at h
  exact h

/-- A finer number is strictly worse. -/
theorem finer_worse {q : ℚ} (hq0 : q ≠ 0) {m e : ℤ} (hm : |m| < 2 ^ 53) (he : -1074 ≤ e) (hu : e < ulpExp q) : |fl q - q| < |(m : ℚ) * 2 ^ e - q| := by
  obtain ⟨h1, h2⟩ := finer_small hq0 hm he hu
  have h3 : |q| - |(m : ℚ) * 2 ^ e| ≤ |(m : ℚ) * 2 ^ e - q| := by
    rw [abs_sub_comm]; exact abs_sub_abs_le_abs_sub _ _
  have h4 : |fl q - q| ≤ |q| - 2 ^ 52 * 2 ^ ulpExp q := by
    rcases le_total 0 q with hq | hq
    · have := fl_grid q (2 ^ 52)
      rw [show (((2 ^ 52 : ℤ) : ℚ)) = 2 ^ 52 by norm_num] at this
      rw [abs_of_nonneg hq] at h2 ⊢
      rwa [abs_sub_comm (2 ^ 52 * 2 ^ ulpExp q) q, abs_of_nonneg (a := q - 2 ^ 52 * 2 ^ ulpExp q) (by linarith)] at this
    · have := fl_grid q (-(2 ^ 52))
      rw [show (((-(2 ^ 52) : ℤ) : ℚ)) = -2 ^ 52 by norm_num] at this
      rw [abs_of_nonpos hq] at h2 ⊢
      rw [abs_of_nonneg (a := -2 ^ 52 * 2 ^ ulpExp q - q) (by linarith)] at this
      linarith
  linarith

/-- A number on the grid of `q`. -/
theorem coarser_grid {q : ℚ} {m e : ℤ} (hu : ulpExp q ≤ e) : (m : ℚ) * 2 ^ e = ((m * 2 ^ (e - ulpExp q).toNat : ℤ) : ℚ) * 2 ^ ulpExp q := by
  push_cast
  rw [mul_assoc, ← zpow_natCast, ← zpow_add₀ (by norm_num : (2 : ℚ) ≠ 0)]
  congr 2
  omega

/-- Rounding gives a nearest binary64 number. -/
theorem fl_nearest (q y : ℚ) (hy : IsBinary64 y) : |fl q - q| ≤ |y - q| := by
  rcases eq_or_ne q 0 with rfl | hq
  · rw [fl_zero]; simp
  obtain ⟨m, e, hm, he, rfl⟩ := hy
  by_cases hu : e < ulpExp q
  · exact le_of_lt (finer_worse hq hm he hu)
  · rw [coarser_grid (q := q) (show ulpExp q ≤ e by omega)]
    exact fl_grid q _

/-- If two binary64 numbers are nearest, rounding gives the one with an even last digit. -/
theorem fl_tie (q y : ℚ) (hy : IsBinary64 y) (hne : y ≠ fl q) (ht : |y - q| = |fl q - q|) : ∃ m : ℤ, m % 2 = 0 ∧ fl q = m * 2 ^ ulpExp q := by
  rcases eq_or_ne q 0 with rfl | hq
  · rw [fl_zero] at ht hne
    exact absurd (by simpa using ht) hne
  refine ⟨rne (q / 2 ^ ulpExp q), ?_, rfl⟩
  obtain ⟨m, e, hm, he, rfl⟩ := hy
  by_cases hu : e < ulpExp q
  · exact absurd ht (ne_of_gt (finer_worse hq hm he hu))
  · rw [coarser_grid (q := q) (show ulpExp q ≤ e by omega)] at ht hne
    have hp := two_zpow_pos (ulpExp q)
    generalize m * 2 ^ (e - ulpExp q).toNat = n at ht hne
    apply rne_tie
    have hn : n ≠ rne (q / 2 ^ ulpExp q) := by rintro rfl; exact hne rfl
    have e1 : |(n : ℚ) - q / 2 ^ ulpExp q| = |(rne (q / 2 ^ ulpExp q) : ℚ) - q / 2 ^ ulpExp q| := by
      have k : ∀ x : ℚ, |x * 2 ^ ulpExp q - q| = |x - q / 2 ^ ulpExp q| * 2 ^ ulpExp q := by
        intro x
        rw [← abs_of_pos hp, ← abs_mul, abs_of_pos hp, sub_mul, div_mul_cancel₀ _ (ne_of_gt hp)]
      unfold fl at ht
      rw [k, k] at ht
      exact mul_right_cancel₀ (ne_of_gt hp) ht
    have h1 : (1 : ℚ) ≤ |(n : ℚ) - rne (q / 2 ^ ulpExp q)| := by
      have : (1 : ℤ) ≤ |n - rne (q / 2 ^ ulpExp q)| := Int.one_le_abs (by omega)
      exact_mod_cast this
    have h2 := abs_sub_le (n : ℚ) (q / 2 ^ ulpExp q) (rne (q / 2 ^ ulpExp q))
    rw [abs_sub_comm (q / 2 ^ ulpExp q) (rne (q / 2 ^ ulpExp q) : ℚ), e1] at h2
    have h3 := rne_err (q / 2 ^ ulpExp q)
    linarith

/-- `int(x)`: the integer part, towards zero. -/
theorem truncQ_spec (q : ℚ) : |(truncQ q : ℚ)| ≤ |q| ∧ |q - truncQ q| < 1 ∧ (0 ≤ q → 0 ≤ truncQ q) ∧ (q ≤ 0 → truncQ q ≤ 0) := by
  unfold truncQ
  by_cases h : q < 0
  · rw [if_pos h]
    have h1 := Int.floor_le (-q)
    have h2 := Int.lt_floor_add_one (-q)
    have h3 : (0 : ℤ) ≤ ⌊-q⌋ := Int.floor_nonneg.mpr (by linarith)
    have h3' : (0 : ℚ) ≤ ⌊-q⌋ := by exact_mod_cast h3
    push_cast
    refine ⟨?_, ?_, fun h' => absurd h' (by linarith), fun _ => by omega⟩
    · rw [abs_neg, abs_of_nonneg h3', abs_of_neg h]; exact h1
    · rw [abs_lt]; constructor <;> linarith
  · rw [if_neg h]
    have h1 := Int.floor_le q
    have h2 := Int.lt_floor_add_one q
    have h0 : 0 ≤ q := by linarith
    have h3 : (0 : ℤ) ≤ ⌊q⌋ := Int.floor_nonneg.mpr h0
    have h3' : (0 : ℚ) ≤ ⌊q⌋ := by exact_mod_cast h3
    refine ⟨?_, ?_, fun _ => h3, fun h' => ?_⟩
    · rw [abs_of_nonneg h3', abs_of_nonneg h0]; exact h1
    · rw [abs_lt]; constructor <;> linarith
    · have : q = 0 := le_antisymm h' h0
      rw [this]; simp

/-! ## Sequences -/

/-- `l[i]` -/
theorem idx_spec {α : Type} (l : List α) (i : Int) (x : α) :
    idx l i = .ok x ↔ (∃ k : Nat, i = k ∧ l[k]? = some x) ∨ ∃ k : Nat, 0 < k ∧ k ≤ l.length ∧ i = -(k : Int) ∧ l[l.length - k]? = some x := by
  unfold idx
  by_cases h : i < 0
  · simp only [if_pos h]
    by_cases h2 : i + l.length < 0
    · rw [if_pos h2]
      constructor
      · intro h; cases h
      · rintro (⟨k, h3, _⟩ | ⟨k, h3, h4, h5, _⟩) <;> omega
    · rw [if_neg h2]
      have e : (i + l.length).toNat = l.length - (-i).toNat := by omega
      rw [e]
      constructor
      · intro hx
        refine .inr ⟨(-i).toNat, by omega, by omega, by omega, ?_⟩
        cases hl : l[l.length - (-i).toNat]? with
        | none => rw [hl] at hx; cases hx
        | some y => rw [hl] at hx; cases hx; rfl
      · rintro (⟨k, h3, _⟩ | ⟨k, h3, h4, h5, h6⟩)
        · omega
        · have : (-i).toNat = k := by omega
          rw [this, h6]
  · simp only [if_neg h]
    constructor
    · intro hx
      refine .inl ⟨i.toNat, by omega, ?_⟩
      cases hl : l[i.toNat]? with
      | none => rw [hl] at hx; cases hx
      | some y => rw [hl] at hx; cases hx; rfl
    · rintro (⟨k, h3, h4⟩ | ⟨k, h3, h4, h5, _⟩)
      · have : i.toNat = k := by omega
        rw [this, h4]
      · omega

/-- `l[i:j]`: a bound below zero counts from the end, then the bounds are cut to the sequence, and the slice has the elements from the first bound up to the second. -/
theorem slice_spec {α : Type} (l : List α) (i j : Int) (k : Nat) :
    let bound := fun x : Int => max 0 (min (if x < 0 then x + l.length else x) l.length)
    (slice l i j)[k]? = if bound i + k < bound j then l[(bound i + k).toNat]? else none := by
  have hc : ∀ x : Int, (clampIdx l.length x : Int) = max 0 (min (if x < 0 then x + l.length else x) l.length) := by
    intro x
    unfold clampIdx
    by_cases h : x < 0
    · rw [if_pos h, if_pos h]; omega
    · rw [if_neg h, if_neg h]; omega
  intro bound
  show (slice l i j)[k]? = if bound i + k < bound j then l[(bound i + k).toNat]? else none
  have b1 : bound i = (clampIdx l.length i : Int) := (hc i).symm
  have b2 : bound j = (clampIdx l.length j : Int) := (hc j).symm
  rw [b1, b2]
  unfold slice
  rw [List.getElem?_drop, List.getElem?_take]
  by_cases h : clampIdx l.length i + k < clampIdx l.length j
  · rw [if_pos h, if_pos (by omega)]
    congr 1
  · rw [if_neg h, if_neg (by omega)]

/-- Two's complement: the number of the given width that is congruent to `x`. -/
theorem sgn_spec (bits x : Nat) (hb : 0 < bits) (hx : x < 2 ^ bits) :
    -(2 ^ (bits - 1) : Int) ≤ sgn bits x ∧ sgn bits x < 2 ^ (bits - 1) ∧ (sgn bits x - x) % 2 ^ bits = 0 := by
  obtain ⟨n, rfl⟩ : ∃ n, bits = n + 1 := ⟨bits - 1, by omega⟩
  have h2 : (2 : Int) ^ (n + 1) = 2 * 2 ^ n := by ring
  have h3 : (2 : Nat) ^ (n + 1) = 2 * 2 ^ n := by ring
  unfold sgn
  simp only [Nat.add_sub_cancel]
  by_cases h : x < 2 ^ n
  · rw [if_pos h]
    have h' : (x : Int) < 2 ^ n := by exact_mod_cast h
    exact ⟨by omega, h', by simp⟩
  · rw [if_neg h]
    have h' : (2 : Int) ^ n ≤ x := by exact_mod_cast Nat.le_of_not_lt h
    have h4 : (x : Int) < 2 * 2 ^ n := by rw [← h2]; exact_mod_cast hx
    push_cast
    rw [h2]
    refine ⟨by omega, by omega, ?_⟩
    rw [show (x : Int) - 2 * 2 ^ n - x = -(2 * 2 ^ n) by ring]
    simp

/-! ## Text -/

/-- `str.split('/')`: the parts, none of which has a slash, joined by slashes are the whole. -/
theorem splitSlash_spec (s : PyStr) : splitSlash s ≠ [] ∧ (∀ w ∈ splitSlash s, '/' ∉ w) ∧ List.intercalate ['/'] (splitSlash s) = s := by
  induction s with
  | nil => exact ⟨by simp [splitSlash], by simp [splitSlash], rfl⟩
  | cons c cs ih =>
    obtain ⟨h1, h2, h3⟩ := ih
    unfold splitSlash
    by_cases hc : c = '/'
    · rw [if_pos hc]
      refine ⟨by simp, ?_, ?_⟩
      · intro w hw
        rcases List.mem_cons.mp hw with rfl | hw
        · simp
        · exact h2 w hw
      · cases hs : splitSlash cs with
        | nil => exact absurd hs h1
        | cons w ws =>
          rw [hs] at h3
          rw [List.intercalate_cons_cons, h3, hc]; rfl
    · rw [if_neg hc]
      cases hs : splitSlash cs with
      | nil => exact absurd hs h1
      | cons w ws =>
        rw [hs] at h2 h3
        refine ⟨by simp, ?_, ?_⟩
        · intro v hv
          rcases List.mem_cons.mp hv with rfl | hv
          · intro hm
            rcases List.mem_cons.mp hm with h | h
            · exact hc h.symm
            · exact h2 w (List.mem_cons_self ..) h
          · exact h2 v (List.mem_cons_of_mem _ hv)
        · cases ws with
          | nil => simp [List.intercalate] at h3 ⊢; exact h3
          | cons v vs =>
            rw [List.intercalate_cons_cons] at h3 ⊢
            rw [← h3]; rfl

theorem chr?_some {n : Nat} {c : Char} (h : chr? n = some c) : c.toNat = n := by
  unfold chr? at h
  by_cases hv : n.isValidChar
  · rw [dif_pos hv] at h
    cases h
    simp [Char.ofNatAux, Char.toNat]
  · rw [dif_neg hv] at h; cases h

theorem units16_some : ∀ (b : Bytes) (us : List Nat), units16 b = some us → b = us.flatMap le16 ∧ ∀ u ∈ us, u < 65536
  | [], us, h => by cases h; simp
  | [_], us, h => by cases h
  | x :: y :: rest, us, h => by
    unfold units16 at h
    obtain ⟨vs, h1, h2⟩ := Option.map_eq_some_iff.mp h
    obtain ⟨e, hl⟩ := units16_some rest vs h1
    subst h2
    have hx := x.toNat_lt
    have hy := y.toNat_lt
    refine ⟨?_, ?_⟩
    · rw [List.flatMap_cons, ← e]
      unfold le16
      rw [show (x.toNat + 256 * y.toNat) % 256 = x.toNat by omega, show (x.toNat + 256 * y.toNat) / 256 % 256 = y.toNat by omega]
      simp
    · intro u hu
      rcases List.mem_cons.mp hu with rfl | hu
      · omega
      · exact hl u hu

theorem consChar_some {c : Option Char} {t : Option PyStr} {s : PyStr} (h : consChar c t = some s) : ∃ a w, c = some a ∧ t = some w ∧ s = a :: w := by
  cases c with
  | none => cases h
  | some a =>
    cases t with
    | none => cases h
    | some w => cases h; exact ⟨a, w, rfl, rfl, rfl⟩

theorem decodeUnits_some (n : Nat) : ∀ (us : List Nat) (s : PyStr), us.length ≤ n → (∀ u ∈ us, u < 65536) → decodeUnits us = some s → us = utf16 s := by
  induction n with
  | zero =>
    intro us s hl _ h
    rw [List.length_eq_zero_iff.mp (Nat.le_zero.mp hl)] at h ⊢
    cases h; rfl
  | succ n ih =>
    intro us s hl hu h
    cases us with
    | nil => cases h; rfl
    | cons u rest =>
      have hl' : rest.length ≤ n := by simpa using hl
      have h0 := hu u (List.mem_cons_self ..)
      unfold decodeUnits at h
      by_cases hp : isPlainUnit u = true
      · rw [if_pos hp] at h
        obtain ⟨a, w, h1, h2, rfl⟩ := consChar_some h
        have e := ih rest w hl' (fun v hv => hu v (List.mem_cons_of_mem _ hv)) h2
        have ea := chr?_some h1
        show u :: rest = unitsOf a ++ utf16 w
        rw [← e]
        unfold unitsOf
        rw [if_pos (by omega), ea]; rfl
      · rw [if_neg hp] at h
        cases rest with
        | nil => cases h
        | cons v rest =>
          simp only at h
          by_cases hq : (isHighUnit u && isLowUnit v) = true
          · rw [if_pos hq] at h
            obtain ⟨a, w, h1, h2, rfl⟩ := consChar_some h
            have e := ih rest w (by simp at hl'; omega) (fun x hx => hu x (List.mem_cons_of_mem _ (List.mem_cons_of_mem _ hx))) h2
            have ea := chr?_some h1
            simp only [isHighUnit, isLowUnit, Bool.and_eq_true, decide_eq_true_eq] at hq
            show u :: v :: rest = unitsOf a ++ utf16 w
            rw [← e]
            unfold unitsOf
            rw [if_neg (by omega), ea]
            simp only [List.cons_append, List.nil_append, List.cons.injEq, and_true]
            omega
          · rw [if_neg hq] at h; cases h

/-- The UTF-16 decoder accepts exactly the little-endian UTF-16 forms of texts, and gives the text. -/
theorem utf16leDecode_iff (b : Bytes) (s : PyStr) : utf16leDecode b = .ok s ↔ b = (utf16 s).flatMap le16 := by
  constructor
  · intro h
    unfold utf16leDecode at h
    cases hu : units16 b with
    | none => rw [hu] at h; cases h
    | some us =>
      rw [hu, Option.bind_some] at h
      obtain ⟨e, hl⟩ := units16_some b us hu
      cases hd : decodeUnits us with
      | none => rw [hd] at h; cases h
      | some t =>
        rw [hd] at h
        cases h
        rw [e, decodeUnits_some us.length us s le_rfl hl hd]
  · rintro rfl; exact utf16_decode' s

/-- The Latin-1 decoder: a character for each byte, with the same number. -/
theorem latin1Decode_spec (b : Bytes) : (latin1Decode b).map Char.toNat = b.map UInt8.toNat := by
  unfold latin1Decode
  rw [List.map_map]
  apply List.map_congr_left
  intro x _
  have h : x.toNat.isValidChar := .inl (by have := x.toNat_lt; omega)
  simp [Char.ofNat, h, Char.ofNatAux, Char.toNat]

/-- The position that an index stands for, also a negative one (a `tName` token with the number 0 is the last name). -/
theorem pyPos_spec {α} (l : List α) (i : Int) (x : α) (h : idx l i = .ok x) : l[pyPos l i]? = some x := by
  unfold idx at h
  unfold pyPos
  by_cases c : i < 0
  · simp only [if_pos c] at h ⊢
    by_cases d : i + (l.length : Int) < 0
    · rw [if_pos d] at h; cases h
    · rw [if_neg d] at h
      cases hl : l[(i + (l.length : Int)).toNat]? with
      | none => rw [hl] at h; cases h
      | some y => rw [hl] at h; cases h; rfl
  · simp only [if_neg c] at h ⊢
    cases hl : l[i.toNat]? with
    | none => rw [hl] at h; cases h
    | some y => rw [hl] at h; cases h; rfl

end Xlrd
