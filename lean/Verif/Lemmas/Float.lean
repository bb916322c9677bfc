import Verif.Model.Float
import Mathlib.Tactic.Linarith
import Mathlib.Tactic.Ring
import Mathlib.Tactic.Positivity
import Mathlib.Tactic.FieldSimp
import Mathlib.Tactic.NormNum

namespace Xlrd

theorem rne_err (q : ℚ) : |(rne q : ℚ) - q| ≤ 1 / 2 := by
  have h1 := Int.floor_le q
  have h2 := Int.lt_floor_add_one q
  unfold rne
  simp only
  split
  · rw [abs_le]; constructor <;> linarith
  · split
    · push_cast; rw [abs_le]; constructor <;> linarith
    · split
      · rw [abs_le]; constructor <;> linarith
      · push_cast; rw [abs_le]; constructor <;> linarith

theorem rne_int (n : ℤ) : rne (n : ℚ) = n := by
  unfold rne
  simp

theorem floor_le_rne (q : ℚ) : ⌊q⌋ ≤ rne q := by
  unfold rne; simp only; split <;> [skip; split <;> [skip; split]] <;> omega

theorem rne_le_floor_succ (q : ℚ) : rne q ≤ ⌊q⌋ + 1 := by
  unfold rne; simp only; split <;> [skip; split <;> [skip; split]] <;> omega

theorem rne_mono {p q : ℚ} (h : p ≤ q) : rne p ≤ rne q := by
  have hf : ⌊p⌋ ≤ ⌊q⌋ := Int.floor_le_floor h
  rcases lt_or_eq_of_le hf with hlt | heq
  · exact le_trans (rne_le_floor_succ p) (le_trans hlt (floor_le_rne q))
  · unfold rne
    simp only
    rw [← heq]
    split_ifs <;> first | omega | (exfalso; linarith)

theorem rne_neg (q : ℚ) : rne (-q) = -rne q := by
  have h1 := Int.floor_le q
  have h2 := Int.lt_floor_add_one q
  by_cases hi : q = ⌊q⌋
  · rw [hi]
    have : -((⌊q⌋ : ℤ) : ℚ) = ((-⌊q⌋ : ℤ) : ℚ) := by push_cast; rfl
    rw [this, rne_int, rne_int]
  · have hlt : (⌊q⌋ : ℚ) < q := lt_of_le_of_ne h1 (Ne.symm hi)
    have hfl : ⌊-q⌋ = -⌊q⌋ - 1 := by
      rw [Int.floor_eq_iff]; push_cast; constructor <;> linarith
    unfold rne
    simp only [hfl]
    push_cast
    split <;> split <;> (try split) <;> (try split) <;> (try split) <;>
      first | omega | (exfalso; linarith)

theorem two_zpow_pos (e : ℤ) : (0 : ℚ) < 2 ^ e := zpow_pos (by norm_num) e

theorem fl_zero : fl 0 = 0 := by
  unfold fl
  have := rne_int 0
  simp only [Int.cast_zero] at this
  simp [this]

theorem ulpExp_neg (q : ℚ) : ulpExp (-q) = ulpExp q := by unfold ulpExp; rw [abs_neg]

theorem fl_neg (q : ℚ) : fl (-q) = -fl q := by
  unfold fl
  rw [ulpExp_neg, neg_div, rne_neg]; push_cast; ring

theorem fl_err (q : ℚ) : |fl q - q| ≤ 2 ^ ulpExp q / 2 := by
  have hp := two_zpow_pos (ulpExp q)
  have h := rne_err (q / 2 ^ ulpExp q)
  have e : fl q - q = ((rne (q / 2 ^ ulpExp q) : ℚ) - q / 2 ^ ulpExp q) * 2 ^ ulpExp q := by
    unfold fl
    rw [sub_mul, div_mul_cancel₀ _ (ne_of_gt hp)]
  rw [e, abs_mul, abs_of_pos hp]
  nlinarith

/-- lower bound for the binade: `2^(ulpExp+52) ≤ |q|` for normal `q` -/
theorem log_le_abs (q : ℚ) (hq : q ≠ 0) : (2 : ℚ) ^ Int.log 2 |q| ≤ |q| := by
  have := Int.zpow_log_le_self (b := 2) (r := |q|) (by norm_num) (abs_pos.mpr hq)
  simpa using this

theorem abs_lt_log (q : ℚ) : |q| < (2 : ℚ) ^ (Int.log 2 |q| + 1) := by
  have := Int.lt_zpow_succ_log_self (b := 2) (by norm_num) |q|
  simpa using this

/-- Standard model of rounding, relative part for normal numbers. -/
theorem fl_rel (q : ℚ) (hq : (2 : ℚ) ^ (-1022 : ℤ) ≤ |q|) : |fl q - q| ≤ |q| * 2 ^ (-53 : ℤ) := by
  have hpos : 0 < |q| := lt_of_lt_of_le (two_zpow_pos _) hq
  have hne : q ≠ 0 := abs_pos.mp hpos
  have hlog : -1022 ≤ Int.log 2 |q| :=
    (Int.zpow_le_iff_le_log (b := 2) (R := ℚ) (by norm_num) hpos).mp (by simpa using hq)
  have hu : ulpExp q = Int.log 2 |q| - 52 := by unfold ulpExp; omega
  have h := fl_err q
  rw [hu] at h
  have h2 := log_le_abs q hne
  have e : (2 : ℚ) ^ (Int.log 2 |q| - 52) / 2 = 2 ^ Int.log 2 |q| * 2 ^ (-53 : ℤ) := by
    rw [← zpow_add₀ (by norm_num : (2 : ℚ) ≠ 0)]
    have : Int.log 2 |q| + -53 = Int.log 2 |q| - 52 - 1 := by ring
    rw [this, zpow_sub_one₀ (by norm_num : (2 : ℚ) ≠ 0)]; ring
  rw [e] at h
  have := two_zpow_pos (-53)
  nlinarith

/-- Standard model of rounding: relative error plus the underflow threshold. -/
theorem fl_abs_rel (q : ℚ) : |fl q - q| ≤ |q| * 2 ^ (-53 : ℤ) + 2 ^ (-1075 : ℤ) := by
  have h0 := two_zpow_pos (-1075)
  have h53 := two_zpow_pos (-53)
  rcases le_or_gt ((2 : ℚ) ^ (-1022 : ℤ)) |q| with h | h
  · have := fl_rel q h; linarith
  · rcases eq_or_ne q 0 with rfl | hne
    · simp [fl_zero]
    · have hpos := abs_pos.mpr hne
      have hlog : Int.log 2 |q| < -1022 :=
        (Int.lt_zpow_iff_log_lt (b := 2) (R := ℚ) (by norm_num) hpos).mp (by simpa using h)
      have hu : ulpExp q = -1074 := by unfold ulpExp; omega
      have h' := fl_err q
      rw [hu] at h'
      have e : (2 : ℚ) ^ (-1074 : ℤ) / 2 = 2 ^ (-1075 : ℤ) := by
        have : (-1075 : ℤ) = -1074 - 1 := by norm_num
        rw [this, zpow_sub_one₀ (by norm_num : (2 : ℚ) ≠ 0)]; ring
      rw [e] at h'
      nlinarith [abs_nonneg q]

/-- A number with at most 53 significant bits is not changed. -/
theorem fl_exact (m : ℤ) (e : ℤ) (hm : |m| < 2 ^ 53) (he : -1074 ≤ e) :
    fl ((m : ℚ) * 2 ^ e) = (m : ℚ) * 2 ^ e := by
  rcases eq_or_ne m 0 with rfl | hne
  · simp [fl_zero]
  · set q : ℚ := (m : ℚ) * 2 ^ e with hq
    have hmq : (m : ℚ) ≠ 0 := by exact_mod_cast hne
    have hqne : q ≠ 0 := mul_ne_zero hmq (ne_of_gt (two_zpow_pos e))
    have habs : |q| < 2 ^ (53 + e) := by
      rw [hq, abs_mul, abs_of_pos (two_zpow_pos e), zpow_add₀ (by norm_num : (2 : ℚ) ≠ 0)]
      have hmc : |(m : ℚ)| < 2 ^ (53 : ℤ) := by
        have h := (Int.cast_lt (R := ℚ)).mpr hm
        push_cast at h
        have e : (2 : ℚ) ^ (53 : ℤ) = 2 ^ (53 : ℕ) := by norm_num
        rw [e]; exact h
      exact mul_lt_mul_of_pos_right hmc (two_zpow_pos e)
    have hlog : Int.log 2 |q| < 53 + e :=
      (Int.lt_zpow_iff_log_lt (b := 2) (R := ℚ) (by norm_num) (abs_pos.mpr hqne)).mp (by simpa using habs)
    have hu : ulpExp q ≤ e := by unfold ulpExp; omega
    have hk : q / 2 ^ ulpExp q = ((m * 2 ^ (e - ulpExp q).toNat : ℤ) : ℚ) := by
      rw [hq]
      push_cast
      rw [mul_div_assoc, ← zpow_sub₀ (by norm_num : (2 : ℚ) ≠ 0)]
      congr 1
      have : ((e - ulpExp q).toNat : ℤ) = e - ulpExp q := by omega
      rw [← hq, ← zpow_natCast, this]
    unfold fl
    rw [hk, rne_int, ← hk, div_mul_cancel₀ _ (ne_of_gt (two_zpow_pos _))]

theorem fl_int (n : ℤ) (hn : |n| < 2 ^ 53) : fl (n : ℚ) = n := by
  have := fl_exact n 0 hn (by norm_num)
  simpa using this

theorem fl_pow (e : ℤ) (he : -1074 ≤ e) : fl ((2 : ℚ) ^ e) = 2 ^ e := by
  have := fl_exact 1 e (by norm_num) he
  simpa using this

theorem fl_nonneg {q : ℚ} (h : 0 ≤ q) : 0 ≤ fl q := by
  unfold fl
  have h1 : (0 : ℤ) ≤ rne (q / 2 ^ ulpExp q) := by
    have := rne_mono (p := ((0 : ℤ) : ℚ)) (q := q / 2 ^ ulpExp q)
      (by simp only [Int.cast_zero]; exact div_nonneg h (le_of_lt (two_zpow_pos _)))
    rwa [rne_int] at this
  have : (0 : ℚ) ≤ (rne (q / 2 ^ ulpExp q) : ℚ) := by exact_mod_cast h1
  exact mul_nonneg this (le_of_lt (two_zpow_pos _))

/-- Rounding within a coarser-or-equal binade never passes its upper end. -/
theorem fl_le_pow {q : ℚ} (h0 : 0 ≤ q) (e : ℤ) (he : -1074 ≤ e) (h : q ≤ 2 ^ e) : fl q ≤ 2 ^ e := by
  rcases eq_or_lt_of_le h with rfl | hlt
  · exact le_of_eq (fl_pow e he)
  · rcases eq_or_lt_of_le h0 with rfl | hpos
    · rw [fl_zero]; exact le_of_lt (two_zpow_pos _)
    · have hlog : Int.log 2 |q| < e := by
        rw [abs_of_pos hpos]
        exact (Int.lt_zpow_iff_log_lt (b := 2) (R := ℚ) (by norm_num) hpos).mp (by simpa using hlt)
      have hu : ulpExp q ≤ e := by unfold ulpExp; omega
      have hk : (2 : ℚ) ^ e / 2 ^ ulpExp q = ((2 ^ (e - ulpExp q).toNat : ℤ) : ℚ) := by
        rw [← zpow_sub₀ (by norm_num : (2 : ℚ) ≠ 0)]
        have : ((e - ulpExp q).toNat : ℤ) = e - ulpExp q := by omega
        push_cast
        rw [← zpow_natCast, this]
      have h1 : rne (q / 2 ^ ulpExp q) ≤ 2 ^ (e - ulpExp q).toNat := by
        have := rne_mono (div_le_div_of_nonneg_right h (le_of_lt (two_zpow_pos (ulpExp q))))
        rwa [hk, rne_int] at this
      have h2 : (rne (q / 2 ^ ulpExp q) : ℚ) ≤ 2 ^ e / 2 ^ ulpExp q := by
        rw [hk]; exact_mod_cast h1
      unfold fl
      calc (rne (q / 2 ^ ulpExp q) : ℚ) * 2 ^ ulpExp q
          ≤ 2 ^ e / 2 ^ ulpExp q * 2 ^ ulpExp q :=
            mul_le_mul_of_nonneg_right h2 (le_of_lt (two_zpow_pos _))
        _ = 2 ^ e := div_mul_cancel₀ _ (ne_of_gt (two_zpow_pos _))

theorem pow_le_fl {q : ℚ} (e : ℤ) (he : -1074 ≤ e) (h : (2 : ℚ) ^ e ≤ q) : (2 : ℚ) ^ e ≤ fl q := by
  have hpos : 0 < q := lt_of_lt_of_le (two_zpow_pos e) h
  have hlog : e ≤ Int.log 2 |q| := by
    rw [abs_of_pos hpos]
    exact (Int.zpow_le_iff_le_log (b := 2) (R := ℚ) (by norm_num) hpos).mp (by simpa using h)
  -- the lower end of q's binade is a multiple of its ulp
  have hk0 := log_le_abs q (ne_of_gt hpos)
  rw [abs_of_pos hpos] at hk0
  set L := Int.log 2 q with hL
  have hLe : Int.log 2 |q| = L := by rw [abs_of_pos hpos]
  have hu : ulpExp q ≤ L := by unfold ulpExp; omega
  have hk : (2 : ℚ) ^ L / 2 ^ ulpExp q = ((2 ^ (L - ulpExp q).toNat : ℤ) : ℚ) := by
    rw [← zpow_sub₀ (by norm_num : (2 : ℚ) ≠ 0)]
    have : ((L - ulpExp q).toNat : ℤ) = L - ulpExp q := by omega
    push_cast
    rw [← zpow_natCast, this]
  have h1 : 2 ^ (L - ulpExp q).toNat ≤ rne (q / 2 ^ ulpExp q) := by
    have := rne_mono (div_le_div_of_nonneg_right hk0 (le_of_lt (two_zpow_pos (ulpExp q))))
    rwa [hk, rne_int] at this
  have h2 : (2 : ℚ) ^ L / 2 ^ ulpExp q ≤ (rne (q / 2 ^ ulpExp q) : ℚ) := by
    rw [hk]; exact_mod_cast h1
  have h3 : (2 : ℚ) ^ L ≤ fl q := by
    unfold fl
    calc (2 : ℚ) ^ L = 2 ^ L / 2 ^ ulpExp q * 2 ^ ulpExp q :=
          (div_mul_cancel₀ _ (ne_of_gt (two_zpow_pos _))).symm
      _ ≤ _ := mul_le_mul_of_nonneg_right h2 (le_of_lt (two_zpow_pos _))
  have h4 : (2 : ℚ) ^ e ≤ 2 ^ L := zpow_le_zpow_right₀ (by norm_num) (by omega)
  exact le_trans h4 h3

theorem fl_mono_nonneg {p q : ℚ} (hp : 0 ≤ p) (h : p ≤ q) : fl p ≤ fl q := by
  rcases eq_or_lt_of_le hp with rfl | hpos
  · rw [fl_zero]; exact fl_nonneg h
  · have hqpos : 0 < q := lt_of_lt_of_le hpos h
    have hlog : Int.log 2 p ≤ Int.log 2 q := Int.log_mono_right hpos h
    have hpa : |p| = p := abs_of_pos hpos
    have hqa : |q| = q := abs_of_pos hqpos
    rcases eq_or_lt_of_le (show ulpExp p ≤ ulpExp q by unfold ulpExp; rw [hpa, hqa]; omega) with he | hlt
    · unfold fl
      rw [he]
      have := rne_mono (div_le_div_of_nonneg_right h (le_of_lt (two_zpow_pos (ulpExp q))))
      have : (rne (p / 2 ^ ulpExp q) : ℚ) ≤ rne (q / 2 ^ ulpExp q) := by exact_mod_cast this
      exact mul_le_mul_of_nonneg_right this (le_of_lt (two_zpow_pos _))
    · -- different ulp: a power of two in between
      have hlogq : -1022 < Int.log 2 q ∧ Int.log 2 p < Int.log 2 q := by
        unfold ulpExp at hlt; rw [hpa, hqa] at hlt; omega
      have hqlow := log_le_abs q (ne_of_gt hqpos)
      rw [hqa] at hqlow
      have hphi := abs_lt_log p
      rw [hpa] at hphi
      have hpp : p ≤ 2 ^ Int.log 2 q :=
        le_trans (le_of_lt hphi) (zpow_le_zpow_right₀ (by norm_num) (by omega))
      exact le_trans (fl_le_pow hp _ (by omega) hpp) (pow_le_fl _ (by omega) hqlow)

/-- Rounding is monotone. -/
theorem fl_mono {p q : ℚ} (h : p ≤ q) : fl p ≤ fl q := by
  rcases le_or_gt 0 p with hp | hp
  · exact fl_mono_nonneg hp h
  · rcases le_or_gt 0 q with hq | hq
    · have h1 : 0 ≤ fl (-p) := fl_nonneg (by linarith)
      rw [fl_neg] at h1
      have h2 := fl_nonneg hq
      linarith
    · have := fl_mono_nonneg (p := -q) (q := -p) (by linarith) (by linarith)
      rw [fl_neg, fl_neg] at this
      linarith

end Xlrd
