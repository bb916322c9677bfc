import Verif.Lemmas.XlDate

set_option linter.unusedSimpArgs false
namespace Xlrd
open Spec

/-! ## Encoding: outcome of `xldate_from_date_tuple` -/

theorem leapPy_eq (y : Nat) : leapPy (y : Int) = isLeap y := by
  have h := isLeap_iff y
  have h4 : ((y : Int) % 4 ≠ 0) ↔ y % 4 ≠ 0 := by omega
  have h100 : ((y : Int) % 100 ≠ 0) ↔ y % 100 ≠ 0 := by omega
  have h400 : ((y : Int) % 400 ≠ 0) ↔ y % 400 ≠ 0 := by omega
  unfold leapPy
  simp only [h4, h100, h400]
  have i1 : y % 400 = 0 → y % 100 = 0 := by omega
  have i2 : y % 100 = 0 → y % 4 = 0 := by omega
  cases hb : isLeap y <;> simp only [hb, true_iff, false_iff, Bool.false_eq_true] at h
  · split_ifs <;> first | rfl | (exfalso; omega)
  · split_ifs <;> first | rfl | (exfalso; omega)

/-- the day check of the code accepts exactly the days of the month -/
theorem dayCheck_iff (y m d : Nat) (hm : 1 ≤ m ∧ m ≤ 12) :
    ¬ ((d : Int) < 1 ∨ ((d : Int) > daysInMonthPy m ∧
        ¬ ((d : Int) = 29 ∧ (m : Int) = 2 ∧ leapPy y = true))) ↔ (1 ≤ d ∧ d ≤ monthLen y m) := by
  rw [leapPy_eq]
  rcases months_cases hm with rfl | rfl | rfl | rfl | rfl | rfl | rfl | rfl | rfl | rfl | rfl | rfl <;>
    cases hl : isLeap y <;> simp [daysInMonthPy, monthLen, hl] <;> omega

/-- `xldate_from_date_tuple` on a real date of the supported years. -/
theorem fromDate_valid (y m d : Nat) (b : Bool) (hv : ValidDate y m d) (hy : 1900 ≤ y ∧ y ≤ 9999) :
    xldateFromDateTuple y m d (modeInt b) =
      if serial b y m d ≤ 0 then .error .dateBadTuple
      else if serial b y m d < firstSerial b then .error .dateAmbiguous
      else .ok (serial b y m d : ℚ) := by
  obtain ⟨h1, h2, h3, h4⟩ := hv
  unfold xldateFromDateTuple
  have hdc := (dayCheck_iff y m d ⟨h1, h2⟩).mpr ⟨h3, h4⟩
  rw [if_neg (not_not.mpr (modeInt_01 b)), if_neg (by omega), if_neg (by omega), if_neg (by omega),
    if_neg hdc]
  simp only [← serial_eq b y m d (by omega) ⟨h1, h2⟩]
  by_cases hs : serial b y m d ≤ 0
  · rw [if_pos hs, if_pos hs]
  · rw [if_neg hs, if_neg hs]
    have hcond : (serial b y m d < 61 ∧ modeInt b = 0) ↔ serial b y m d < firstSerial b := by
      cases b
      · simp [firstSerial, modeInt]
      · simp [firstSerial, modeInt]; omega
    simp only [hcond]
    by_cases hf : serial b y m d < firstSerial b
    · rw [if_pos hf, if_pos hf]
    · rw [if_neg hf, if_neg hf]
      have hb : serial b y m d < 2 ^ 53 := by
        have hlt := dayNumber_year_lt y m d 10000 1 1 ⟨h1, h2, h3, h4⟩ (by decide) (by omega)
        rw [dayNumber_10000_1_1] at hlt
        unfold serial
        cases b <;> simp [dayNumber_1900_3_1, dayNumber_1904_1_1] <;> omega
      rw [fl_int _ (by rw [abs_lt]; omega)]

/-- Every success of `xldate_from_date_tuple`. -/
theorem fromDate_ok (y m d dm : Int) (x : ℚ) (h : xldateFromDateTuple y m d dm = .ok x) :
    ∃ b, dm = modeInt b ∧ ((y = 0 ∧ m = 0 ∧ d = 0 ∧ x = 0) ∨
      ∃ Y M D : Nat, y = Y ∧ m = M ∧ d = D ∧ ValidDate Y M D ∧ 1900 ≤ Y ∧ Y ≤ 9999 ∧
        firstSerial b ≤ serial b Y M D ∧ x = serial b Y M D) := by
  unfold xldateFromDateTuple at h
  by_cases hm : dm = 0 ∨ dm = 1
  · obtain ⟨b, rfl⟩ := mode_cases dm hm
    refine ⟨b, rfl, ?_⟩
    rw [if_neg (not_not.mpr hm)] at h
    by_cases h0 : y = 0 ∧ m = 0 ∧ d = 0
    · rw [if_pos h0] at h
      injection h with h
      exact .inl ⟨h0.1, h0.2.1, h0.2.2, h.symm⟩
    · rw [if_neg h0] at h
      by_cases hy : 1900 ≤ y ∧ y ≤ 9999
      · rw [if_neg (not_not.mpr hy)] at h
        by_cases hmo : 1 ≤ m ∧ m ≤ 12
        · rw [if_neg (not_not.mpr hmo)] at h
          by_cases hd : (d < 1 ∨ (d > daysInMonthPy m ∧ ¬ (d = 29 ∧ m = 2 ∧ leapPy y = true)))
          · rw [if_pos hd] at h; cases h
          · obtain ⟨Y, rfl⟩ : ∃ Y : Nat, y = Y := ⟨y.toNat, by omega⟩
            obtain ⟨M, rfl⟩ : ∃ M : Nat, m = M := ⟨m.toNat, by omega⟩
            obtain ⟨D, rfl⟩ : ∃ D : Nat, d = D := ⟨d.toNat, by omega⟩
            have hv : ValidDate Y M D := by
              have := (dayCheck_iff Y M D (by omega)).mp hd
              exact ⟨by omega, by omega, this.1, this.2⟩
            right
            have hx := fromDate_valid Y M D b hv (by omega)
            refine ⟨Y, M, D, rfl, rfl, rfl, hv, by omega, by omega, ?_⟩
            unfold xldateFromDateTuple at hx
            rw [if_neg (not_not.mpr hm), if_neg h0, if_neg (not_not.mpr hy), if_neg (not_not.mpr hmo)] at hx
            rw [h] at hx
            split_ifs at hx with a1 a2
            injection hx with hx
            exact ⟨by omega, hx⟩
        · rw [if_pos hmo] at h; cases h
      · rw [if_pos hy] at h; cases h
  · rw [if_pos hm] at h; cases h

/-! ## float analysis of the time of day -/

theorem fl_near {q B : ℚ} (h : |q| ≤ B) : |fl q - q| ≤ (B + 1) / 9007199254740992 := by
  have h1 := fl_abs_rel q
  have e1 : (2 : ℚ) ^ (-53 : ℤ) = 1 / 9007199254740992 := by norm_num
  have e2 : (2 : ℚ) ^ (-1075 : ℤ) ≤ 2 ^ (-53 : ℤ) := zpow_le_zpow_right₀ (by norm_num) (by norm_num)
  rw [e1] at h1 e2
  have : |q| * (1 / 9007199254740992) ≤ B * (1 / 9007199254740992) :=
    mul_le_mul_of_nonneg_right h (by norm_num)
  calc |fl q - q| ≤ B * (1 / 9007199254740992) + 1 / 9007199254740992 := by linarith
    _ = (B + 1) / 9007199254740992 := by ring

/-- the computed fraction of a day is within 4 units of 2^-53 of the exact one -/
theorem time_frac_near (h m s : ℤ) (hh : 0 ≤ h ∧ h < 24) (hm : 0 ≤ m ∧ m < 60) (hs : 0 ≤ s ∧ s < 60) :
    |fl (fl (fl (fl (fl ((s : ℚ) / 60) + m) / 60) + h) / 24) - ((3600 * h + 60 * m + s : ℤ) : ℚ) / 86400|
      ≤ 5 / 9007199254740992 := by
  have hh1 : (0 : ℚ) ≤ h := by exact_mod_cast hh.1
  have hh2 : (h : ℚ) ≤ 23 := by exact_mod_cast (by omega : h ≤ 23)
  have hm1 : (0 : ℚ) ≤ m := by exact_mod_cast hm.1
  have hm2 : (m : ℚ) ≤ 59 := by exact_mod_cast (by omega : m ≤ 59)
  have hs1 : (0 : ℚ) ≤ s := by exact_mod_cast hs.1
  have hs2 : (s : ℚ) ≤ 59 := by exact_mod_cast (by omega : s ≤ 59)
  set x0 := fl ((s : ℚ) / 60) with hx0
  have e0 := fl_near (q := (s : ℚ) / 60) (B := 1) (by rw [abs_le]; constructor <;> linarith)
  rw [← hx0, abs_le] at e0
  set x1 := fl (x0 + m) with hx1
  have e1 := fl_near (q := x0 + m) (B := 61) (by rw [abs_le]; constructor <;> linarith)
  rw [← hx1, abs_le] at e1
  set x2 := fl (x1 / 60) with hx2
  have e2 := fl_near (q := x1 / 60) (B := 2) (by rw [abs_le]; constructor <;> linarith)
  rw [← hx2, abs_le] at e2
  set x3 := fl (x2 + h) with hx3
  have e3 := fl_near (q := x2 + h) (B := 25) (by rw [abs_le]; constructor <;> linarith)
  rw [← hx3, abs_le] at e3
  have e4 := fl_near (q := x3 / 24) (B := 2) (by rw [abs_le]; constructor <;> linarith)
  rw [abs_le] at e4 ⊢
  push_cast
  constructor <;> linarith

theorem time_frac_nonneg (h m s : ℤ) (hh : 0 ≤ h) (hm : 0 ≤ m) (hs : 0 ≤ s) :
    0 ≤ fl (fl (fl (fl (fl ((s : ℚ) / 60) + m) / 60) + h) / 24) := by
  have hh1 : (0 : ℚ) ≤ h := by exact_mod_cast hh
  have hm1 : (0 : ℚ) ≤ m := by exact_mod_cast hm
  have hs1 : (0 : ℚ) ≤ s := by exact_mod_cast hs
  have h0 : 0 ≤ fl ((s : ℚ) / 60) := fl_nonneg (by linarith)
  have h1 : 0 ≤ fl (fl ((s : ℚ) / 60) + m) := fl_nonneg (by linarith)
  have h2 : 0 ≤ fl (fl (fl ((s : ℚ) / 60) + m) / 60) := fl_nonneg (by linarith)
  have h3 : 0 ≤ fl (fl (fl (fl ((s : ℚ) / 60) + m) / 60) + h) := fl_nonneg (by linarith)
  exact fl_nonneg (by linarith)

/-- adding a time of day to a whole number of days and splitting again recovers both -/
theorem split_sum (N T : ℤ) (t : ℚ) (hN : 0 ≤ N ∧ N < 4194304) (hT : 0 ≤ T ∧ T < 86400)
    (ht0 : 0 ≤ t) (ht : |t - (T : ℚ) / 86400| ≤ 5 / 9007199254740992) :
    ⌊fl (N + t)⌋ = N ∧ secOf (fl (N + t)) = T := by
  have hN1 : (0 : ℚ) ≤ N := by exact_mod_cast hN.1
  have hN2 : (N : ℚ) ≤ 4194303 := by exact_mod_cast (by omega : N ≤ 4194303)
  have hT1 : (0 : ℚ) ≤ T := by exact_mod_cast hT.1
  have hT2 : (T : ℚ) ≤ 86399 := by exact_mod_cast (by omega : T ≤ 86399)
  rw [abs_le] at ht
  have hlow : (N : ℚ) ≤ fl (N + t) := by
    have := fl_mono (p := (N : ℚ)) (q := N + t) (by linarith)
    rwa [fl_int N (by rw [abs_lt]; omega)] at this
  have e := fl_near (q := (N : ℚ) + t) (B := 4194305) (by rw [abs_le]; constructor <;> linarith)
  rw [abs_le] at e
  have hfloor : ⌊fl (N + t)⌋ = N := by
    rw [Int.floor_eq_iff]
    constructor
    · exact hlow
    · linarith
  refine ⟨hfloor, ?_⟩
  unfold secOf
  rw [hfloor]
  set f := fl (N + t) - N with hf
  have e2 := fl_near (q := f) (B := 2) (by rw [abs_le]; constructor <;> linarith)
  rw [abs_le] at e2
  have e3 := fl_near (q := fl f * 86400) (B := 200000) (by rw [abs_le]; constructor <;> linarith)
  rw [abs_le] at e3
  have e4 := rne_err (fl (fl f * 86400))
  rw [abs_le] at e4
  have h1 : (rne (fl (fl f * 86400)) : ℚ) - T < 1 := by linarith
  have h2 : -1 < (rne (fl (fl f * 86400)) : ℚ) - T := by linarith
  have h1' : rne (fl (fl f * 86400)) - T < 1 := by exact_mod_cast h1
  have h2' : -1 < rne (fl (fl f * 86400)) - T := by exact_mod_cast h2
  omega

end Xlrd
