import Verif.Lemmas.Float
import Verif.Lemmas.Calendar
import Mathlib.Tactic.NormNum.Basic
import Mathlib.Tactic.SplitIfs

set_option linter.unusedSimpArgs false
namespace Xlrd
open Spec

theorem truncQ_of_nonneg {x : ℚ} (h : 0 ≤ x) : truncQ x = ⌊x⌋ := by
  unfold truncQ; rw [if_neg (not_lt.mpr h)]

theorem truncQ_int (n : ℤ) : truncQ (n : ℚ) = n := by
  unfold truncQ
  split
  · have : -(n : ℚ) = ((-n : ℤ) : ℚ) := by push_cast; rfl
    rw [this, Int.floor_intCast]; ring
  · exact Int.floor_intCast n

/-- seconds of the day, rounded as the code does -/
def secOf (x : ℚ) : ℤ := rne (fl (fl (x - ⌊x⌋) * 86400))

theorem fl_one : fl 1 = 1 := by have := fl_int 1 (by norm_num); simpa using this

theorem fl_frac_bounds (x : ℚ) : 0 ≤ fl (x - ⌊x⌋) ∧ fl (x - ⌊x⌋) ≤ 1 := by
  have h1 := Int.floor_le x
  have h2 := Int.lt_floor_add_one x
  refine ⟨fl_nonneg (by linarith), ?_⟩
  rw [← fl_one]
  exact fl_mono (by linarith)

theorem secOf_bounds (x : ℚ) : 0 ≤ secOf x ∧ secOf x ≤ 86400 := by
  have h := fl_frac_bounds x
  unfold secOf
  constructor
  · have := rne_mono (p := ((0 : ℤ) : ℚ)) (q := fl (fl (x - ⌊x⌋) * 86400))
      (by simp only [Int.cast_zero]; exact fl_nonneg (by nlinarith))
    rwa [rne_int] at this
  · have h1 : fl (fl (x - ⌊x⌋) * 86400) ≤ ((86400 : ℤ) : ℚ) := by
      rw [← fl_int 86400 (by norm_num)]
      apply fl_mono
      push_cast
      linarith
    have := rne_mono h1
    rwa [rne_int] at this

theorem secOf_int (n : ℤ) : secOf (n : ℚ) = 0 := by
  unfold secOf
  rw [Int.floor_intCast, sub_self, fl_zero, zero_mul, fl_zero]
  have := rne_int 0
  simpa using this

/-- days and seconds after carrying -/
def dayOf (x : ℚ) : ℤ := if secOf x = 86400 then ⌊x⌋ + 1 else ⌊x⌋
def sodOf (x : ℚ) : ℤ := if secOf x = 86400 then 0 else secOf x

theorem sodOf_bounds (x : ℚ) : 0 ≤ sodOf x ∧ sodOf x < 86400 := by
  have := secOf_bounds x
  unfold sodOf; split <;> omega

theorem total_eq (x : ℚ) : dayOf x * 86400 + sodOf x = ⌊x⌋ * 86400 + secOf x := by
  unfold dayOf sodOf; split <;> omega

theorem asTuple_pos (x : ℚ) (dm : Int) (hm : dm = 0 ∨ dm = 1) (hx : 0 < x) :
    xldateAsTuple x dm =
      if dayOf x ≥ xldaysTooLarge dm then .error .dateTooLarge
      else if dayOf x = 0 then .ok ⟨0, 0, 0, sodOf x / 60 / 60, sodOf x / 60 % 60, sodOf x % 60⟩
      else if dayOf x < 61 ∧ dm = 0 then .error .dateAmbiguous
      else .ok ⟨(civilOfJdn (dayOf x + jdnDelta dm)).1, (civilOfJdn (dayOf x + jdnDelta dm)).2.1,
        (civilOfJdn (dayOf x + jdnDelta dm)).2.2, sodOf x / 60 / 60, sodOf x / 60 % 60, sodOf x % 60⟩ := by
  unfold xldateAsTuple
  rw [if_neg (not_not.mpr hm), if_neg (ne_of_gt hx), if_neg (not_lt.mpr (le_of_lt hx))]
  have hs := secOf_bounds x
  simp only [truncQ_of_nonneg (le_of_lt hx)]
  have hsec : rne (fl (fl (x - (⌊x⌋ : ℚ)) * 86400)) = secOf x := rfl
  rw [hsec]
  simp only [pyAssert, hs, and_self, decide_true, if_true, bind, Except.bind]
  unfold dayOf sodOf
  by_cases h : secOf x = 86400
  · simp only [h, if_true]
    rfl
  · simp only [h, if_false]

/-! ### serial numbers and Julian days -/

theorem dayNumber_1900_3_1 : dayNumber 1900 3 1 = 694021 := by
  unfold dayNumber
  have := daysBeforeYear_eq 1900
  have e : daysBeforeMonth 1900 3 = 59 := by decide
  omega

theorem dayNumber_1904_1_1 : dayNumber 1904 1 1 = 695422 := by
  unfold dayNumber
  have := daysBeforeYear_eq 1904
  have e : daysBeforeMonth 1904 1 = 0 := rfl
  omega

theorem dayNumber_10000_1_1 : dayNumber 10000 1 1 = 3652426 := by
  unfold dayNumber
  have := daysBeforeYear_eq 10000
  have e : daysBeforeMonth 10000 1 = 0 := rfl
  omega

def modeInt (b : Bool) : Int := if b then 1 else 0

theorem serial_eq (b : Bool) (y m d : Nat) (hy : 1 ≤ y) (hm : 1 ≤ m ∧ m ≤ 12) :
    serial b y m d = jdnOfCivil y m d - jdnDelta (modeInt b) := by
  rw [jdnOfCivil_eq y m d hy hm]
  unfold serial jdnDelta modeInt
  cases b
  · simp [dayNumber_1900_3_1]; omega
  · simp [dayNumber_1904_1_1]; omega

theorem endSerial_eq (b : Bool) : endSerial b = xldaysTooLarge (modeInt b) := by
  unfold endSerial serial xldaysTooLarge modeInt
  cases b
  · simp [dayNumber_1900_3_1, dayNumber_10000_1_1]
  · simp [dayNumber_1904_1_1, dayNumber_10000_1_1]

/-! ### day numbers respect the lexicographic order -/

theorem daysBeforeYear_mono : ∀ {a b : Nat}, a ≤ b → daysBeforeYear a ≤ daysBeforeYear b := by
  intro a b h
  induction b with
  | zero => have : a = 0 := by omega
            subst this; exact Nat.le_refl _
  | succ b ih =>
    rcases Nat.lt_or_ge a (b + 1) with h' | h'
    · have := ih (by omega)
      have e : daysBeforeYear (b + 1) = daysBeforeYear b + yearLen b := rfl
      omega
    · have : a = b + 1 := by omega
      subst this; exact Nat.le_refl _

theorem day_in_year (y m d : Nat) (h : ValidDate y m d) :
    1 ≤ daysBeforeMonth y m + d ∧ daysBeforeMonth y m + d ≤ yearLen y := by
  obtain ⟨h1, h2, h3, h4⟩ := h
  have hb := daysBeforeMonth_eq y m h1 h2
  unfold yearLen
  rcases months_cases ⟨h1, h2⟩ with rfl | rfl | rfl | rfl | rfl | rfl | rfl | rfl | rfl | rfl | rfl | rfl <;>
    cases hl : isLeap y <;> simp [monthLen, hl] at h4 hb ⊢ <;> omega

theorem dayNumber_year_lt (y m d y' m' d' : Nat) (h : ValidDate y m d) (h' : ValidDate y' m' d')
    (hlt : y < y') : dayNumber y m d < dayNumber y' m' d' := by
  have a := day_in_year y m d h
  have b := day_in_year y' m' d' h'
  have c := daysBeforeYear_mono (a := y + 1) (b := y') (by omega)
  have e : daysBeforeYear (y + 1) = daysBeforeYear y + yearLen y := rfl
  unfold dayNumber; omega

theorem daysBeforeMonth_step (y m m' : Nat) (h : 1 ≤ m) (hlt : m < m') (h' : m' ≤ 12) :
    daysBeforeMonth y m + monthLen y m ≤ daysBeforeMonth y m' := by
  induction m' with
  | zero => omega
  | succ k ih =>
    have e : daysBeforeMonth y (k + 1) = daysBeforeMonth y k + monthLen y k := by
      cases k with
      | zero => omega
      | succ k => rfl
    rcases Nat.lt_or_ge m k with h1 | h1
    · have := ih h1 (by omega); omega
    · have : m = k := by omega
      subst this; omega

theorem dayNumber_month_lt (y m d m' d' : Nat) (h : ValidDate y m d) (h' : ValidDate y m' d')
    (hlt : m < m') : dayNumber y m d < dayNumber y m' d' := by
  obtain ⟨h1, h2, h3, h4⟩ := h
  obtain ⟨h1', h2', h3', h4'⟩ := h'
  have := daysBeforeMonth_step y m m' h1 hlt h2'
  unfold dayNumber; omega

/-- A serial in the accepted range decodes to the real date with that serial. -/
theorem civil_of_serial (b : Bool) (n : Int) (h1 : firstSerial b ≤ n) (h2 : n < endSerial b) :
    ∃ y m d : Nat, ValidDate y m d ∧ 1900 ≤ y ∧ y ≤ 9999 ∧ serial b y m d = n ∧
      civilOfJdn (n + jdnDelta (modeInt b)) = ((y : Int), (m : Int), (d : Int)) := by
  obtain ⟨N, hN⟩ : ∃ N : Nat, n = serial b 0 0 0 + (N + 1 : Nat) := by
    refine ⟨(n - serial b 0 0 0 - 1).toNat, ?_⟩
    have : serial b 0 0 0 + 1 ≤ n := by
      unfold firstSerial at h1
      have e0 : dayNumber 0 0 0 = 0 := by decide
      unfold serial
      cases b <;> simp [dayNumber_1900_3_1, dayNumber_1904_1_1, e0] at h1 ⊢ <;> omega
    omega
  obtain ⟨y, m, d, hv, hn⟩ := exists_date N
  have hse : serial b y m d = n := by
    rw [hN]
    have e0 : dayNumber 0 0 0 = 0 := by decide
    unfold serial
    cases b <;> simp [e0, hn] <;> omega
  have hy : 1900 ≤ y := by
    apply Classical.byContradiction
    intro hlt
    have := dayNumber_year_lt y m d 1900 1 1 hv (by decide) (by omega)
    have e : dayNumber 1900 1 1 + 59 = dayNumber 1900 3 1 := by
      unfold dayNumber; have : daysBeforeMonth 1900 3 = 59 := by decide
      have : daysBeforeMonth 1900 1 = 0 := rfl
      omega
    rw [dayNumber_1900_3_1] at e
    rw [← hse] at h1
    unfold serial firstSerial at h1
    cases b <;> simp [dayNumber_1900_3_1, dayNumber_1904_1_1] at h1 <;> omega
  have hy2 : y ≤ 9999 := by
    apply Classical.byContradiction
    intro hlt
    have hge : dayNumber 10000 1 1 ≤ dayNumber y m d := by
      have a := day_in_year y m d hv
      have c := daysBeforeYear_mono (a := 10000) (b := y) (by omega)
      have e : daysBeforeMonth 10000 1 = 0 := rfl
      unfold dayNumber; omega
    rw [← hse] at h2
    unfold endSerial serial at h2
    cases b <;> simp at h2 <;> omega
  refine ⟨y, m, d, hv, hy, hy2, hse, ?_⟩
  rw [← hse, serial_eq b y m d (by omega) ⟨hv.1, hv.2.1⟩]
  have : jdnOfCivil (y : Int) m d - jdnDelta (modeInt b) + jdnDelta (modeInt b) = jdnOfCivil (y : Int) m d := by ring
  rw [this]
  exact civil_of_jdn_of_civil y m d (by omega) hv

theorem mode_cases (dm : Int) (h : dm = 0 ∨ dm = 1) : ∃ b, dm = modeInt b := by
  rcases h with rfl | rfl
  · exact ⟨false, rfl⟩
  · exact ⟨true, rfl⟩

theorem modeInt_01 (b : Bool) : modeInt b = 0 ∨ modeInt b = 1 := by cases b <;> simp [modeInt]

/-- All outcomes of `xldate_as_tuple` on a positive serial. -/
theorem asTuple_cases (x : ℚ) (b : Bool) (hx : 0 < x) :
    (endSerial b ≤ dayOf x ∧ xldateAsTuple x (modeInt b) = .error .dateTooLarge) ∨
    (dayOf x = 0 ∧ xldateAsTuple x (modeInt b) =
      .ok ⟨0, 0, 0, sodOf x / 60 / 60, sodOf x / 60 % 60, sodOf x % 60⟩) ∨
    (0 < dayOf x ∧ dayOf x < firstSerial b ∧ xldateAsTuple x (modeInt b) = .error .dateAmbiguous) ∨
    (firstSerial b ≤ dayOf x ∧ dayOf x < endSerial b ∧
      ∃ y m d : Nat, ValidDate y m d ∧ 1900 ≤ y ∧ y ≤ 9999 ∧ serial b y m d = dayOf x ∧
        xldateAsTuple x (modeInt b) =
          .ok ⟨y, m, d, sodOf x / 60 / 60, sodOf x / 60 % 60, sodOf x % 60⟩) := by
  have h := asTuple_pos x (modeInt b) (modeInt_01 b) hx
  have hd : 0 ≤ dayOf x := by
    have : 0 ≤ ⌊x⌋ := Int.floor_nonneg.mpr (le_of_lt hx)
    unfold dayOf; split <;> omega
  have he := endSerial_eq b
  by_cases h1 : dayOf x ≥ xldaysTooLarge (modeInt b)
  · left; rw [if_pos h1] at h; exact ⟨by omega, h⟩
  · rw [if_neg h1] at h
    by_cases h2 : dayOf x = 0
    · right; left; rw [if_pos h2] at h; exact ⟨h2, h⟩
    · rw [if_neg h2] at h
      by_cases h3 : dayOf x < 61 ∧ modeInt b = 0
      · right; right; left
        rw [if_pos h3] at h
        refine ⟨by omega, ?_, h⟩
        cases b
        · simp [firstSerial]; exact h3.1
        · simp [modeInt] at h3
      · right; right; right
        rw [if_neg h3] at h
        have hf : firstSerial b ≤ dayOf x := by
          cases b
          · simp [firstSerial, modeInt] at h3 ⊢; omega
          · simp [firstSerial]; omega
        obtain ⟨y, m, d, hv, hy1, hy2, hs, hc⟩ := civil_of_serial b (dayOf x) hf (by omega)
        refine ⟨hf, by omega, y, m, d, hv, hy1, hy2, hs, ?_⟩
        rw [h, hc]

theorem dayOf_int (n : ℤ) : dayOf (n : ℚ) = n := by
  unfold dayOf; rw [secOf_int]; simp

theorem sodOf_int (n : ℤ) : sodOf (n : ℚ) = 0 := by
  unfold sodOf; rw [secOf_int]; simp

end Xlrd
