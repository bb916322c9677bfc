import Verif.Spec.Calendar
import Verif.Model.XlDate

set_option linter.unusedSimpArgs false
namespace Xlrd
open Spec

theorem isLeap_iff (y : Nat) : isLeap y = true ↔ (y % 4 = 0 ∧ y % 100 ≠ 0) ∨ y % 400 = 0 := by
  simp [isLeap]

/-- a year split into 400-, 100- and 4-year cycles -/
structure Cyc (y a b c r : Nat) : Prop where
  eq : y = 400 * a + 100 * b + 4 * c + r
  hb : b < 4
  hc : c < 25
  hr : r < 4

theorem exists_cyc (y : Nat) : ∃ a b c r, Cyc y a b c r :=
  ⟨y / 400, y % 400 / 100, y % 100 / 4, y % 4, by constructor <;> omega⟩

theorem Cyc.leap {y a b c r : Nat} (h : Cyc y a b c r) :
    isLeap y = true ↔ (r = 0 ∧ (c ≠ 0 ∨ b = 0)) := by
  obtain ⟨rfl, hb, hc, hr⟩ := h
  rw [isLeap_iff]
  have h4 : (400 * a + 100 * b + 4 * c + r) % 4 = r := by omega
  have h100 : (400 * a + 100 * b + 4 * c + r) % 100 = 4 * c + r := by omega
  have h400 : (400 * a + 100 * b + 4 * c + r) % 400 = 100 * b + 4 * c + r := by omega
  rw [h4, h100, h400]; omega

/-- closed form of the day count of whole years -/
theorem daysBeforeYear_eq : ∀ y : Nat,
    daysBeforeYear y + (y + 99) / 100 = 365 * y + (y + 3) / 4 + (y + 399) / 400
  | 0 => by decide
  | y + 1 => by
    have ih := daysBeforeYear_eq y
    have h4 : (y + 1 + 3) / 4 = (y + 3) / 4 + (if y % 4 = 0 then 1 else 0) := by split <;> omega
    have h100 : (y + 1 + 99) / 100 = (y + 99) / 100 + (if y % 100 = 0 then 1 else 0) := by split <;> omega
    have h400 : (y + 1 + 399) / 400 = (y + 399) / 400 + (if y % 400 = 0 then 1 else 0) := by split <;> omega
    have i1 : y % 400 = 0 → y % 100 = 0 := by omega
    have i2 : y % 100 = 0 → y % 4 = 0 := by omega
    have hy : yearLen y = 365 + (if y % 4 = 0 then 1 else 0) - (if y % 100 = 0 then 1 else 0)
        + (if y % 400 = 0 then 1 else 0) := by
      unfold yearLen isLeap
      by_cases a4 : y % 4 = 0 <;> by_cases a100 : y % 100 = 0 <;> by_cases a400 : y % 400 = 0 <;>
        simp_all
    rw [daysBeforeYear, h4, h100, h400, hy]
    by_cases a4 : y % 4 = 0 <;> by_cases a100 : y % 100 = 0 <;> by_cases a400 : y % 400 = 0 <;>
      simp_all <;> omega

theorem Cyc.days {y a b c r : Nat} (h : Cyc y a b c r) :
    daysBeforeYear y + (if c = 0 ∧ r = 0 then b else b + 1) =
      365 * y + 97 * a + 25 * b + c + (if r = 0 then 0 else 1)
        + (if b = 0 ∧ c = 0 ∧ r = 0 then 0 else 1) := by
  have e := daysBeforeYear_eq y
  obtain ⟨rfl, hb, hc, hr⟩ := h
  have h4 : (400 * a + 100 * b + 4 * c + r + 3) / 4 = 100 * a + 25 * b + c + (if r = 0 then 0 else 1) := by
    split <;> omega
  have h100 : (400 * a + 100 * b + 4 * c + r + 99) / 100 = 4 * a + (if c = 0 ∧ r = 0 then b else b + 1) := by
    split <;> omega
  have h400 : (400 * a + 100 * b + 4 * c + r + 399) / 400 = a + (if b = 0 ∧ c = 0 ∧ r = 0 then 0 else 1) := by
    split <;> omega
  rw [h4, h100, h400] at e
  omega

theorem daysBeforeMonth_eq (y m : Nat) (h1 : 1 ≤ m) (h2 : m ≤ 12) :
    daysBeforeMonth y m = (match m with
      | 1 => 0 | 2 => 31 | 3 => 59 | 4 => 90 | 5 => 120 | 6 => 151 | 7 => 181 | 8 => 212
      | 9 => 243 | 10 => 273 | 11 => 304 | _ => 334) + (if 3 ≤ m ∧ isLeap y then 1 else 0) := by
  have : m = 1 ∨ m = 2 ∨ m = 3 ∨ m = 4 ∨ m = 5 ∨ m = 6 ∨ m = 7 ∨ m = 8 ∨ m = 9 ∨ m = 10 ∨ m = 11 ∨ m = 12 := by
    omega
  cases hl : isLeap y <;>
  rcases this with rfl | rfl | rfl | rfl | rfl | rfl | rfl | rfl | rfl | rfl | rfl | rfl <;>
    simp [daysBeforeMonth, monthLen, hl]

/-- the years part of the code's Julian day formula, for a year starting in March -/
theorem yearPart (y : Nat) :
    (1461 * ((y : Int) + 4716) / 4) - ((((y : Int) + 4716 + 184) / 100) * 3 / 4) =
      daysBeforeYear y + (if isLeap y then 1 else 0) + 1722482 := by
  obtain ⟨a, b, c, r, h⟩ := exists_cyc y
  have hd := h.days
  have hl := h.leap
  obtain ⟨rfl, hb, hc, hr⟩ := h
  have h1 : (1461 * (((400 * a + 100 * b + 4 * c + r : Nat) : Int) + 4716) / 4) =
      146100 * a + 36525 * b + 1461 * c + 365 * r + 1722519 := by omega
  have h2 : ((((400 * a + 100 * b + 4 * c + r : Nat) : Int) + 4716 + 184) / 100) = 4 * a + b + 49 := by omega
  have h3 : ((4 * a + b + 49 : Int)) * 3 / 4 = 3 * a + b + 36 := by omega
  rw [h1, h2, h3]
  cases hb : isLeap (400 * a + 100 * b + 4 * c + r) <;>
    simp only [hb, true_iff, false_iff, Bool.false_eq_true, if_true, if_false] at hl ⊢
  · by_cases hr0 : r = 0 <;> by_cases hc0 : c = 0 <;> by_cases hb0 : b = 0 <;> simp_all <;> omega
  · by_cases hr0 : r = 0 <;> by_cases hc0 : c = 0 <;> by_cases hb0 : b = 0 <;> simp_all <;> omega

/-- months of a year starting in March -/
def marchYear (y m : Nat) : Int := if m ≤ 2 then (y : Int) + 4716 - 1 else (y : Int) + 4716
def marchMonth (m : Nat) : Int := if m ≤ 2 then (m : Int) + 9 else (m : Int) - 3

theorem jdnOfCivil_march (y m : Nat) (d : Int) :
    jdnOfCivil y m d = (1461 * marchYear y m / 4) + ((979 * marchMonth m + 16) / 32) + d - 1364
      - (((marchYear y m + 184) / 100) * 3 / 4) := by
  unfold jdnOfCivil marchYear marchMonth
  by_cases h : m ≤ 2
  · have h' : (m : Int) ≤ 2 := by omega
    simp [h, h']
  · have h' : ¬ (m : Int) ≤ 2 := by omega
    simp [h, h']

theorem months_cases {m : Nat} (h : 1 ≤ m ∧ m ≤ 12) :
    m = 1 ∨ m = 2 ∨ m = 3 ∨ m = 4 ∨ m = 5 ∨ m = 6 ∨ m = 7 ∨ m = 8 ∨ m = 9 ∨ m = 10 ∨ m = 11 ∨ m = 12 := by
  omega

/-- The code's Julian day number of a date is the plain day count plus a constant. -/
theorem jdnOfCivil_eq (y m d : Nat) (hy : 1 ≤ y) (hm : 1 ≤ m ∧ m ≤ 12) :
    jdnOfCivil y m d = (dayNumber y m d : Int) + 1721059 := by
  rw [jdnOfCivil_march]
  unfold dayNumber
  have hmon := daysBeforeMonth_eq y m hm.1 hm.2
  by_cases h2 : m ≤ 2
  · obtain ⟨y', rfl⟩ : ∃ y', y = y' + 1 := ⟨y - 1, by omega⟩
    have hp := yearPart y'
    have e : marchYear (y' + 1) m = (y' : Int) + 4716 := by unfold marchYear; simp [h2]; omega
    rw [e]
    have hd : daysBeforeYear (y' + 1) = daysBeforeYear y' + yearLen y' := rfl
    unfold yearLen at hd
    have : m = 1 ∨ m = 2 := by omega
    rcases this with rfl | rfl <;> simp [marchMonth] at hmon ⊢ <;>
      cases hb : isLeap y' <;> simp [hb] at hp hd <;> omega
  · have hp := yearPart y
    have e : marchYear y m = (y : Int) + 4716 := by unfold marchYear; simp [h2]
    rw [e]
    rcases months_cases hm with rfl | rfl | rfl | rfl | rfl | rfl | rfl | rfl | rfl | rfl | rfl | rfl <;>
      first | omega | (cases hb : isLeap y <;> simp [hb, marchMonth] at hp hmon ⊢ <;> omega)

/-- The code's inverse formula, on a March-based year `Y`, month `M` and day `d`. -/
theorem civil_core (Y M d C s D : Int) (hC : Y + 184 = 100 * C + s) (hs : 0 ≤ s ∧ s < 100) (hC0 : 0 ≤ C)
    (hD : D = (979 * M + 16) / 32 + d - 1) (hD0 : 0 ≤ D) (hD1 : D ≤ 365)
    (hleap : D = 365 → (Y % 4 = 3 ∧ (s = 99 → C % 4 = 0))) :
    let jdn := (1461 * Y / 4) + ((979 * M + 16) / 32) + d - 1364 - (((Y + 184) / 100) * 3 / 4)
    ((((jdn * 4 + 274277) / 146097) * 3 / 4) + jdn + 1363) * 4 + 3 = 1461 * Y - Y % 4 + 4 * D + 3 := by
  intro jdn
  have hCe : (Y + 184) / 100 = C := by omega
  have hj : jdn = (1461 * Y / 4) + D - 1363 - C * 3 / 4 := by
    show _ = _; simp only [jdn, hCe]; omega
  have hj2 : 4 * jdn + 274277 = 146097 * C + 1461 * s + 4 * D + 1 - Y % 4 + (3 * C) % 4 := by
    rw [hj]; omega
  have hX : ((jdn * 4 + 274277) / 146097) * 3 / 4 = C * 3 / 4 := by
    have hm : (s % 4 = Y % 4) := by omega
    have hlo : 146097 * C ≤ 4 * jdn + 274277 := by rw [hj2]; omega
    by_cases hbig : s = 99 ∧ D = 365
    · have h1 := (hleap hbig.2)
      have h2 := h1.2 hbig.1
      have : (jdn * 4 + 274277) / 146097 = C + 1 := by omega
      rw [this]; omega
    · have hhi : 4 * jdn + 274277 < 146097 * C + 146097 := by
        rw [hj2]
        by_cases h99 : s = 99
        · subst h99; omega
        · omega
      have : (jdn * 4 + 274277) / 146097 = C := by omega
      rw [this]
  rw [hX, hj]; omega

/-- Converting a real date to a Julian day number and back gives the date. -/
theorem civil_of_jdn_of_civil (y m d : Nat) (hy : 1 ≤ y) (h : ValidDate y m d) :
    civilOfJdn (jdnOfCivil y m d) = ((y : Int), (m : Int), (d : Int)) := by
  obtain ⟨h1, h2, h3, h4⟩ := h
  rw [jdnOfCivil_march]
  generalize hY : marchYear y m = Y
  generalize hM : marchMonth m = M
  have hl := isLeap_iff y
  have hY0 : 4716 ≤ Y := by rw [← hY]; unfold marchYear; split <;> omega
  have hdb : (d : Int) ≤ 31 := by
    rcases months_cases ⟨h1, h2⟩ with rfl | rfl | rfl | rfl | rfl | rfl | rfl | rfl | rfl | rfl | rfl | rfl <;>
      simp [monthLen] at h4 <;> (try split at h4) <;> omega
  obtain ⟨D, hD⟩ : ∃ D : Int, D = (979 * M + 16) / 32 + d - 1 := ⟨_, rfl⟩
  have hDb : 0 ≤ D ∧ D ≤ 365 ∧ (D = 365 → m = 2 ∧ isLeap y = true) := by
    rw [← hM] at hD
    rcases months_cases ⟨h1, h2⟩ with rfl | rfl | rfl | rfl | rfl | rfl | rfl | rfl | rfl | rfl | rfl | rfl <;>
      cases hb : isLeap y <;> simp [monthLen, marchMonth, hb] at h4 hD ⊢ <;> omega
  have hcore := civil_core Y M d ((Y + 184) / 100) ((Y + 184) % 100) D (by omega) (by omega) (by omega)
    hD hDb.1 hDb.2.1 (by
      intro h365
      have := hDb.2.2 h365
      have hl' := hl.mp this.2
      have hYe : Y = (y : Int) + 4715 := by rw [← hY]; unfold marchYear; simp [this.1]; omega
      constructor
      · omega
      · intro h99; omega)
  unfold civilOfJdn
  simp only at hcore ⊢
  rw [hcore]
  have hres : 0 ≤ 4 * D + 3 - Y % 4 ∧ 4 * D + 3 - Y % 4 < 1461 := by
    by_cases h365 : D = 365
    · have := hDb.2.2 h365
      have hl' := hl.mp this.2
      have hYe : Y = (y : Int) + 4715 := by rw [← hY]; unfold marchYear; simp [this.1]; omega
      omega
    · omega
  have e1 : (1461 * Y - Y % 4 + 4 * D + 3) / 1461 = Y := by omega
  have e2 : (1461 * Y - Y % 4 + 4 * D + 3) % 1461 = 4 * D + 3 - Y % 4 := by omega
  have e3 : (4 * D + 3 - Y % 4) / 4 = D := by omega
  rw [e1, e2, e3]
  rw [← hM] at hD
  rcases months_cases ⟨h1, h2⟩ with rfl | rfl | rfl | rfl | rfl | rfl | rfl | rfl | rfl | rfl | rfl | rfl <;>
    simp [marchMonth, marchYear, monthLen] at hD hY h4 <;>
    (have e4 : ((D * 535 + 333) % 16384) / 535 + 1 = d := by omega) <;>
    rw [e4] <;> split <;> simp only [Prod.mk.injEq] <;> refine ⟨?_, ?_, trivial⟩ <;> omega

/-! ### every day number is a date -/

theorem monthLen_pos (y m : Nat) (h : 1 ≤ m ∧ m ≤ 12) : 28 ≤ monthLen y m := by
  rcases months_cases h with rfl | rfl | rfl | rfl | rfl | rfl | rfl | rfl | rfl | rfl | rfl | rfl <;>
    simp [monthLen] <;> split <;> omega

/-- Every positive day number is the number of a real date. -/
theorem exists_date : ∀ n : Nat, ∃ y m d, ValidDate y m d ∧ dayNumber y m d = n + 1
  | 0 => ⟨0, 1, 1, by decide, by decide⟩
  | n + 1 => by
    obtain ⟨y, m, d, hv, hn⟩ := exists_date n
    obtain ⟨h1, h2, h3, h4⟩ := hv
    by_cases hd : d < monthLen y m
    · exact ⟨y, m, d + 1, ⟨h1, h2, by omega, by omega⟩, by unfold dayNumber at *; omega⟩
    · have hde : d = monthLen y m := by omega
      by_cases hm : m < 12
      · refine ⟨y, m + 1, 1, ⟨by omega, by omega, by omega, ?_⟩, ?_⟩
        · have := monthLen_pos y (m + 1) (by omega); omega
        · unfold dayNumber at *
          obtain ⟨k, rfl⟩ : ∃ k, m = k + 1 := ⟨m - 1, by omega⟩
          have : daysBeforeMonth y (k + 1 + 1) = daysBeforeMonth y (k + 1) + monthLen y (k + 1) := rfl
          omega
      · have hm12 : m = 12 := by omega
        subst hm12
        refine ⟨y + 1, 1, 1, ⟨by omega, by omega, by omega, by simp [monthLen]⟩, ?_⟩
        have hb := daysBeforeMonth_eq y 12 (by omega) (by omega)
        unfold dayNumber at *
        have h5 : daysBeforeYear (y + 1) = daysBeforeYear y + yearLen y := rfl
        have h6 : daysBeforeMonth (y + 1) 1 = 0 := rfl
        have h7 : monthLen y 12 = 31 := rfl
        unfold yearLen at h5
        cases hl : isLeap y <;> simp [hl] at hb h5 <;> omega

end Xlrd
