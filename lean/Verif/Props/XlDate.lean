import Verif.Lemmas.XlDateEnc
import Verif.Spec.Dates

/-!
# Properties of the date conversions: C01 - C08
-/
set_option linter.unusedSimpArgs false
namespace Xlrd
open Spec

theorem hms (T : Int) : T / 60 / 60 * 3600 + T / 60 % 60 * 60 + T % 60 = T := by omega

/-- `xldate_as_tuple` on a non-negative serial, in terms of the carried day and second. -/
theorem asTuple_nonneg (x : ℚ) (b : Bool) (hx : 0 ≤ x) :
    (endSerial b ≤ dayOf x ∧ xldateAsTuple x (modeInt b) = .error .dateTooLarge) ∨
    (dayOf x = 0 ∧ xldateAsTuple x (modeInt b) =
      .ok ⟨0, 0, 0, sodOf x / 60 / 60, sodOf x / 60 % 60, sodOf x % 60⟩) ∨
    (0 < dayOf x ∧ dayOf x < firstSerial b ∧ xldateAsTuple x (modeInt b) = .error .dateAmbiguous) ∨
    (firstSerial b ≤ dayOf x ∧ dayOf x < endSerial b ∧
      ∃ y m d : Nat, ValidDate y m d ∧ 1900 ≤ y ∧ y ≤ 9999 ∧ serial b y m d = dayOf x ∧
        xldateAsTuple x (modeInt b) =
          .ok ⟨y, m, d, sodOf x / 60 / 60, sodOf x / 60 % 60, sodOf x % 60⟩) := by
  rcases eq_or_lt_of_le hx with h | h
  · right; left
    subst h
    have h1 := dayOf_int 0
    have h2 := sodOf_int 0
    simp only [Int.cast_zero] at h1 h2
    refine ⟨h1, ?_⟩
    unfold xldateAsTuple
    rw [if_neg (not_not.mpr (modeInt_01 b)), if_pos rfl, h2]
    rfl
  · exact asTuple_cases x b h

theorem asTuple_ok_mode (x : ℚ) (dm : Int) (t : DateTuple) (h : xldateAsTuple x dm = .ok t) :
    0 ≤ x ∧ ∃ b, dm = modeInt b := by
  unfold xldateAsTuple at h
  by_cases hm : dm = 0 ∨ dm = 1
  · rw [if_neg (not_not.mpr hm)] at h
    refine ⟨?_, mode_cases dm hm⟩
    by_contra hneg
    push Not at hneg
    rw [if_neg (ne_of_lt hneg), if_pos hneg] at h
    cases h
  · rw [if_pos hm] at h; cases h

/-- decoding a serial that equals a whole day plus seconds -/
theorem asTuple_of (x : ℚ) (b : Bool) (y m d T : Nat) (hx : 0 ≤ x) (hv : ValidDate y m d)
    (hy : 1900 ≤ y ∧ y ≤ 9999)
    (hf : firstSerial b ≤ serial b y m d) (hday : dayOf x = serial b y m d) (hsod : sodOf x = T) :
    xldateAsTuple x (modeInt b) =
      .ok ⟨y, m, d, (T : Int) / 60 / 60, (T : Int) / 60 % 60, (T : Int) % 60⟩ := by
  have hend : serial b y m d < endSerial b := by
    have := dayNumber_year_lt y m d 10000 1 1 hv (by decide) (by omega)
    unfold endSerial serial; cases b <;> simp <;> omega
  have hpos : 0 < firstSerial b := by unfold firstSerial; split <;> omega
  rcases asTuple_nonneg x b hx with h | h | h | h
  · omega
  · omega
  · omega
  · obtain ⟨_, _, y', m', d', hv', hy1, hy2, hs, hr⟩ := h
    have hj := civil_of_jdn_of_civil y m d (by omega) hv
    have hj' := civil_of_jdn_of_civil y' m' d' (by omega) hv'
    have e1 := serial_eq b y m d (by omega) ⟨hv.1, hv.2.1⟩
    have e2 := serial_eq b y' m' d' (by omega) ⟨hv'.1, hv'.2.1⟩
    have ej : jdnOfCivil (y : Int) m d = jdnOfCivil (y' : Int) m' d' := by omega
    rw [ej, hj'] at hj
    simp only [Prod.mk.injEq] at hj
    rw [hr, hsod, hj.1, hj.2.1, hj.2.2]

/-! ## C01 -/

/-- C01: a date converted to a serial and back is the same date at midnight. -/
theorem C01_date_round_trip (y m d datemode : Int) (x : ℚ)
    (h : xldateFromDateTuple y m d datemode = .ok x) :
    xldateAsTuple x datemode = .ok ⟨y, m, d, 0, 0, 0⟩ := by
  obtain ⟨b, rfl, hc⟩ := fromDate_ok y m d datemode x h
  clear h
  rcases hc with ⟨rfl, rfl, rfl, rfl⟩ | ⟨Y, M, D, rfl, rfl, rfl, hv, hy1, hy2, hf, rfl⟩
  · unfold xldateAsTuple
    rw [if_neg (not_not.mpr (modeInt_01 b)), if_pos rfl]
  · have hpos : 0 < firstSerial b := by unfold firstSerial; split <;> omega
    have hx : (0 : ℚ) ≤ (serial b Y M D : ℚ) := by exact_mod_cast (by omega : 0 ≤ serial b Y M D)
    have := asTuple_of (serial b Y M D : ℚ) b Y M D 0 hx hv ⟨hy1, hy2⟩ hf (dayOf_int _) (sodOf_int _)
    simpa using this

/-- C01: the serial is the number of days counted on the calendar. -/
theorem C01_serial_counts_days (b : Bool) (y m d : Nat) (x : ℚ) (hy : y ≠ 0)
    (h : xldateFromDateTuple y m d (if b then 1 else 0) = .ok x) : x = serial b y m d := by
  obtain ⟨b', hb, hc⟩ := fromDate_ok y m d _ x h
  clear h
  have : b' = b := by cases b <;> cases b' <;> simp [modeInt] at hb <;> rfl
  subst this
  rcases hc with ⟨h0, _⟩ | ⟨Y, M, D, hY, hM, hD, hv, hy1, hy2, hf, rfl⟩
  · exact absurd (by omega) hy
  · have : y = Y := by omega
    have : m = M := by omega
    have : d = D := by omega
    subst_vars
    rfl

example : xldateFromDateTuple 2000 2 29 0 = .ok (36585 : ℚ) ∧
    xldateFromDateTuple 1904 1 2 1 = .ok (1 : ℚ) := by
  constructor
  · have := fromDate_valid 2000 2 29 false (by decide) (by decide)
    have e : serial false 2000 2 29 = 36585 := by
      have h1 := jdnOfCivil_eq 2000 2 29 (by decide) (by decide)
      have h2 := serial_eq false 2000 2 29 (by decide) (by decide)
      rw [h2]; decide
    rw [e] at this
    simpa [modeInt, firstSerial] using this
  · have := fromDate_valid 1904 1 2 true (by decide) (by decide)
    have e : serial true 1904 1 2 = 1 := by
      have h2 := serial_eq true 1904 1 2 (by decide) (by decide)
      rw [h2]; decide
    rw [e] at this
    simpa [modeInt, firstSerial] using this

/-! ## C02 -/

/-- C02: a date-time converted to a binary64 serial and back is unchanged, for every accepted
date (or no date) and every second of the day. -/
theorem C02_datetime_round_trip (t : DateTuple) (datemode : Int) (x : ℚ)
    (h : xldateFromDatetimeTuple t datemode = .ok x) : xldateAsTuple x datemode = .ok t := by
  obtain ⟨y, m, d, hh, mm, ss⟩ := t
  unfold xldateFromDatetimeTuple at h
  cases ha : xldateFromDateTuple y m d datemode with
  | error e => simp [ha, bind, Except.bind] at h
  | ok a =>
    cases hb : xldateFromTimeTuple hh mm ss with
    | error e => simp [ha, hb, bind, Except.bind] at h
    | ok tf =>
      simp only [ha, hb, bind, Except.bind, pure, Except.pure, Except.ok.injEq] at h
      unfold xldateFromTimeTuple at hb
      split_ifs at hb with hr
      injection hb with hb
      obtain ⟨h1, h2, h3, h4, h5, h6⟩ := hr
      have near := time_frac_near hh mm ss ⟨h1, h2⟩ ⟨h3, h4⟩ ⟨h5, h6⟩
      have nn := time_frac_nonneg hh mm ss h1 h3 h5
      rw [hb] at near nn
      obtain ⟨T, hT⟩ : ∃ T : Nat, 3600 * hh + 60 * mm + ss = (T : Int) := ⟨(3600 * hh + 60 * mm + ss).toNat, by omega⟩
      rw [hT] at near
      have hTb : (T : Int) < 86400 := by omega
      have c1 : (T : Int) / 60 / 60 = hh := by omega
      have c2 : (T : Int) / 60 % 60 = mm := by omega
      have c3 : (T : Int) % 60 = ss := by omega
      obtain ⟨b, rfl, hcase⟩ := fromDate_ok y m d datemode a ha
      have key : ∀ N : ℤ, 0 ≤ N → N < 4194304 → a = N →
          0 ≤ x ∧ dayOf x = N ∧ sodOf x = T := by
        intro N hN1 hN2 haN
        have sp := split_sum N T tf ⟨hN1, hN2⟩ ⟨by omega, by omega⟩ nn near
        rw [← haN, h] at sp
        refine ⟨?_, ?_, ?_⟩
        · rw [← h, haN]
          have : (0 : ℚ) ≤ N := by exact_mod_cast hN1
          exact fl_nonneg (by linarith)
        · unfold dayOf; rw [sp.1, sp.2]; split <;> omega
        · unfold sodOf; rw [sp.2]; split <;> omega
      rcases hcase with ⟨rfl, rfl, rfl, ha0⟩ | ⟨Y, M, D, rfl, rfl, rfl, hv, hy1, hy2, hf, haS⟩
      · obtain ⟨k1, k2, k3⟩ := key 0 (by omega) (by omega) (by rw [ha0]; simp)
        rcases asTuple_nonneg x b k1 with hr | hr | hr | hr
        · have : 0 < endSerial b := by rw [endSerial_eq]; cases b <;> simp [modeInt, xldaysTooLarge]
          omega
        · rw [hr.2, k3, c1, c2, c3]
        · omega
        · have hpos : 0 < firstSerial b := by unfold firstSerial; split <;> omega
          omega
      · have hpos : 0 < firstSerial b := by unfold firstSerial; split <;> omega
        have hend : serial b Y M D < endSerial b := by
          have := dayNumber_year_lt Y M D 10000 1 1 hv (by decide) (by omega)
          unfold endSerial serial; cases b <;> simp <;> omega
        have : endSerial b ≤ 2958466 := by rw [endSerial_eq]; cases b <;> simp [modeInt, xldaysTooLarge]
        obtain ⟨k1, k2, k3⟩ := key (serial b Y M D) (by omega) (by omega) haS
        rw [asTuple_of x b Y M D T k1 hv ⟨hy1, hy2⟩ hf k2 k3, c1, c2, c3]

example : ∃ x, xldateFromDatetimeTuple ⟨2024, 2, 29, 23, 59, 59⟩ 0 = .ok x := by
  have h1 := fromDate_valid 2024 2 29 false (by decide) (by decide)
  have e : serial false 2024 2 29 = 45351 := by
    rw [serial_eq false 2024 2 29 (by decide) (by decide)]; decide
  rw [e] at h1
  simp [modeInt, firstSerial] at h1
  exact ⟨_, by simp [xldateFromDatetimeTuple, h1, xldateFromTimeTuple, bind, Except.bind, pure, Except.pure]; rfl⟩

/-! ## C03 -/

/-- C03: every tuple returned is a real time of day, with no date or a real Gregorian date. -/
theorem C03_result_is_real (x : ℚ) (datemode : Int) (t : DateTuple)
    (h : xldateAsTuple x datemode = .ok t) : RealTime t ∧ (NoDate t ∨ RealDate t) := by
  obtain ⟨hx, b, rfl⟩ := asTuple_ok_mode x datemode t h
  have hb := sodOf_bounds x
  have hrt : ∀ Y M D : Int,
      RealTime ⟨Y, M, D, sodOf x / 60 / 60, sodOf x / 60 % 60, sodOf x % 60⟩ := by
    intro Y M D; simp only [RealTime]; omega
  rcases asTuple_nonneg x b hx with hr | hr | hr | hr
  · rw [h] at hr; cases hr.2
  · rw [h] at hr; obtain ⟨_, e⟩ := hr; injection e with e; subst e
    exact ⟨hrt _ _ _, .inl ⟨rfl, rfl, rfl⟩⟩
  · rw [h] at hr; cases hr.2.2
  · obtain ⟨_, _, y, m, d, hv, hy1, hy2, _, e⟩ := hr
    rw [h] at e; injection e with e; subst e
    exact ⟨hrt _ _ _, .inr ⟨y, m, d, rfl, rfl, rfl, hy1, hy2, hv⟩⟩

theorem secOf_near (x : ℚ) : |((⌊x⌋ * 86400 + secOf x : ℤ) : ℚ) - x * 86400| ≤ 1 / 2 + 1 / 2 ^ 34 := by
  have h1 := Int.floor_le x
  have h2 := Int.lt_floor_add_one x
  unfold secOf
  set f := x - ⌊x⌋ with hf
  have e2 := fl_near (q := f) (B := 1) (by rw [abs_le]; constructor <;> linarith)
  rw [abs_le] at e2
  have e3 := fl_near (q := fl f * 86400) (B := 86401) (by rw [abs_le]; constructor <;> linarith)
  rw [abs_le] at e3
  have e4 := rne_err (fl (fl f * 86400))
  rw [abs_le] at e4
  push_cast
  rw [abs_le]
  constructor <;> linarith

/-- C03: the tuple denotes the instant of the serial, correct to half a second (up to 2^-34 s of
rounding in the arithmetic). -/
theorem C03_result_is_nearest_second (x : ℚ) (b : Bool) (t : DateTuple)
    (h : xldateAsTuple x (if b then 1 else 0) = .ok t) :
    ∃ days secs : Int, Denotes b t days secs ∧
      |((days * 86400 + secs : ℤ) : ℚ) - x * 86400| ≤ 1 / 2 + 1 / 2 ^ 34 := by
  have h : xldateAsTuple x (modeInt b) = .ok t := h
  obtain ⟨hx, _⟩ := asTuple_ok_mode x _ t h
  have hnear := secOf_near x
  rw [← total_eq x] at hnear
  refine ⟨dayOf x, sodOf x, ?_, hnear⟩
  have hsod := hms (sodOf x)
  rcases asTuple_nonneg x b hx with hr | hr | hr | hr
  · rw [h] at hr; cases hr.2
  · rw [h] at hr; obtain ⟨e0, e⟩ := hr; injection e with e; subst e
    exact ⟨hsod.symm, .inl ⟨⟨rfl, rfl, rfl⟩, e0⟩⟩
  · rw [h] at hr; cases hr.2.2
  · obtain ⟨_, _, y, m, d, hv, hy1, hy2, hs, e⟩ := hr
    rw [h] at e; injection e with e; subst e
    exact ⟨hsod.symm, .inr ⟨y, m, d, rfl, rfl, rfl, hv, hs.symm⟩⟩

example : xldateAsTuple (36585 : ℚ) 0 = .ok ⟨2000, 2, 29, 0, 0, 0⟩ := by
  have e : serial false 2000 2 29 = 36585 := by
    rw [serial_eq false 2000 2 29 (by decide) (by decide)]; decide
  have := asTuple_of (36585 : ℤ) false 2000 2 29 0 (by norm_num) (by decide) (by decide)
    (by rw [e]; decide) (by rw [dayOf_int, e]) (by rw [sodOf_int]; rfl)
  simpa [modeInt] using this

/-! ## C04 -/

theorem dayOf_sodOf_mono {x y : ℚ} (h : x ≤ y) :
    dayOf x * 86400 + sodOf x ≤ dayOf y * 86400 + sodOf y := by
  rw [total_eq, total_eq]
  have hf := Int.floor_le_floor h
  have hx := secOf_bounds x
  have hy := secOf_bounds y
  rcases lt_or_eq_of_le hf with hlt | heq
  · omega
  · have : secOf x ≤ secOf y := by
      unfold secOf
      apply rne_mono
      apply fl_mono
      have : fl (x - ⌊x⌋) ≤ fl (y - ⌊y⌋) := fl_mono (by rw [heq]; linarith)
      linarith
    omega

theorem lexDate_lt (y m d y' m' d' : Nat) (h : ValidDate y m d) (h' : ValidDate y' m' d') (b : Bool)
    (hle : serial b y m d ≤ serial b y' m' d') (hlex : lexLt [(y' : Int), m', d'] [(y : Int), m, d]) : False := by
  simp only [lexLt, and_false, or_false] at hlex
  have : dayNumber y' m' d' < dayNumber y m d := by
    rcases hlex with h1 | ⟨h1, h1' | ⟨h2, h3⟩⟩
    · exact dayNumber_year_lt _ _ _ _ _ _ h' h (by omega)
    · have : y' = y := by omega
      subst this
      exact dayNumber_month_lt _ _ _ _ _ h' h (by omega)
    · have : y' = y := by omega
      have : m' = m := by omega
      subst_vars
      unfold dayNumber; omega
  unfold serial at hle
  cases b <;> simp at hle <;> omega

/-- C04: decoding preserves order (times without date come before dates). -/
theorem C04_order_preserved (x y : ℚ) (datemode : Int) (s t : DateTuple) (hxy : x ≤ y)
    (hs : xldateAsTuple x datemode = .ok s) (ht : xldateAsTuple y datemode = .ok t) :
    ¬ lexLt (comps t) (comps s) := by
  obtain ⟨hx, b, rfl⟩ := asTuple_ok_mode x datemode s hs
  obtain ⟨hy, _⟩ := asTuple_ok_mode y _ t ht
  have hm := dayOf_sodOf_mono hxy
  have bx := sodOf_bounds x
  have by' := sodOf_bounds y
  have hfirst : 0 < firstSerial b := by unfold firstSerial; split <;> omega
  intro hlex
  rcases asTuple_nonneg x b hx with hr | hr | hr | hr
  · rw [hs] at hr; cases hr.2
  · rw [hs] at hr; obtain ⟨e0, e⟩ := hr; injection e with e; subst e
    rcases asTuple_nonneg y b hy with hq | hq | hq | hq
    · rw [ht] at hq; cases hq.2
    · rw [ht] at hq; obtain ⟨f0, f⟩ := hq; injection f with f; subst f
      simp only [comps, lexLt, and_false, or_false] at hlex
      omega
    · rw [ht] at hq; cases hq.2.2
    · obtain ⟨_, _, Y, M, D, hv, hy1, hy2, _, f⟩ := hq
      rw [ht] at f; injection f with f; subst f
      simp only [comps, lexLt, and_false, or_false] at hlex
      omega
  · rw [hs] at hr; cases hr.2.2
  · obtain ⟨h1, _, Y, M, D, hv, hy1, hy2, hser, e⟩ := hr
    rw [hs] at e; injection e with e; subst e
    rcases asTuple_nonneg y b hy with hq | hq | hq | hq
    · rw [ht] at hq; cases hq.2
    · omega
    · rw [ht] at hq; cases hq.2.2
    · obtain ⟨_, _, Y', M', D', hv', hy1', hy2', hser', f⟩ := hq
      rw [ht] at f; injection f with f; subst f
      simp only [comps] at hlex
      by_cases hlt : lexLt [(Y' : Int), M', D'] [(Y : Int), M, D]
      · exact lexDate_lt Y M D Y' M' D' hv hv' b (by omega) hlt
      · simp only [lexLt, and_false, or_false] at hlt hlex
        have hsame : (Y' : Int) = Y ∧ (M' : Int) = M ∧ (D' : Int) = D := by omega
        have : Y' = Y := by omega
        have : M' = M := by omega
        have : D' = D := by omega
        subst_vars
        omega

/-- C04: different whole-day serials give different dates. -/
theorem C04_whole_days_distinct (m n datemode : Int) (s t : DateTuple) (hmn : m ≠ n)
    (hs : xldateAsTuple (m : ℚ) datemode = .ok s) (ht : xldateAsTuple (n : ℚ) datemode = .ok t) : s ≠ t := by
  rintro rfl
  obtain ⟨hx, b, rfl⟩ := asTuple_ok_mode _ datemode s hs
  obtain ⟨hy, _⟩ := asTuple_ok_mode _ _ s ht
  have em := dayOf_int m
  have en := dayOf_int n
  rcases asTuple_nonneg (m : ℚ) b hx with hr | hr | hr | hr
  · rw [hs] at hr; cases hr.2
  · rw [hs] at hr; obtain ⟨e0, e⟩ := hr; injection e with e; subst e
    rcases asTuple_nonneg (n : ℚ) b hy with hq | hq | hq | hq
    · rw [ht] at hq; cases hq.2
    · omega
    · rw [ht] at hq; cases hq.2.2
    · obtain ⟨_, _, Y, M, D, hv, hy1, hy2, _, f⟩ := hq
      rw [ht] at f; injection f with f; injection f with f; omega
  · rw [hs] at hr; cases hr.2.2
  · obtain ⟨h1, _, Y, M, D, hv, hy1, hy2, hser, e⟩ := hr
    rw [hs] at e; injection e with e; subst e
    rcases asTuple_nonneg (n : ℚ) b hy with hq | hq | hq | hq
    · rw [ht] at hq; cases hq.2
    · rw [ht] at hq; obtain ⟨e0, e⟩ := hq; injection e with e; injection e with e; omega
    · rw [ht] at hq; cases hq.2.2
    · obtain ⟨_, _, Y', M', D', hv', hy1', hy2', hser', f⟩ := hq
      rw [ht] at f; injection f with f
      injection f with f1 f2 f3
      have : Y' = Y := by omega
      have : M' = M := by omega
      have : D' = D := by omega
      subst_vars
      omega

/-- Two different whole days and one time without date that decode in the 1904 system. -/
example : (∃ s, xldateAsTuple ((1 : Int) : ℚ) 1 = .ok s) ∧ (∃ t, xldateAsTuple ((36585 : Int) : ℚ) 1 = .ok t) := by
  refine ⟨?_, ?_⟩ <;> rw [asTuple_pos _ 1 (.inr rfl) (by norm_num), dayOf_int] <;>
    simp [xldaysTooLarge]

/-! ## C05 -/


theorem dayOf_eq_roundedDay (x : ℚ) : dayOf x = roundedDay x := by
  have hs := secOf_bounds x
  unfold dayOf roundedDay
  have key : secOf x = 86400 ↔ 86399.5 ≤ fl (fl (x - ⌊x⌋) * 86400) := by
    set q := fl (fl (x - ⌊x⌋) * 86400) with hq
    have hsec : secOf x = rne q := rfl
    have hle : q ≤ 86400 := by
      have h := fl_frac_bounds x
      have : fl (86400 : ℚ) = 86400 := by have := fl_int 86400 (by norm_num); simpa using this
      rw [← this, hq]
      apply fl_mono; linarith
    rw [hsec]
    constructor
    · intro h
      have := rne_err q
      rw [h, abs_le] at this
      push_cast at this
      norm_num at this ⊢
      linarith
    · intro h
      have h1 : rne (86399.5 : ℚ) ≤ rne q := rne_mono h
      have h2 : rne (86399.5 : ℚ) = 86400 := by
        have hfl : ⌊(86399.5 : ℚ)⌋ = 86399 := by rw [Int.floor_eq_iff]; norm_num
        unfold rne
        simp only [hfl]
        norm_num
      rw [hsec] at hs
      omega
  simp only [key]

/-- C05: exactly which serials `xldate_as_tuple` accepts, and the error class of each rejection. -/
theorem C05_outcomes (x : ℚ) (datemode : Int) :
    (xldateAsTuple x datemode = .error .dateBadMode ↔ datemode ≠ 0 ∧ datemode ≠ 1) ∧
    (xldateAsTuple x datemode = .error .dateNegative ↔ (datemode = 0 ∨ datemode = 1) ∧ x < 0) ∧
    (xldateAsTuple x datemode = .error .dateTooLarge ↔
      (datemode = 0 ∨ datemode = 1) ∧ 0 ≤ x ∧ endSerial (datemode == 1) ≤ roundedDay x) ∧
    (xldateAsTuple x datemode = .error .dateAmbiguous ↔
      datemode = 0 ∧ 0 ≤ x ∧ 0 < roundedDay x ∧ roundedDay x < 61) ∧
    ((∃ t, xldateAsTuple x datemode = .ok t) ↔
      (datemode = 0 ∨ datemode = 1) ∧ 0 ≤ x ∧ roundedDay x < endSerial (datemode == 1) ∧
      (roundedDay x = 0 ∨ firstSerial (datemode == 1) ≤ roundedDay x)) := by
  rw [← dayOf_eq_roundedDay]
  by_cases hm : datemode = 0 ∨ datemode = 1
  · obtain ⟨b, rfl⟩ := mode_cases datemode hm
    have hbe : (modeInt b == 1) = b := by cases b <;> rfl
    have h0 : modeInt b = 0 ↔ b = false := by cases b <;> simp [modeInt]
    have h1 : modeInt b = 1 ↔ b = true := by cases b <;> simp [modeInt]
    have hend : firstSerial b < endSerial b := by
      rw [endSerial_eq]; cases b <;> simp [modeInt, xldaysTooLarge, firstSerial]
    rw [hbe]
    rcases lt_or_ge x 0 with hx | hx
    · have e : xldateAsTuple x (modeInt b) = .error .dateNegative := by
        unfold xldateAsTuple
        rw [if_neg (not_not.mpr hm), if_neg (ne_of_lt hx), if_pos hx]
      rw [e]
      have : ¬ (0 ≤ x) := not_le.mpr hx
      have hz : ¬ modeInt b = 0 → modeInt b = 1 := fun h => hm.resolve_left h
      simpa [hm, hx, this] using hz
    · have hnx : ¬ x < 0 := not_lt.mpr hx
      have hfirst : 0 < firstSerial b := by unfold firstSerial; split <;> omega
      have hf61 : b = false → firstSerial b = 61 := by rintro rfl; rfl
      have hf1 : b = true → firstSerial b = 1 := by rintro rfl; rfl
      rcases asTuple_nonneg x b hx with hr | hr | hr | hr
      · rw [hr.2]
        refine ⟨by simpa using fun h => hm.resolve_left h, by simp [hnx], by simp [hm, hx, hr.1], ?_, ?_⟩
        · simp
          intro hb _ h3
          have := hf61 (h0.mp hb)
          omega
        · simp
          intro _ _ h; omega
      · rw [hr.2]
        refine ⟨by simpa using fun h => hm.resolve_left h, by simp [hnx], ?_, ?_, ?_⟩
        · simp; intro _ _; omega
        · simp; intro _ _ h; omega
        · simp [hm, hx, hr.1]; omega
      · rw [hr.2.2]
        have hb : b = false := by
          cases b
          · rfl
          · have := hf1 rfl; omega
        refine ⟨by simpa using fun h => hm.resolve_left h, by simp [hnx], ?_, ?_, ?_⟩
        · simp; intro _ _; omega
        · have := hf61 hb
          simp [h0.mpr hb, hx]; omega
        · simp; intro _ _ _; omega
      · obtain ⟨h1', h2', y, m, d, hv, _, _, _, e⟩ := hr
        rw [e]
        refine ⟨by simpa using fun h => hm.resolve_left h, by simp [hnx], ?_, ?_, ?_⟩
        · simp; intro _ _; omega
        · simp
          intro hb _ _
          have := hf61 (h0.mp hb); omega
        · simp [hm, hx]; omega
  · have e : xldateAsTuple x datemode = .error .dateBadMode := by
      unfold xldateAsTuple; rw [if_pos hm]
    rw [e]
    push Not at hm
    refine ⟨?_, ?_, ?_, ?_, ?_⟩ <;> simp [hm.1, hm.2]

/-- C05: the limits are the calendar's: the end serial is that of 10000-01-01. -/
theorem C05_limits : endSerial false = 2958466 ∧ endSerial true = 2957004 := by
  rw [endSerial_eq, endSerial_eq]; decide

/-! ## C06 -/

/-- C06: a date has serials 1462 apart in the two systems. -/
theorem C06_serials_differ_by_1462 (y m d : Int) (a b : ℚ) (hy : y ≠ 0)
    (ha : xldateFromDateTuple y m d 0 = .ok a) (hb : xldateFromDateTuple y m d 1 = .ok b) :
    a = b + 1462 := by
  obtain ⟨b0, hb0, h0⟩ := fromDate_ok y m d 0 a ha
  obtain ⟨b1, hb1, h1⟩ := fromDate_ok y m d 1 b hb
  have : b0 = false := by cases b0 <;> simp [modeInt] at hb0 <;> rfl
  have : b1 = true := by cases b1 <;> simp [modeInt] at hb1 <;> rfl
  subst_vars
  rcases h0 with ⟨h0, _⟩ | ⟨Y, M, D, rfl, rfl, rfl, hv, _, _, _, rfl⟩
  · exact absurd h0 hy
  · rcases h1 with ⟨h1, _⟩ | ⟨Y', M', D', e1, e2, e3, hv', _, _, _, rfl⟩
    · exact absurd h1 hy
    · have : Y' = Y := by omega
      have : M' = M := by omega
      have : D' = D := by omega
      subst_vars
      have : serial false Y' M' D' = serial true Y' M' D' + 1462 := by
        simp [serial, dayNumber_1900_3_1, dayNumber_1904_1_1]; omega
      rw [this]; push_cast; ring

/-- C06: decoding a whole-day serial in the 1900 system and the serial 1462 lower in the 1904
system gives the same result (also when the result is "too large"). -/
theorem C06_decoding_agrees (n : Int) (h : 1462 < n) :
    xldateAsTuple (n : ℚ) 0 = xldateAsTuple (((n - 1462 : Int)) : ℚ) 1 := by
  have hp0 : (0 : ℚ) < n := by exact_mod_cast (by omega : 0 < n)
  have hp1 : (0 : ℚ) < ((n - 1462 : Int) : ℚ) := by exact_mod_cast (by omega : 0 < n - 1462)
  rw [asTuple_pos _ 0 (.inl rfl) hp0, asTuple_pos _ 1 (.inr rfl) hp1]
  simp only [dayOf_int, sodOf_int, xldaysTooLarge, jdnDelta]
  have h1 : ¬ n = 0 := by omega
  have h2 : ¬ n - 1462 = 0 := by omega
  have h3 : ¬ n < 61 := by omega
  have e' : n - 1462 + 2416481 = n + 2415019 := by omega
  have c' : (2957004 ≤ n - 1462) ↔ (2958466 ≤ n) := by omega
  simp [h1, h2, h3, e', c']

example : ∃ a b, xldateFromDateTuple (2000 : Int) 2 29 0 = .ok a ∧ xldateFromDateTuple (2000 : Int) 2 29 1 = .ok b := by
  refine ⟨_, _, rfl, rfl⟩

/-! ## C07 -/


theorem epochs_are_dates : epoch1904 = ordinal 1904 1 1 ∧ epoch1900 = ordinal 1899 12 31 ∧
    epoch1900m1 = ordinal 1899 12 30 := by
  have a := dayNumber_1904_1_1
  have e1 : dayNumber 1 1 1 = 367 := by decide
  have h := daysBeforeYear_eq 1899
  have m12 : daysBeforeMonth 1899 12 = 334 := by decide
  refine ⟨?_, ?_, ?_⟩
  · simp [ordinal, epoch1904, a, e1]
  · simp [ordinal, epoch1900, e1, dayNumber, m12] at *; omega
  · simp [ordinal, epoch1900m1, e1, dayNumber, m12] at *; omega

theorem asDatetime_int (n datemode : Int) :
    xldateAsDatetime (n : ℚ) datemode =
      addDelta (if datemode ≠ 0 then epoch1904 else if n < 60 then epoch1900 else epoch1900m1) n 0 0 := by
  unfold xldateAsDatetime
  have h60 : ((n : ℚ) < 60) ↔ n < 60 := by exact_mod_cast Iff.rfl
  simp only [truncQ_int, sub_self, fl_zero, zero_mul, h60]
  have := rne_int 0
  simp only [Int.cast_zero] at this
  rw [this]
  rfl

/-- C07: on whole days the two decoders agree. -/
theorem C07_whole_days_agree (n datemode : Int) (t : DateTuple)
    (h : xldateAsTuple (n : ℚ) datemode = .ok t) (hn : n ≠ 0) :
    ∃ y m d : Nat, t = ⟨y, m, d, 0, 0, 0⟩ ∧
      xldateAsDatetime (n : ℚ) datemode = .ok ⟨ordinal y m d, 0⟩ := by
  obtain ⟨hx, b, rfl⟩ := asTuple_ok_mode _ datemode t h
  have en := dayOf_int n
  have es := sodOf_int n
  rcases asTuple_nonneg (n : ℚ) b hx with hr | hr | hr | hr
  · rw [h] at hr; cases hr.2
  · omega
  · rw [h] at hr; cases hr.2.2
  · obtain ⟨h1, h2, y, m, d, hv, hy1, hy2, hs, e⟩ := hr
    rw [h] at e; injection e with e
    refine ⟨y, m, d, by rw [e, es]; rfl, ?_⟩
    have hlt := dayNumber_year_lt y m d 10000 1 1 hv (by decide) (by omega)
    have hgt := dayNumber_year_lt 1 1 1 y m d (by decide) hv (by omega)
    rw [dayNumber_10000_1_1] at hlt
    have e1 : dayNumber 1 1 1 = 367 := by decide
    rw [e1] at hgt
    rw [asDatetime_int]
    have hord : (if modeInt b ≠ 0 then epoch1904 else if n < 60 then epoch1900 else epoch1900m1) + n
        = ordinal y m d := by
      unfold ordinal
      rw [en] at hs h1
      unfold serial at hs
      cases b
      · simp [firstSerial] at h1
        simp [dayNumber_1900_3_1] at hs
        simp [modeInt, epoch1900m1, e1, show ¬ n < 60 by omega]; omega
      · simp [dayNumber_1904_1_1] at hs
        simp [modeInt, epoch1904, e1]; omega
    unfold addDelta
    simp only [zero_mul, add_zero, hord]
    have hrange : 1 ≤ ordinal y m d + 0 / 86400000 ∧ ordinal y m d + 0 / 86400000 ≤ 3652059 := by
      unfold ordinal; rw [e1]; omega
    rw [if_pos hrange]; simp

/-- C07 fails as first stated: serials 59 and 60 of the 1900 system are given the same datetime
(1900-02-28). -/
theorem C07_not_injective_59_60 : xldateAsDatetime (59 : ℚ) 0 = xldateAsDatetime (60 : ℚ) 0 ∧
    xldateAsDatetime (59 : ℚ) 0 = .ok ⟨ordinal 1900 2 28, 0⟩ := by
  have h1 := asDatetime_int 59 0
  have h2 := asDatetime_int 60 0
  have e : ordinal 1900 2 28 = 693654 := by
    have h := daysBeforeYear_eq 1900
    have e1 : dayNumber 1 1 1 = 367 := by decide
    have m2 : daysBeforeMonth 1900 2 = 31 := by decide
    simp [ordinal, e1, dayNumber, m2] at *; omega
  have c1 : ((59 : Int) : ℚ) = 59 := by norm_num
  have c2 : ((60 : Int) : ℚ) = 60 := by norm_num
  rw [c1] at h1; rw [c2] at h2
  rw [h1, h2, e]; decide

/-- C07 (the part that holds): apart from the pair 59/60 of the 1900 system, different whole-day
serials never give the same datetime. Missing: injectivity on that pair, which is false, and
fractional serials. -/
theorem C07_injective_partial (m n datemode : Int) (t : DateTime) (hmn : m < n)
    (hs : xldateAsDatetime (m : ℚ) datemode = .ok t) (ht : xldateAsDatetime (n : ℚ) datemode = .ok t) :
    datemode = 0 ∧ m = 59 ∧ n = 60 := by
  rw [asDatetime_int] at hs ht
  unfold addDelta at hs ht
  simp only [zero_mul, add_zero] at hs ht
  generalize hE1 : (if datemode ≠ 0 then epoch1904 else if m < 60 then epoch1900 else epoch1900m1) = E1 at hs
  generalize hE2 : (if datemode ≠ 0 then epoch1904 else if n < 60 then epoch1900 else epoch1900m1) = E2 at ht
  split_ifs at hs ht
  injection hs with hs; injection ht with ht
  rw [← ht] at hs
  injection hs with hs _
  unfold epoch1900 epoch1904 epoch1900m1 at hE1 hE2
  split_ifs at hE1 hE2 <;> omega

/-- C07: for every serial, the datetime is the epoch plus the serial, to half a millisecond
(up to 2^-24 ms of rounding in the arithmetic). -/
theorem C07_nearest_millisecond (x : ℚ) (datemode : Int) (t : DateTime)
    (h : xldateAsDatetime x datemode = .ok t) :
    0 ≤ t.ms ∧ t.ms < 86400000 ∧
    |(((t.ordinal - (if datemode ≠ 0 then ordinal 1904 1 1 else
        if x < 60 then ordinal 1899 12 31 else ordinal 1899 12 30)) * 86400000 + t.ms : ℤ) : ℚ)
      - x * 86400000| ≤ 1 / 2 + 1 / 2 ^ 24 := by
  rw [← epochs_are_dates.1, ← epochs_are_dates.2.1, ← epochs_are_dates.2.2]
  unfold xldateAsDatetime at h
  generalize (if datemode ≠ 0 then epoch1904 else if x < 60 then epoch1900 else epoch1900m1) = ep at h ⊢
  simp only at h
  set f := x - (truncQ x : ℚ) with hf
  have hfb : |f| ≤ 1 := by
    rw [hf]
    unfold truncQ
    split
    · have h1 := Int.floor_le (-x)
      have h2 := Int.lt_floor_add_one (-x)
      push_cast
      rw [abs_le]; constructor <;> linarith
    · have h1 := Int.floor_le x
      have h2 := Int.lt_floor_add_one x
      rw [abs_le]; constructor <;> linarith
  have e2 := fl_near hfb
  rw [abs_le] at e2 hfb
  have e3 := fl_near (q := fl f * 86400000) (B := 86400001) (by rw [abs_le]; constructor <;> linarith)
  rw [abs_le] at e3
  have e4 := rne_err (fl (fl f * 86400000))
  rw [abs_le] at e4
  set S := rne (fl (fl f * 86400000)) with hS
  unfold addDelta at h
  have e5 : S / 1000 * 1000 + S % 1000 = S := by omega
  simp only [e5] at h
  split_ifs at h
  injection h with h
  subst h
  refine ⟨by simp only; omega, by simp only; omega, ?_⟩
  simp only
  have e6 : (ep + truncQ x + S / 86400000 - ep) * 86400000 + S % 86400000 = truncQ x * 86400000 + S := by omega
  rw [e6]
  push_cast
  rw [abs_le]
  constructor <;> linarith

/-! ## C08 -/

/-- C08: `xldate_from_date_tuple` accepts exactly `(0,0,0)` and the real dates of 1900-9999 that
are not before the first unambiguous day. -/
theorem C08_date_accepted_iff (y m d datemode : Int) :
    (∃ x, xldateFromDateTuple y m d datemode = .ok x) ↔
      (datemode = 0 ∨ datemode = 1) ∧ ((y = 0 ∧ m = 0 ∧ d = 0) ∨
        ∃ Y M D : Nat, y = Y ∧ m = M ∧ d = D ∧ 1900 ≤ Y ∧ Y ≤ 9999 ∧ ValidDate Y M D ∧
          firstSerial (datemode == 1) ≤ serial (datemode == 1) Y M D) := by
  constructor
  · rintro ⟨x, h⟩
    obtain ⟨b, rfl, hc⟩ := fromDate_ok y m d datemode x h
    have hbe : (modeInt b == 1) = b := by cases b <;> rfl
    rw [hbe]
    refine ⟨modeInt_01 b, ?_⟩
    rcases hc with ⟨h1, h2, h3, _⟩ | ⟨Y, M, D, h1, h2, h3, hv, hy1, hy2, hf, _⟩
    · exact .inl ⟨h1, h2, h3⟩
    · exact .inr ⟨Y, M, D, h1, h2, h3, hy1, hy2, hv, hf⟩
  · rintro ⟨hm, h⟩
    obtain ⟨b, rfl⟩ := mode_cases datemode hm
    have hbe : (modeInt b == 1) = b := by cases b <;> rfl
    rw [hbe] at h
    rcases h with ⟨rfl, rfl, rfl⟩ | ⟨Y, M, D, rfl, rfl, rfl, hy1, hy2, hv, hf⟩
    · exact ⟨0, by unfold xldateFromDateTuple; rw [if_neg (not_not.mpr hm), if_pos ⟨rfl, rfl, rfl⟩]⟩
    · have hpos : 0 < firstSerial b := by unfold firstSerial; split <;> omega
      exact ⟨serial b Y M D, by
        rw [fromDate_valid Y M D b hv ⟨hy1, hy2⟩, if_neg (by omega), if_neg (by omega)]⟩

/-- C08: a real date that is rejected is either not after day 0 (bad tuple) or before day 61 of
the 1900 system (ambiguous); anything that is not a real date of 1900-9999 is a bad tuple. -/
theorem C08_date_rejections (Y M D : Nat) (b : Bool) (hv : ValidDate Y M D) (hy : 1900 ≤ Y ∧ Y ≤ 9999) :
    (xldateFromDateTuple Y M D (if b then 1 else 0) = .error .dateBadTuple ↔ serial b Y M D ≤ 0) ∧
    (xldateFromDateTuple Y M D (if b then 1 else 0) = .error .dateAmbiguous ↔
      0 < serial b Y M D ∧ serial b Y M D < firstSerial b) := by
  have h : xldateFromDateTuple Y M D (if b then 1 else 0) = _ := fromDate_valid Y M D b hv hy
  rw [h]
  constructor
  · split_ifs <;> simp <;> omega
  · split_ifs <;> simp <;> omega

/-- C08: anything that is neither `(0,0,0)` nor a real date of 1900-9999 is a bad tuple. -/
theorem C08_not_a_date_is_bad (y m d : Int) (b : Bool) (h0 : ¬ (y = 0 ∧ m = 0 ∧ d = 0))
    (h : ¬ ∃ Y M D : Nat, y = Y ∧ m = M ∧ d = D ∧ 1900 ≤ Y ∧ Y ≤ 9999 ∧ ValidDate Y M D) :
    xldateFromDateTuple y m d (if b then 1 else 0) = .error .dateBadTuple := by
  show xldateFromDateTuple y m d (modeInt b) = _
  unfold xldateFromDateTuple
  rw [if_neg (not_not.mpr (modeInt_01 b)), if_neg h0]
  by_cases hy : 1900 ≤ y ∧ y ≤ 9999
  · rw [if_neg (not_not.mpr hy)]
    by_cases hm : 1 ≤ m ∧ m ≤ 12
    · rw [if_neg (not_not.mpr hm)]
      by_cases hd : (d < 1 ∨ (d > daysInMonthPy m ∧ ¬ (d = 29 ∧ m = 2 ∧ leapPy y = true)))
      · rw [if_pos hd]
      · exfalso
        apply h
        obtain ⟨Y, rfl⟩ : ∃ Y : Nat, y = Y := ⟨y.toNat, by omega⟩
        obtain ⟨M, rfl⟩ : ∃ M : Nat, m = M := ⟨m.toNat, by omega⟩
        obtain ⟨D, rfl⟩ : ∃ D : Nat, d = D := ⟨d.toNat, by omega⟩
        have := (dayCheck_iff Y M D (by omega)).mp hd
        exact ⟨Y, M, D, rfl, rfl, rfl, by omega, by omega, by omega, by omega, this.1, this.2⟩
    · rw [if_pos hm]
  · rw [if_pos hy]

/-- C08: times are accepted exactly in range, and the result is a fraction of a day. -/
theorem C08_time_accepted_iff (h m s : Int) :
    ((∃ x, xldateFromTimeTuple h m s = .ok x) ↔
      0 ≤ h ∧ h < 24 ∧ 0 ≤ m ∧ m < 60 ∧ 0 ≤ s ∧ s < 60) ∧
    (∀ x, xldateFromTimeTuple h m s = .ok x → 0 ≤ x ∧ x < 1) ∧
    (∀ e, xldateFromTimeTuple h m s = .error e → e = .dateBadTuple) := by
  unfold xldateFromTimeTuple
  refine ⟨?_, ?_, ?_⟩
  · split_ifs with hc
    · exact ⟨fun _ => hc, fun _ => ⟨_, rfl⟩⟩
    · constructor
      · rintro ⟨x, hx⟩; cases hx
      · intro h; exact absurd h hc
  · intro x hx
    split_ifs at hx with hc
    injection hx with hx
    obtain ⟨h1, h2, h3, h4, h5, h6⟩ := hc
    have near := time_frac_near h m s ⟨h1, h2⟩ ⟨h3, h4⟩ ⟨h5, h6⟩
    have nn := time_frac_nonneg h m s h1 h3 h5
    rw [hx] at near nn
    refine ⟨nn, ?_⟩
    rw [abs_le] at near
    have : ((3600 * h + 60 * m + s : ℤ) : ℚ) ≤ 86399 := by exact_mod_cast (by omega : 3600 * h + 60 * m + s ≤ 86399)
    linarith
  · intro e he
    split_ifs at he
    injection he with he
    exact he.symm

end Xlrd
