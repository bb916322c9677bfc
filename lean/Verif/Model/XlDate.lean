import Verif.Model.Py
import Verif.Model.Float

/-!
# Dates: `xlrd/xldate.py`

Serial numbers are finite binary64 values, represented by their rational value; each float
operation of the code is followed by `fl`.  `datemode` is an integer.
-/
namespace Xlrd

/-- xldate.py 23 `_JDN_delta = (2415080 - 61, 2416482 - 1)` (mode is 0 or 1 when indexed). -/
def jdnDelta (datemode : Int) : Int := if datemode = 0 then 2415080 - 61 else 2416482 - 1

/-- xldate.py 32 `_XLDAYS_TOO_LARGE`. -/
def xldaysTooLarge (datemode : Int) : Int := if datemode = 0 then 2958466 else 2958466 - 1462

/-- The six-component tuple `(year, month, day, hour, minute, second)`. -/
structure DateTuple where
  year : Int
  month : Int
  day : Int
  hour : Int
  minute : Int
  second : Int
  deriving DecidableEq, Repr

/-- xldate.py 117-127: Gregorian date of a Julian day number. -/
def civilOfJdn (jdn : Int) : Int × Int × Int :=
  let yreg := ((((jdn * 4 + 274277) / 146097) * 3 / 4) + jdn + 1363) * 4 + 3
  let mp := ((yreg % 1461) / 4) * 535 + 333
  let d := ((mp % 16384) / 535) + 1
  let mp := mp / 16384                       -- mp >>= 14
  if mp ≥ 10 then (yreg / 1461 - 4715, mp - 9, d)
  else (yreg / 1461 - 4716, mp + 3, d)

/-- xldate.py 59-127 `xldate_as_tuple`. -/
def xldateAsTuple (xldate : ℚ) (datemode : Int) : R DateTuple :=
  if ¬ (datemode = 0 ∨ datemode = 1) then .error .dateBadMode
  else if xldate = 0 then .ok ⟨0, 0, 0, 0, 0, 0⟩
  else if xldate < 0 then .error .dateNegative
  else do
    let xldays := truncQ xldate
    let frac := fl (xldate - xldays)
    let seconds := rne (fl (frac * 86400))
    pyAssert (decide (0 ≤ seconds ∧ seconds ≤ 86400))
    let (hour, minute, second, xldays) :=
      if seconds = 86400 then ((0 : Int), (0 : Int), (0 : Int), xldays + 1)
      else (seconds / 60 / 60, seconds / 60 % 60, seconds % 60, xldays)
    if xldays ≥ xldaysTooLarge datemode then .error .dateTooLarge
    else if xldays = 0 then .ok ⟨0, 0, 0, hour, minute, second⟩
    else if xldays < 61 ∧ datemode = 0 then .error .dateAmbiguous
    else
      let (y, m, d) := civilOfJdn (xldays + jdnDelta datemode)
      .ok ⟨y, m, d, hour, minute, second⟩

/-- A `datetime.datetime`, as the proleptic Gregorian ordinal of its day
(`date.toordinal()`, 1 = 0001-01-01) and milliseconds since midnight. -/
structure DateTime where
  ordinal : Int
  ms : Int
  deriving DecidableEq, Repr

/-- Ordinals of the epochs of xldate.py 27-29: 1904-01-01, 1899-12-31, 1899-12-30. -/
def epoch1904 : Int := 695056
def epoch1900 : Int := 693595
def epoch1900m1 : Int := 693594

/-- `epoch + datetime.timedelta(days, seconds, 0, milliseconds)`: normalisation of `datetime`,
OverflowError outside 0001-01-01 .. 9999-12-31. -/
def addDelta (epoch days seconds ms : Int) : R DateTime :=
  let total := seconds * 1000 + ms
  let ord := epoch + days + total / 86400000
  if 1 ≤ ord ∧ ord ≤ 3652059 then .ok ⟨ord, total % 86400000⟩ else .error .overflow

/-- xldate.py 130-159 `xldate_as_datetime`. -/
def xldateAsDatetime (xldate : ℚ) (datemode : Int) : R DateTime :=
  let epoch :=
    if datemode ≠ 0 then epoch1904
    else if xldate < 60 then epoch1900 else epoch1900m1
  let days := truncQ xldate
  let fraction := fl (xldate - days)
  let seconds := rne (fl (fraction * 86400000))
  let (seconds, milliseconds) := (seconds / 1000, seconds % 1000)
  addDelta epoch days seconds milliseconds

/-- xldate.py 164-168 `_leap`. -/
def leapPy (y : Int) : Bool :=
  if y % 4 ≠ 0 then false
  else if y % 100 ≠ 0 then true
  else if y % 400 ≠ 0 then false
  else true

/-- xldate.py 170 `_days_in_month` (index 0, Python `None`, is never used). -/
def daysInMonthPy (m : Int) : Int :=
  match m with
  | 1 => 31 | 2 => 28 | 3 => 31 | 4 => 30 | 5 => 31 | 6 => 30
  | 7 => 31 | 8 => 31 | 9 => 30 | 10 => 31 | 11 => 30 | 12 => 31
  | _ => 0

/-- xldate.py 202-210: Julian day number of a Gregorian date. -/
def jdnOfCivil (year month day : Int) : Int :=
  let (yp, mp) :=
    if month ≤ 2 then (year + 4716 - 1, month + 9) else (year + 4716, month - 3)
  (1461 * yp / 4) + ((979 * mp + 16) / 32) + day - 1364 - (((yp + 184) / 100) * 3 / 4)

/-- xldate.py 173-217 `xldate_from_date_tuple`. `float(xldays)` is exact here. -/
def xldateFromDateTuple (year month day : Int) (datemode : Int) : R ℚ :=
  if ¬ (datemode = 0 ∨ datemode = 1) then .error .dateBadMode
  else if year = 0 ∧ month = 0 ∧ day = 0 then .ok 0
  else if ¬ (1900 ≤ year ∧ year ≤ 9999) then .error .dateBadTuple
  else if ¬ (1 ≤ month ∧ month ≤ 12) then .error .dateBadTuple
  else if day < 1 ∨ (day > daysInMonthPy month ∧ ¬ (day = 29 ∧ month = 2 ∧ leapPy year = true)) then
    .error .dateBadTuple
  else
    let xldays := jdnOfCivil year month day - jdnDelta datemode
    if xldays ≤ 0 then .error .dateBadTuple
    else if xldays < 61 ∧ datemode = 0 then .error .dateAmbiguous
    else .ok (fl xldays)

/-- xldate.py 220-233 `xldate_from_time_tuple` (integer components). -/
def xldateFromTimeTuple (hour minute second : Int) : R ℚ :=
  if 0 ≤ hour ∧ hour < 24 ∧ 0 ≤ minute ∧ minute < 60 ∧ 0 ≤ second ∧ second < 60 then
    .ok (fl (fl (fl (fl (fl ((second : ℚ) / 60) + minute) / 60) + hour) / 24))
  else .error .dateBadTuple

/-- xldate.py 236-248 `xldate_from_datetime_tuple`. -/
def xldateFromDatetimeTuple (t : DateTuple) (datemode : Int) : R ℚ := do
  let a ← xldateFromDateTuple t.year t.month t.day datemode
  let b ← xldateFromTimeTuple t.hour t.minute t.second
  pure (fl (a + b))

end Xlrd
