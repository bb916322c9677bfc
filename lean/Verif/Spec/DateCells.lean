import Verif.Spec.Dates
import Verif.Model.Open

/-!
# Numbers that stand for dates and times (C86)
-/
namespace Xlrd.Spec

/-- A day that has a number of its own in a date system: in the 1900 system from 1900-03-01 on, in the 1904 system from 1904-01-02 on. -/
structure Day (mode1904 : Bool) (y m d : Nat) : Prop where
  valid : ValidDate y m d
  first : 1900 ≤ y
  last : y ≤ 9999
  numbered : firstSerial mode1904 ≤ serial mode1904 y m d

/-- `x` is the number of a day and second, to less than half a second (up to what arithmetic with binary64 numbers loses). -/
def NearSecond (x : ℚ) (day : Int) (second : Nat) : Prop := |x * 86400 - ((day : ℚ) * 86400 + second)| < 1 / 2 - 1 / 2 ^ 34

/-- `x` is the number of a day and millisecond, to less than half a millisecond. -/
def NearMillisecond (x : ℚ) (day : Int) (ms : Nat) : Prop := |x * 86400000 - ((day : ℚ) * 86400000 + ms)| < 1 / 2 - 1 / 2 ^ 24

/-- Hours, minutes and seconds of a second of the day, after a date. -/
def atSecond (y m d second : Nat) : DateTuple := ⟨y, m, d, (second / 3600 : Nat), (second / 60 % 60 : Nat), (second % 60 : Nat)⟩

/-- A sheet shows the number `x` as a date, and converting `x` with the date mode of the book gives exactly the date and time, in the given date system, that it is near to. -/
structure ShowsDate (sh : LSheet) (datemode : Nat) (mode1904 : Bool) (r c : Nat) (x : ℚ) : Prop where
  type : sh.st.store.cellType r c = .ok XL_CELL_DATE
  value : sh.st.store.cellValue r c = .ok (.num (.fin x))
  tuple : ∀ y m d second : Nat, Day mode1904 y m d → second < 86400 → NearSecond x (serial mode1904 y m d) second →
    xldateAsTuple x datemode = .ok (atSecond y m d second)
  datetime : ∀ y m d ms : Nat, Day mode1904 y m d → ms < 86400000 → NearMillisecond x (serial mode1904 y m d) ms →
    xldateAsDatetime x datemode = .ok ⟨ordinal y m d, ms⟩
  time : 0 ≤ x → ∀ second < 86400, NearSecond x 0 second → xldateAsTuple x datemode = .ok (atSecond 0 0 0 second)

end Xlrd.Spec
