import Verif.Model.XlDate
import Verif.Spec.Calendar

/-!
# Vocabulary for the date properties
-/
namespace Xlrd.Spec

/-- `a < b` in the lexicographic order in which Python compares tuples. -/
def lexLt : List Int → List Int → Prop
  | [], [] => False
  | [], _ :: _ => True
  | _ :: _, [] => False
  | a :: as, b :: bs => a < b ∨ (a = b ∧ lexLt as bs)

/-- The tuple as Python sees it. -/
def comps (t : DateTuple) : List Int := [t.year, t.month, t.day, t.hour, t.minute, t.second]

/-- A tuple whose components are a real time of day. -/
def RealTime (t : DateTuple) : Prop :=
  0 ≤ t.hour ∧ t.hour ≤ 23 ∧ 0 ≤ t.minute ∧ t.minute ≤ 59 ∧ 0 ≤ t.second ∧ t.second ≤ 59

/-- The date part is absent (a pure time of day). -/
def NoDate (t : DateTuple) : Prop := t.year = 0 ∧ t.month = 0 ∧ t.day = 0

/-- The date part is a date of the Gregorian calendar, years 1900 to 9999. -/
def RealDate (t : DateTuple) : Prop :=
  ∃ y m d : Nat, t.year = y ∧ t.month = m ∧ t.day = d ∧ 1900 ≤ y ∧ y ≤ 9999 ∧ ValidDate y m d

/-- Seconds since the day-0 midnight denoted by a tuple (date part absent counts as day 0). -/
def Denotes (mode1904 : Bool) (t : DateTuple) (days secs : Int) : Prop :=
  secs = t.hour * 3600 + t.minute * 60 + t.second ∧
  ((NoDate t ∧ days = 0) ∨
   ∃ y m d : Nat, t.year = y ∧ t.month = m ∧ t.day = d ∧ ValidDate y m d ∧
     days = serial mode1904 y m d)

/-- The day a positive serial falls on after rounding its time of day to the nearest second:
the next day exactly when the (binary64) seconds reach 86399.5. -/
def roundedDay (x : ℚ) : Int :=
  if 86399.5 ≤ fl (fl (x - ⌊x⌋) * 86400) then ⌊x⌋ + 1 else ⌊x⌋

/-- Python's `date(y, m, d).toordinal()`. -/
def ordinal (y m d : Nat) : Int := (dayNumber y m d : Int) - dayNumber 1 1 1 + 1

end Xlrd.Spec
