/-!
# The Gregorian calendar, by counting days

Independent of the Julian-day formulas of the code.
-/
namespace Xlrd.Spec

def isLeap (y : Nat) : Bool := (y % 4 == 0 && y % 100 != 0) || y % 400 == 0

def yearLen (y : Nat) : Nat := if isLeap y then 366 else 365

def monthLen (y m : Nat) : Nat :=
  match m with
  | 1 => 31 | 2 => if isLeap y then 29 else 28 | 3 => 31 | 4 => 30 | 5 => 31 | 6 => 30
  | 7 => 31 | 8 => 31 | 9 => 30 | 10 => 31 | 11 => 30 | 12 => 31
  | _ => 0

/-- Days in the years `0 .. y-1`. -/
def daysBeforeYear : Nat → Nat
  | 0 => 0
  | y + 1 => daysBeforeYear y + yearLen y

/-- Days in the months `1 .. m-1` of year `y`. -/
def daysBeforeMonth (y : Nat) : Nat → Nat
  | 0 => 0
  | 1 => 0
  | m + 2 => daysBeforeMonth y (m + 1) + monthLen y (m + 1)

/-- A date that exists. -/
def ValidDate (y m d : Nat) : Prop := 1 ≤ m ∧ m ≤ 12 ∧ 1 ≤ d ∧ d ≤ monthLen y m

instance (y m d : Nat) : Decidable (ValidDate y m d) := by unfold ValidDate; infer_instance

/-- Running number of a day; consecutive days have consecutive numbers. -/
def dayNumber (y m d : Nat) : Nat := daysBeforeYear y + daysBeforeMonth y m + d

/-- Excel serial number of a date: day 61 of the 1900 system is 1900-03-01,
day 0 of the 1904 system is 1904-01-01. -/
def serial (mode1904 : Bool) (y m d : Nat) : Int :=
  if mode1904 then (dayNumber y m d : Int) - dayNumber 1904 1 1
  else (dayNumber y m d : Int) - dayNumber 1900 3 1 + 61

/-- First serial that counts as a date in each system. -/
def firstSerial (mode1904 : Bool) : Int := if mode1904 then 1 else 61

/-- First serial after 9999-12-31 in each system. -/
def endSerial (mode1904 : Bool) : Int := serial mode1904 10000 1 1

end Xlrd.Spec
