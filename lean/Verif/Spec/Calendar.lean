import Verif.Model.DateTime
/-!
# Specification: the proleptic Gregorian calendar

Years, months and days are counted as usual (there is a year 0, before it are negative years). Nothing in
this file refers to the algorithms of the model.
-/
namespace Fundu.Spec

/-- every fourth year is a leap year, except for full centuries not divisible by 400 -/
def isLeap (y : Int) : Bool := decide (y % 4 = 0) && (decide (y % 100 ≠ 0) || decide (y % 400 = 0))

/-- the number of days of a month -/
def monthDays (y : Int) : Nat → Nat
  | 1 => 31
  | 2 => if isLeap y then 29 else 28
  | 3 => 31
  | 4 => 30
  | 5 => 31
  | 6 => 30
  | 7 => 31
  | 8 => 31
  | 9 => 30
  | 10 => 31
  | 11 => 30
  | 12 => 31
  | _ => 0

/-- the number of days of a year -/
def yearDays (y : Int) : Int := if isLeap y then 366 else 365

/-- there is such a date -/
def ValidDate (y : Int) (m d : Nat) : Prop := 1 ≤ m ∧ m ≤ 12 ∧ 1 ≤ d ∧ d ≤ monthDays y m
instance (y : Int) (m d : Nat) : Decidable (ValidDate y m d) := by unfold ValidDate; infer_instance

/-- there is such a time of day -/
def ValidTime (h m s n : Nat) : Prop := h < 24 ∧ m < 60 ∧ s < 60 ∧ n < 1000000000
instance (h m s n : Nat) : Decidable (ValidTime h m s n) := by unfold ValidTime; infer_instance

/-- the day after a date -/
def nextDay (y : Int) (m d : Nat) : Int × Nat × Nat :=
  if d < monthDays y m then (y, m, d + 1)
  else if m < 12 then (y, m + 1, 1)
  else (y + 1, 1, 1)

/-- the number of days of the years `0, ..., n - 1` -/
def daysForward : Nat → Int
  | 0 => 0
  | n + 1 => daysForward n + yearDays n

/-- the number of days of the years `-n, ..., -1` -/
def daysBackward : Nat → Int
  | 0 => 0
  | n + 1 => daysBackward n + yearDays (-((n : Int) + 1))

/-- the number of days from January 1 of the year 0 to January 1 of the year `y` -/
def daysToYear (y : Int) : Int :=
  if 0 ≤ y then daysForward y.toNat else -daysBackward (-y).toNat

/-- the number of days of the first `m` months of a year -/
def daysOfMonths (y : Int) : Nat → Int
  | 0 => 0
  | m + 1 => daysOfMonths y m + monthDays y (m + 1)

/-- the Julian day number of a date: January 1 of the year 0 is day 1721060 -/
def dayNumber (y : Int) (m d : Nat) : Int :=
  1721060 + daysToYear y + daysOfMonths y (m - 1) + ((d : Int) - 1)

/-- the number of nanoseconds of a day -/
def dayNanos : Int := 24 * 60 * 60 * 10 ^ 9

/-- the instant a date and time stands for: the number of nanoseconds since the start of day 0 -/
def instant (dt : DateTime) : Int := dt.days * dayNanos + dt.time

/-- the time of day of a `DateTime` is less than 24 hours, its day is an `i64` -/
def DateTimeOk (dt : DateTime) : Prop := IsI64 dt.days ∧ (dt.time : Int) < dayNanos
instance (dt : DateTime) : Decidable (DateTimeOk dt) := by unfold DateTimeOk; infer_instance

end Fundu.Spec
