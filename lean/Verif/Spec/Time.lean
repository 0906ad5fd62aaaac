import Verif.Model.Basic

/-!
# Calendar specification

The Gregorian calendar by counting days year by year and month by month, and the STIX
timestamp text; independent of the algorithms in the model.
-/

namespace Stix.Spec
open Stix

/-- Leap years of the Gregorian calendar. -/
def LeapYear (y : Nat) : Prop := 4 ∣ y ∧ (¬ 100 ∣ y ∨ 400 ∣ y)

instance (y : Nat) : Decidable (LeapYear y) := inferInstanceAs (Decidable (_ ∧ _))

/-- Days in a month (1 to 12) of a year. -/
def daysInMonth (y m : Nat) : Nat :=
  match m with
  | 2 => if LeapYear y then 29 else 28
  | 4 | 6 | 9 | 11 => 30
  | _ => 31

/-- Days in the years before `y`, from year 0. -/
def daysBeforeYear : Nat → Nat
  | 0 => 0
  | y + 1 => daysBeforeYear y + (if LeapYear y then 366 else 365)

/-- Days in the months before month `m` (counted from 1) of year `y`. -/
def daysBeforeMonth (y : Nat) : Nat → Nat
  | 0 => 0
  | 1 => 0
  | m + 2 => daysBeforeMonth y (m + 1) + daysInMonth y (m + 1)

/-- A calendar date and time of day with milliseconds. -/
structure Civil where
  year : Nat
  month : Nat
  day : Nat
  hour : Nat
  minute : Nat
  second : Nat
  milli : Nat

/-- All fields are in range. -/
structure Civil.Valid (c : Civil) : Prop where
  year : c.year ≤ 9999
  month : 1 ≤ c.month ∧ c.month ≤ 12
  day : 1 ≤ c.day ∧ c.day ≤ daysInMonth c.year c.month
  hour : c.hour ≤ 23
  minute : c.minute ≤ 59
  second : c.second ≤ 59
  milli : c.milli ≤ 999

/-- Milliseconds since 0000-01-01T00:00:00Z. -/
def Civil.millis (c : Civil) : Nat :=
  ((((daysBeforeYear c.year + daysBeforeMonth c.year c.month + (c.day - 1)) * 24 + c.hour) * 60
    + c.minute) * 60 + c.second) * 1000 + c.milli

/-- The ASCII digit of `n`, for `n` below ten. -/
def digit (n : Nat) : UInt8 := (48 + n).toUInt8

/-- `YYYY-MM-DDThh:mm:ss.mmmZ` -/
def Civil.text (c : Civil) : Str :=
  [digit (c.year / 1000), digit (c.year / 100 % 10), digit (c.year / 10 % 10), digit (c.year % 10),
   45, digit (c.month / 10), digit (c.month % 10), 45, digit (c.day / 10), digit (c.day % 10),
   84, digit (c.hour / 10), digit (c.hour % 10), 58, digit (c.minute / 10), digit (c.minute % 10),
   58, digit (c.second / 10), digit (c.second % 10), 46, digit (c.milli / 100),
   digit (c.milli / 10 % 10), digit (c.milli % 10), 90]

end Stix.Spec
