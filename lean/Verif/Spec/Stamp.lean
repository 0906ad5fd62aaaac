import Verif.Spec.Time

/-!
# What a timestamp text denotes

The timestamps of RFC 3339 with capital `T` and `Z` and no leap second: a date, a time of day, a
fraction of any length or none, and a zone.  The days are counted by the calendar of `Spec.Time`.
-/

namespace Stix.Spec
open Stix

/-- The zone of a timestamp: `Z`, or hours and minutes ahead of UTC or behind it. -/
inductive Zone where
  | utc
  | ahead (hours minutes : Nat)
  | behind (hours minutes : Nat)

/-- Seconds ahead of UTC. -/
def Zone.seconds : Zone → Int
  | .utc => 0
  | .ahead h m => (h * 60 + m) * 60
  | .behind h m => -((h * 60 + m) * 60)

/-- The hours and minutes of a zone are at most these. -/
def Zone.Within (h m : Nat) : Zone → Prop
  | .utc => True
  | .ahead a b => a ≤ h ∧ b ≤ m
  | .behind a b => a ≤ h ∧ b ≤ m

/-- What a timestamp is made of; the fraction by its digits. -/
structure Stamp where
  year : Nat
  month : Nat
  day : Nat
  hour : Nat
  minute : Nat
  second : Nat
  fraction : List Nat
  zone : Zone

/-- The date exists, and the time of day is one. -/
structure Stamp.Valid (x : Stamp) : Prop where
  year : x.year ≤ 9999
  month : 1 ≤ x.month ∧ x.month ≤ 12
  day : 1 ≤ x.day ∧ x.day ≤ daysInMonth x.year x.month
  hour : x.hour ≤ 23
  minute : x.minute ≤ 59
  second : x.second ≤ 59
  fraction : ∀ d ∈ x.fraction, d ≤ 9

/-- The number that decimal digits write. -/
def decimal : List Nat → Nat
  | [] => 0
  | d :: l => d * 10 ^ l.length + decimal l

/-- Seconds since 0000-01-01T00:00:00 on the clock of the zone. -/
def Stamp.clock (x : Stamp) : Nat :=
  (((daysBeforeYear x.year + daysBeforeMonth x.year x.month + (x.day - 1)) * 24 + x.hour) * 60
    + x.minute) * 60 + x.second

/-- The instant in nanoseconds since 0000-01-01T00:00:00Z; what is below a nanosecond is cut off. -/
def Stamp.nanos (x : Stamp) : Int :=
  (x.clock - x.zone.seconds) * 1000000000 +
    (decimal x.fraction * 1000000000 / 10 ^ x.fraction.length : Nat)

/-- Two digits. -/
def two (n : Nat) : Str := [digit (n / 10), digit (n % 10)]

/-- The text of a zone. -/
def Zone.text : Zone → Str
  | .utc => b!"Z"
  | .ahead h m => b!"+" ++ two h ++ b!":" ++ two m
  | .behind h m => b!"-" ++ two h ++ b!":" ++ two m

/-- The text of a timestamp, with this text for the hour and this mark before the fraction. -/
def Stamp.textWith (x : Stamp) (hour : Str) (mark : UInt8) : Str :=
  two (x.year / 100) ++ two (x.year % 100) ++ b!"-" ++ two x.month ++ b!"-" ++ two x.day ++ b!"T" ++
    hour ++ b!":" ++ two x.minute ++ b!":" ++ two x.second ++
    (if x.fraction = [] then [] else mark :: x.fraction.map digit) ++ x.zone.text

/-- The text of a timestamp by RFC 3339: `YYYY-MM-DDThh:mm:ss[.s…](Z|±hh:mm)`. -/
def Stamp.text (x : Stamp) : Str := x.textWith (two x.hour) 46

/-- The texts of a timestamp if an hour below ten may also have one digit, and a comma may stand for
the decimal point. -/
def Stamp.Loose (x : Stamp) (s : Str) : Prop :=
  ∃ hour mark, (hour = two x.hour ∨ x.hour ≤ 9 ∧ hour = [digit x.hour]) ∧ (mark = 46 ∨ mark = 44) ∧
    s = x.textWith hour mark

end Stix.Spec
