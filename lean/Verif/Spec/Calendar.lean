/-!
# Proleptic Gregorian calendar, independently of the model
-/

namespace Fileid.Spec

/-- Gregorian leap-year rule. -/
def isLeap (y : Nat) : Bool := y % 4 == 0 && (y % 100 != 0 || y % 400 == 0)

/-- Number of days of a year. -/
def yearDays (y : Nat) : Nat := if isLeap y then 366 else 365

/-- Number of days of month `m` (1..12) of year `y`; 0 for other values of `m`. -/
def monthDays (y m : Nat) : Nat :=
  match m with
  | 1 => 31 | 2 => if isLeap y then 29 else 28 | 3 => 31 | 4 => 30 | 5 => 31 | 6 => 30
  | 7 => 31 | 8 => 31 | 9 => 30 | 10 => 31 | 11 => 30 | 12 => 31 | _ => 0

/-- Total number of days of the `n` years starting with year `y`. -/
def daysOfYears (y : Nat) : Nat → Nat
  | 0 => 0
  | n + 1 => daysOfYears y n + yearDays (y + n)

/-- Total number of days of months `1 .. n` of year `y`. -/
def daysOfMonths (y : Nat) : Nat → Nat
  | 0 => 0
  | n + 1 => daysOfMonths y n + monthDays y (n + 1)

/-- A calendar date with time of day. -/
structure DateTime where
  year : Nat
  mon : Nat
  day : Nat
  hour : Nat
  min : Nat
  sec : Nat
  deriving DecidableEq, Repr

/-- The date and time exist in the calendar (from year 1601 on). -/
def DateTime.Valid (d : DateTime) : Prop :=
  1601 ≤ d.year ∧ 1 ≤ d.mon ∧ d.mon ≤ 12 ∧ 1 ≤ d.day ∧ d.day ≤ monthDays d.year d.mon ∧
  d.hour < 24 ∧ d.min < 60 ∧ d.sec < 60

instance (d : DateTime) : Decidable d.Valid := by unfold DateTime.Valid; infer_instance

/-- Seconds from 1601-01-01 00:00:00 to `d`. -/
def DateTime.secondsSince1601 (d : DateTime) : Nat :=
  (daysOfYears 1601 (d.year - 1601) + daysOfMonths d.year (d.mon - 1) + (d.day - 1)) * 86400 +
    d.hour * 3600 + d.min * 60 + d.sec

end Fileid.Spec
