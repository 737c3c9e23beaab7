/-!
# Specification: the proleptic Gregorian calendar

Independent of the library: years, months and days are natural numbers and days are counted by recursion.
-/
namespace Verif.Calendar

/-- Gregorian leap years. -/
def Leap (y : Nat) : Prop := (y % 4 = 0 ∧ y % 100 ≠ 0) ∨ y % 400 = 0

instance (y : Nat) : Decidable (Leap y) := by unfold Leap; infer_instance

/-- Length of a month (0 for numbers that are not months). -/
def monthLen (y m : Nat) : Nat :=
  match m with
  | 1 => 31 | 2 => if Leap y then 29 else 28 | 3 => 31 | 4 => 30 | 5 => 31 | 6 => 30
  | 7 => 31 | 8 => 31 | 9 => 30 | 10 => 31 | 11 => 30 | 12 => 31 | _ => 0

/-- Length of a year. -/
def yearLen (y : Nat) : Nat := if Leap y then 366 else 365

/-- Days in the years `1 .. y`. -/
def daysInYears : Nat → Nat
  | 0 => 0
  | y + 1 => daysInYears y + yearLen (y + 1)

/-- Days in the months `1 .. m` of year `y`. -/
def daysInMonths (y : Nat) : Nat → Nat
  | 0 => 0
  | m + 1 => daysInMonths y m + monthLen y (m + 1)

/-- A date of the years 1..9999. -/
def ValidDate (y m d : Int) : Prop :=
  1 ≤ y ∧ y ≤ 9999 ∧ 1 ≤ m ∧ m ≤ 12 ∧ 1 ≤ d ∧ d ≤ monthLen y.toNat m.toNat

instance (y m d : Int) : Decidable (ValidDate y m d) := by unfold ValidDate; infer_instance

/-- Number of days that precede the date `y-m-d`, counted from 0001-01-01. -/
def dayNumber (y m d : Int) : Nat :=
  daysInYears (y.toNat - 1) + daysInMonths y.toNat (m.toNat - 1) + (d.toNat - 1)

/-- Ticks (100 ns) in one day. -/
def ticksPerDay : Int := 24 * 60 * 60 * 10000000

/-- The representable instants: ticks of the years 1..9999. -/
def InRange (t : Int) : Prop := 0 ≤ t ∧ t < daysInYears 9999 * ticksPerDay

instance (t : Int) : Decidable (InRange t) := by unfold InRange; infer_instance

end Verif.Calendar
