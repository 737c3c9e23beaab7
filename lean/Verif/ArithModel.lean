import Verif.FloatModel
/-!
# Model of C++ arithmetic on doubles (IEEE 754 binary64, round to nearest, ties to even)

The library's date and time functions compute with doubles (TimeSpanValue.cpp lines 68-87, 124-135, 193-228; DateTimeValue.cpp lines 108-127, 193-195). The operators themselves are the platform's: this file
is what ISO/IEC 60559 (which C++ implementations on the supported platforms follow) says they do. A double is its bit pattern (FloatModel); numbers are counted in units of the least positive double, 2^-1074.
`ArithLemmas.roundMag_nearest` shows that the rounding function below gives the nearest double.
-/
namespace Verif.Arith
open Verif.FltModel

/-- The number 1 in units of the least positive double. -/
def unit : Nat := 2 ^ 1074

/-- The quotient `n / d` rounded to the nearest integer, ties to even. -/
def rne (n d : Nat) : Nat :=
  if 2 * (n % d) < d then n / d else if d < 2 * (n % d) then n / d + 1 else if n / d % 2 = 0 then n / d else n / d + 1

/-- The exponent of the last place kept for the number `n / d`. -/
def lastPlace (n d : Nat) : Nat := if n / d < 2 ^ 53 then 0 else Nat.log2 (n / d) - 52

/-- The magnitude pattern of the double nearest to `n / d`; infinity when that is beyond the doubles. -/
def roundMag (n d : Nat) : Nat :=
  if dbl.I ≤ lastPlace n d * dbl.M + rne n (d * 2 ^ lastPlace n d) then dbl.I else lastPlace n d * dbl.M + rne n (d * 2 ^ lastPlace n d)

/-- Sign and magnitude. -/
def pack (s : Bool) (m : Nat) : Nat := (if s = true then 0x8000000000000000 else 0) + m

/-- The NaN an invalid operation gives. -/
def NaN : Nat := 0x7FF8000000000000

/-- `a * b`. -/
def mul (a b : Nat) : Nat :=
  if nan dbl a || nan dbl b then NaN
  else if mag dbl a = dbl.I ∨ mag dbl b = dbl.I then
    (if mag dbl a = 0 ∨ mag dbl b = 0 then NaN else pack (neg dbl a != neg dbl b) dbl.I)
  else pack (neg dbl a != neg dbl b) (roundMag (magVal dbl (mag dbl a) * magVal dbl (mag dbl b)) unit)

/-- `a / b`. -/
def div (a b : Nat) : Nat :=
  if nan dbl a || nan dbl b then NaN
  else if mag dbl a = dbl.I then (if mag dbl b = dbl.I then NaN else pack (neg dbl a != neg dbl b) dbl.I)
  else if mag dbl b = dbl.I then pack (neg dbl a != neg dbl b) 0
  else if mag dbl b = 0 then (if mag dbl a = 0 then NaN else pack (neg dbl a != neg dbl b) dbl.I)
  else pack (neg dbl a != neg dbl b) (roundMag (magVal dbl (mag dbl a) * unit) (magVal dbl (mag dbl b)))

/-- `a + b`. -/
def add (a b : Nat) : Nat :=
  if nan dbl a || nan dbl b then NaN
  else if mag dbl a = dbl.I then (if mag dbl b = dbl.I ∧ neg dbl a ≠ neg dbl b then NaN else a)
  else if mag dbl b = dbl.I then b
  else if val dbl a + val dbl b = 0 then (if neg dbl a && neg dbl b then pack true 0 else 0)
  else pack (decide (val dbl a + val dbl b < 0)) (roundMag (val dbl a + val dbl b).natAbs 1)

/-- `(Double) i` for an integer. -/
def ofInt (i : Int) : Nat := pack (decide (i < 0)) (roundMag (i.natAbs * unit) 1)

/-- `(Int64) a`: the fraction is dropped; undefined when the result does not fit (C++11 4.9). -/
def toI64 (a : Nat) : Res Int :=
  if dbl.I ≤ mag dbl a then .ub
  else if -2 ^ 63 ≤ (val dbl a).tdiv unit ∧ (val dbl a).tdiv unit < 2 ^ 63 then .ok ((val dbl a).tdiv unit) else .ub

end Verif.Arith
