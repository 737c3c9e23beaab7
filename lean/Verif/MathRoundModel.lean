import Verif.FloatExprModel
/-!
# Model of the floating-point functions of Math that compute: Floor, Ceiling, Truncate, Round with digits, FusedMultiplyAdd, IEEERemainder, ILogB, ScaleB
(/repo/DotNetLibrary/src/DotNetMath.cpp)

The functions of the C library they call (`floor`, `ceil`, `trunc`, `modf`, `remainder`, `logb`, `scalbn`) are modelled after ISO C annex F; doubles are bit patterns as in FloatModel, arithmetic is FloatExprModel's.
-/
namespace Verif.MathRound
open Verif.FltModel Verif.Rnd

/-- The whole number `±n` as a double. -/
def whole (s : Bool) (n : Nat) : Nat := pack dbl s (roundMag dbl (n * 2 ^ places dbl) 1)

/-- The integer part of the absolute value, downwards and upwards. -/
def down (a : Nat) : Nat := magVal dbl (mag dbl a) / 2 ^ places dbl
def up (a : Nat) : Nat := (magVal dbl (mag dbl a) + 2 ^ places dbl - 1) / 2 ^ places dbl

/-- DotNetMath.cpp lines 588-590: `Truncate`: `trunc`. NaN and infinities are returned. -/
def truncate (a : Nat) : Nat := if dbl.I ≤ mag dbl a then a else whole (neg dbl a) (down a)

/-- DotNetMath.cpp lines 292-294: `Floor`: `floor`. -/
def floor (a : Nat) : Nat := if dbl.I ≤ mag dbl a then a else whole (neg dbl a) (if neg dbl a = true then up a else down a)

/-- DotNetMath.cpp lines 112-114: `Ceiling`: `ceil`. -/
def ceiling (a : Nat) : Nat := if dbl.I ≤ mag dbl a then a else whole (neg dbl a) (if neg dbl a = true then down a else up a)

/-- `modf(a, &i)` of a finite number: the fraction, with the sign of the argument (the integer part is `truncate a`). -/
def fraction (a : Nat) : Nat := pack dbl (neg dbl a) (roundMag dbl (magVal dbl (mag dbl a) % 2 ^ places dbl) 1)

/-- `roundPower10Double`, lines 30-31: the literals `1E0` to `1E15`, all doubles. -/
def power10 (digits : Nat) : Nat := FloatExpr.ofInt dbl (10 ^ digits)

/-- `doubleRoundLimit`, line 29: `1e+16`. -/
def roundLimit : Nat := FloatExpr.ofInt dbl (10 ^ 16)

/-- Lines 484-491: mode AwayFromZero of line 482: `Double fraction = modf(value, &value); if (Abs(fraction) >= 0.5) value += Sign(fraction);`. -/
def away (v : Nat) : Res Nat :=
  if flt dbl (FltModel.abs dbl (fraction v)) 0x3FE0000000000000 || isNaN dbl (fraction v) then .ok (truncate v)
  else match sign dbl (fraction v) with
    | .ok s => .ok (FloatExpr.add dbl (truncate v) (FloatExpr.ofInt dbl s))
    | .throw e => .throw e
    | .ub => .ub

/-- Lines 477-516: the `switch`. -/
def roundMode (mode : Int) (v : Nat) : Res Nat :=
  if mode = 0 then .ok (round v)
  else if mode = 1 then away v
  else if mode = 2 then .ok (truncate v)
  else if mode = 3 then .ok (floor v)
  else if mode = 4 then .ok (ceiling v)
  else .throw .argument

/-- Lines 471-519: `Round(Double, Int32, MidpointRounding)`. -/
def roundDigits (value : Nat) (digits mode : Int) : Res Nat :=
  if digits < 0 ∨ digits > 15 then .throw .argumentOutOfRange
  else if mode < 0 ∨ mode > 4 then .throw .argument
  else if flt dbl (FltModel.abs dbl value) roundLimit then
    match roundMode mode (FloatExpr.mul dbl value (power10 digits.toNat)) with
    | .ok v => .ok (FloatExpr.div dbl v (power10 digits.toNat))
    | .throw e => .throw e
    | .ub => .ub
  else .ok value

/-- Lines 467-469: `Round(Double, Int32)`. -/
def roundDigits2 (value : Nat) (digits : Int) : Res Nat := roundDigits value digits 0

/-- Lines 295-297: `FusedMultiplyAdd`. -/
def fusedMultiplyAdd (x y z : Nat) : Nat := FloatExpr.add dbl (FloatExpr.mul dbl x y) z

/-- Lines 298-300: `IEEERemainder`: `remainder` (annex F.10.7.2): `x - n y` where `n` is the integer nearest to `x / y`, even in the case of a tie; a zero result has the sign of `x`; NaN for an infinite `x` or a zero `y`; `x` when
`y` is infinite. -/
def ieeeRemainder (x y : Nat) : Nat :=
  if (nan dbl x || nan dbl y) = true then FloatExpr.NaN dbl
  else if mag dbl x = dbl.I ∨ mag dbl y = 0 then FloatExpr.NaN dbl
  else if mag dbl y = dbl.I then x
  else
    let a := magVal dbl (mag dbl x)
    let b := magVal dbl (mag dbl y)
    let r := (a : Int) - Arith.rne a b * b
    if r < 0 then pack dbl (!neg dbl x) (roundMag dbl r.natAbs 1) else pack dbl (neg dbl x) (roundMag dbl r.natAbs 1)

/-- Lines 301-303: `ILogB`: `logb` (F.10.3.11), its result converted to Int32: undefined for the infinities of a zero or infinite argument and for NaN. The exponent of the most significant bit otherwise. -/
def iLogB (x : Nat) : Res Int :=
  if dbl.I ≤ mag dbl x ∨ mag dbl x = 0 then .ub else .ok ((Nat.log2 (magVal dbl (mag dbl x)) : Int) - places dbl)

/-- Lines 522-524: `ScaleB`: `scalbn` (F.10.3.19): `x * 2^n`, rounded once. -/
def scaleB (x : Nat) (n : Int) : Nat :=
  if nan dbl x = true then FloatExpr.NaN dbl
  else if mag dbl x = dbl.I then x
  else pack dbl (neg dbl x) (if n < 0 then roundMag dbl (magVal dbl (mag dbl x)) (2 ^ n.natAbs) else roundMag dbl (magVal dbl (mag dbl x) * 2 ^ n.natAbs) 1)

end Verif.MathRound
