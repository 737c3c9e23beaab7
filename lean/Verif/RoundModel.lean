import Verif.ArithModel
/-!
# Rounding a quotient to a floating-point format (IEEE 754, round to nearest, ties to even), for either format of the library

The same function as ArithModel's `roundMag` (`RoundLemmas.roundMag_dbl`), for any format: the C library's number reading (`swscanf`) and the conversions between Single and Double round
to both. Numbers are counted in units of the format's least positive number.
-/
namespace Verif.Rnd
open Verif.FltModel

/-- The number of fraction bits of a format (52, 23). -/
def fbits (F : Fmt) : Nat := Nat.log2 F.M

/-- The least positive number of the format is `2^-(places F)` (1074, 149). -/
def places (F : Fmt) : Nat := F.I / F.M / 2 - 1 + fbits F

/-- The exponent of the last place kept for the number `n / d`. -/
def lastPlace (F : Fmt) (n d : Nat) : Nat := if n / d < 2 ^ (fbits F + 1) then 0 else Nat.log2 (n / d) - fbits F

/-- The magnitude pattern of the number of the format nearest to `n / d`; infinity when that is beyond the format. -/
def roundMag (F : Fmt) (n d : Nat) : Nat :=
  if F.I ≤ lastPlace F n d * F.M + Arith.rne n (d * 2 ^ lastPlace F n d) then F.I else lastPlace F n d * F.M + Arith.rne n (d * 2 ^ lastPlace F n d)

/-- Sign and magnitude. -/
def pack (F : Fmt) (s : Bool) (m : Nat) : Nat := (if s = true then F.S else 0) + m

end Verif.Rnd
