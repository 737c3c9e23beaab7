import Verif.FloatExprModel
/-!
# Model of Math.PI, Math.E and Math.Log with a base (/repo/DotNetLibrary/src/DotNetMath.cpp)
-/
namespace Verif.MathConst
open FltModel

/-- DotNetMath.cpp line 22: `Math::PI = 3.14159265358979`. A literal of C++ is rounded like the text of `Parse` (FloatTextModel `place`): to the nearest double. -/
def mathPI : Nat := Rnd.pack dbl false (FloatText.place dbl (.dec 314159265358979 (-14)))
/-- Line 23: `Math::E = 2.71828182845905`. -/
def mathE : Nat := Rnd.pack dbl false (FloatText.place dbl (.dec 271828182845905 (-14)))

/-- The double 1. -/
def one : Nat := 0x3FF0000000000000

/-- Lines 307-321: `Log(a, newBase)`; `log` is the function of the C library. `DoubleValue::NaN` is `NAN` (DoubleValue.cpp line 28). -/
def logBase (log : Nat → Nat) (a newBase : Nat) : Nat :=
  if isNaN dbl a then a
  else if isNaN dbl newBase then newBase
  else if feq dbl newBase one then FloatExpr.NaN dbl
  else if !feq dbl a one && (feq dbl newBase 0 || isPositiveInfinity dbl newBase) then FloatExpr.NaN dbl
  else FloatExpr.div dbl (log a) (log newBase)

end Verif.MathConst
