import Verif.ArithModel
/-!
# Model of Math.Abs on Int64 (/repo/DotNetLibrary/src/DotNetMath.cpp)
-/
namespace Verif.MathAbs

/-- DotNetMath.cpp lines 42-44: `Double Abs(Int64 v1) { return abs(v1); }`: `abs(long)`, undefined where the result does not fit, and then the conversion of the Int64 to the Double that is returned. -/
def abs64 (v : Int) : Res Nat := if v = -2 ^ 63 then .ub else .ok (Arith.ofInt (if v < 0 then -v else v))

/-- What `long y = Math.Abs(x)` becomes (MyIlInstructionVisitor.cs lines 1319-1344 write the call as the initialiser or the right side of the assignment): the Double is converted to the Int64 of the variable. -/
def absLong (v : Int) : Res Int := (abs64 v).bind Arith.toI64

end Verif.MathAbs
