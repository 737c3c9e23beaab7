import Verif.ArrayModel
/-!
# Model of DoubleValue, SingleValue and the floating-point functions of Math that work on bits or comparisons
(/repo/DotNetLibrary/src/DoubleValue.cpp, SingleValue.cpp, DotNetMath.cpp)

A Double or Single is its IEEE 754 bit pattern, a natural number below 2^64 or 2^32. The C++ operators `<`, `==`, `!=`, `>` on
floating-point values are the IEEE comparisons of the represented numbers (false when a NaN takes part, except `!=`).
`Int64 bits` of the source is the same pattern read as two's complement; the model keeps the unsigned pattern, on which masks and
right shifts followed by a mask give the same bits, and `bits < 0` is "the pattern is at least 2^63".
Floating-point arithmetic (`+ * /`) is modelled in ArithModel; libm is not modelled.
-/
namespace Verif.FltModel

/-- A binary interchange format given by three numbers: `M` = 2^(fraction bits), `I` = pattern of +infinity, `S` = the sign bit. -/
structure Fmt where
  M : Nat
  I : Nat
  S : Nat
  deriving DecidableEq, Repr

/-- binary64 -/
def dbl : Fmt := ⟨0x10000000000000, 0x7FF0000000000000, 0x8000000000000000⟩
/-- binary32 -/
def sgl : Fmt := ⟨0x800000, 0x7F800000, 0x80000000⟩

/-- The pattern without its sign bit. -/
def mag (F : Fmt) (b : Nat) : Nat := b % F.S
/-- The sign bit. -/
def neg (F : Fmt) (b : Nat) : Bool := F.S ≤ b

/-- IEEE 754: a magnitude pattern with exponent field `e` and fraction `f` stands for `f * u` when `e = 0` and
`(M + f) * 2^(e-1) * u` otherwise, `u` being the least positive number. This is the number divided by `u`; for the pattern of
infinity it continues the finite numbers. -/
def magVal (F : Fmt) (m : Nat) : Nat := if m / F.M = 0 then m % F.M else (F.M + m % F.M) * 2 ^ (m / F.M - 1)

/-- The represented number divided by the least positive one; +0 and -0 both 0. -/
def val (F : Fmt) (b : Nat) : Int := if neg F b then -(magVal F (mag F b) : Int) else magVal F (mag F b)

/-- Hardware NaN. -/
def nan (F : Fmt) (b : Nat) : Bool := F.I < mag F b

/-- The C++ operator `<` on floating-point operands. -/
def flt (F : Fmt) (a b : Nat) : Bool := !nan F a && !nan F b && decide (val F a < val F b)
/-- The C++ operator `==`. -/
def feq (F : Fmt) (a b : Nat) : Bool := !nan F a && !nan F b && decide (val F a = val F b)

/-! ## DoubleValue.cpp / SingleValue.cpp -/

/-- DoubleValue.cpp line 25 (`1.797693134862315E+308`): the double nearest to that literal (`FltProps.maxValue_nearest`). -/
def dMaxValue : Nat := 0x7FEFFFFFFFFFFFFB
/-- Line 26, the negative of it. -/
def dMinValue : Nat := 0xFFEFFFFFFFFFFFFB
/-- Line 27 (`4.94065645841247E-324`): the least positive double. -/
def dEpsilon : Nat := 1
/-- Lines 29-30. -/
def posInf (F : Fmt) : Nat := F.I
def negInf (F : Fmt) : Nat := F.S + F.I

/-- DoubleValue.cpp lines 101-103, SingleValue.cpp lines 108-110: `IsNaN`: `v != v`. -/
def isNaN (F : Fmt) (v : Nat) : Bool := !feq F v v

/-- DoubleValue.cpp lines 93-96, SingleValue.cpp 100-103: `IsFinite`. -/
def isFinite (F : Fmt) (v : Nat) : Bool := (v &&& (F.S - 1)) < F.I
/-- DoubleValue.cpp lines 97-100, SingleValue.cpp 104-107: `IsInfinity`. -/
def isInfinity (F : Fmt) (v : Nat) : Bool := (v &&& (F.S - 1)) = F.I
/-- DoubleValue.cpp lines 104-109, SingleValue.cpp 111-116: `IsNegative`. -/
def isNegative (F : Fmt) (v : Nat) : Bool := if isNaN F v then true else F.S ≤ v
/-- DoubleValue.cpp lines 110-112, SingleValue.cpp 117-119: `IsNegativeInfinity`. -/
def isNegativeInfinity (F : Fmt) (v : Nat) : Bool := feq F v (negInf F)
/-- DoubleValue.cpp lines 120-122, SingleValue.cpp 127-129: `IsPositiveInfinity`. -/
def isPositiveInfinity (F : Fmt) (v : Nat) : Bool := feq F v (posInf F)
/-- DoubleValue.cpp lines 113-119, SingleValue.cpp 120-126: `IsNormal`. -/
def isNormal (F : Fmt) (v : Nat) : Bool :=
  if isNaN F v then false
  else (v &&& (F.S - 1)) < F.I && (v &&& (F.S - 1)) ≠ 0 && ((v &&& (F.S - 1)) &&& F.I) ≠ 0
/-- DoubleValue.cpp lines 123-127, SingleValue.cpp 130-134: `IsSubnormal`. -/
def isSubnormal (F : Fmt) (v : Nat) : Bool :=
  (v &&& (F.S - 1)) < F.I && (v &&& (F.S - 1)) ≠ 0 && ((v &&& (F.S - 1)) &&& F.I) = 0

/-- DoubleValue.cpp lines 55-68, SingleValue.cpp 62-75: `CompareTo`. -/
def compareTo (F : Fmt) (value other : Nat) : Int :=
  if flt F value other then -1
  else if flt F other value then 1
  else if feq F value other then 0
  else if isNaN F value then (if isNaN F other then 0 else -1)
  else 1

/-- DoubleValue.cpp lines 87-92, SingleValue.cpp lines 94-99: `Equals`. -/
def equals (F : Fmt) (value other : Nat) : Bool :=
  if feq F other value then true else isNaN F other && isNaN F value

/-- An `Object*` argument as far as the boxed comparisons look at it: null, one of the same class, or another class. -/
inductive Arg
  | null
  | same (v : Nat)
  | other
  deriving DecidableEq, Repr

/-- DoubleValue.cpp lines 69-77, SingleValue.cpp 76-84: `CompareTo(Object*)`. -/
def compareToObj (F : Fmt) (value : Nat) : Arg → Res Int
  | .null => .ok 1
  | .other => .throw .argument
  | .same v => .ok (compareTo F value v)

/-- DoubleValue.cpp lines 78-86, SingleValue.cpp 85-93: `Equals(Object*)`. -/
def equalsObj (F : Fmt) (value : Nat) : Arg → Bool
  | .null => false
  | .other => false
  | .same v => equals F value v

/-! ## DotNetMath.cpp -/

/-- DotNetMath.cpp lines 75-91: `BitDecrement`. -/
def bitDecrement (x : Nat) : Nat :=
  if ((x >>> 32) &&& 0x7FF00000) ≥ 0x7FF00000 then (if x = 0x7FF0000000000000 then dMaxValue else x)
  else if x = 0 then 0x8000000000000000 + dEpsilon
  else if x ≥ 0x8000000000000000 then x + 1 else x - 1

/-- DotNetMath.cpp lines 92-108: `BitIncrement`. -/
def bitIncrement (x : Nat) : Nat :=
  if ((x >>> 32) &&& 0x7FF00000) ≥ 0x7FF00000 then (if x = 0xFFF0000000000000 then dMinValue else x)
  else if x = 0x8000000000000000 then dEpsilon
  else if x ≥ 0x8000000000000000 then x - 1 else x + 1

/-- DotNetMath.cpp lines 163-177: `CopySign`; `(xbits ^ ybits) < 0` is "the sign bits differ". -/
def copySign (x y : Nat) : Nat :=
  let y := if isNaN dbl y then 0x8000000000000000 else y
  if (x ^^^ y) ≥ 0x8000000000000000 then x ^^^ 0x8000000000000000 else x

/-- DotNetMath.cpp lines 178-189 and 238-249: `Clamp(Double)`, `Clamp(Single)`. -/
def clamp (F : Fmt) (value lo hi : Nat) : Res Nat :=
  if flt F hi lo then .throw .minMax
  else if flt F value lo then .ok lo
  else if flt F hi value then .ok hi
  else .ok value

/-- DotNetMath.cpp lines 331-339 and 352-360: `Max(Double)`, `Max(Single)`. -/
def max (F : Fmt) (a b : Nat) : Nat :=
  if flt F b a || isNaN F a then a
  else if feq F a b then (if isNegative F a then b else a)
  else b

/-- DotNetMath.cpp lines 386-394 and 407-415: `Min(Double)`, `Min(Single)`. -/
def min (F : Fmt) (a b : Nat) : Nat :=
  if flt F a b || isNaN F a then a
  else if feq F a b then (if isNegative F a then a else b)
  else b

/-- DotNetMath.cpp lines 33-35: `Abs(Double)`: `fabs` clears the sign bit. -/
def abs (F : Fmt) (a : Nat) : Nat := mag F a

/-- DotNetMath.cpp lines 370-381: `MaxMagnitude`. -/
def maxMagnitude (a b : Nat) : Nat :=
  if flt dbl (abs dbl b) (abs dbl a) || isNaN dbl (abs dbl a) then a
  else if feq dbl (abs dbl a) (abs dbl b) then (if isNegative dbl a then b else a)
  else b

/-- DotNetMath.cpp lines 425-436: `MinMagnitude`. -/
def minMagnitude (a b : Nat) : Nat :=
  if flt dbl (abs dbl a) (abs dbl b) || isNaN dbl (abs dbl a) then a
  else if feq dbl (abs dbl a) (abs dbl b) then (if isNegative dbl a then a else b)
  else b

/-- DotNetMath.cpp lines 526-537, 555-566: `Sign(Double)`, `Sign(Single)`. The constant 0 is +0. -/
def sign (F : Fmt) (v : Nat) : Res Int :=
  if flt F v 0 then .ok (-1) else if flt F 0 v then .ok 1 else if feq F v 0 then .ok 0 else .throw .arithmetic

/-- DotNetMath.cpp lines 261-268: `Divide(Double, Double)` up to line 266; `none` when it goes on to the hardware division. -/
def divideSpecial (v1 v2 : Nat) : Option Nat :=
  if feq dbl v2 0 then (if feq dbl v1 0 then some 0x7FF8000000000000 else some (posInf dbl)) else none

/-- DotNetMath.cpp lines 286-288: `ExtractExponentFromBits`. -/
def extractExponent (bits : Nat) : Nat := (bits >>> 52) &&& 0x7FF
/-- DotNetMath.cpp lines 289-291: `ExtractSignificandFromBits`. -/
def extractSignificand (bits : Nat) : Nat := bits &&& 0x000FFFFFFFFFFFFF

/-- `~m` on a UInt64. -/
def not64 (m : Nat) : Nat := 0xFFFFFFFFFFFFFFFF - m

/-- DotNetMath.cpp lines 441-465: `Round(Double)`. -/
def round (a : Nat) : Nat :=
  let e := extractExponent a
  if e ≤ 0x3FE then
    if (a <<< 1) % 0x10000000000000000 = 0 then a
    else copySign (if e = 0x3FE ∧ extractSignificand a ≠ 0 then 0x3FF0000000000000 else 0) a
  else if e ≥ 0x433 then a
  else
    let last := 1 <<< (0x433 - e)
    let mask := last - 1
    let b := (a + (last >>> 1)) % 0x10000000000000000
    if b &&& mask = 0 then b &&& not64 last else b &&& not64 mask

end Verif.FltModel
