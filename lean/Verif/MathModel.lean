import Verif.IntModel
/-!
# Model of the integer functions of Math (/repo/DotNetLibrary/src/DotNetMath.cpp)

An argument of an integral type is an integer in the type's range. The eight overloads of Clamp, Max and Min have the same text and
are one definition here. Int8/Int16 operands are promoted to int, which changes no comparison.
-/
namespace Verif.MathModel

/-- DotNetMath.cpp lines 115-162 and 190-237: `Clamp` on SByte, Byte, Int16, UInt16, Int32, UInt32, Int64, UInt64. -/
def clamp (value lo hi : Int) : Res Int :=
  if lo > hi then .throw .minMax else if value < lo then .ok lo else if value > hi then .ok hi else .ok value

/-- Lines 328-330, 340-351, 361-369: `Max`. -/
def maxI (a b : Int) : Int := if a ≥ b then a else b
/-- Lines 383-385, 395-406, 416-424: `Min`. -/
def minI (a b : Int) : Int := if a ≤ b then a else b

/-- Bitwise or of two `w`-bit two's complement integers. -/
def orW (w : Nat) (a b : Int) : Int := (BitVec.ofInt w a ||| BitVec.ofInt w b).toInt

/-- Lines 543-545: `Sign(Int32)`: `value >> 31 | (Int32)((UInt32)-value >> 31)`. `-value` is computed in Int32 (overflow undefined);
the right shift of a negative Int32 is arithmetic. -/
def sign32 (value : Int) : Res Int := do
  let m ← i32 (-value)
  .ok (orW 32 (value / 2147483648) (wrapI32 (wrapU32 m / 2147483648)))

/-- Lines 539-541 and 551-553: `Sign(Int16)`, `Sign(SByte)` widen to Int32. -/
def sign16 (value : Int) : Res Int := sign32 value
def sign8 (value : Int) : Res Int := sign32 value

/-- Lines 547-549: `Sign(Int64)`; `long` is 64 bits wide, the result is narrowed to Int32. -/
def sign64 (value : Int) : Res Int := do
  let m ← i64 (-value)
  .ok (wrapI32 (orW 64 (value / 9223372036854775808) (wrapI64 (wrapU64 m / 9223372036854775808))))

/-- Lines 256-260: `Divide(Int64, Int64)`. A quotient that does not fit is undefined behaviour. -/
def divide64 (a b : Int) : Res Int := if b = 0 then .throw .divideByZero else i64 (a.tdiv b)

/-- Lines 269-275: `DivRem(Int32, Int32, Int32&)`: quotient and remainder. -/
def divRem32 (a b : Int) : Res (Int × Int) := do
  if b = 0 then .throw .divideByZero
  else
    let div ← i32 (a.tdiv b)
    let p ← i32 (div * b)
    let r ← i32 (a - p)
    .ok (div, r)

/-- Lines 276-282: `DivRem(Int64, Int64, Int64&)`. The quotient is stored in an `Int32` before it is used (line 279). -/
def divRem64 (a b : Int) : Res (Int × Int) := do
  if b = 0 then .throw .divideByZero
  else
    let q ← i64 (a.tdiv b)
    let div := wrapI32 q
    let p ← i64 (div * b)
    let r ← i64 (a - p)
    .ok (div, r)

/-- Lines 72-74: `BigMul(Int32, Int32)`: the product in Int64. -/
def bigMul (a b : Int) : Res Int := i64 (a * b)

/-- Lines 36-41, 45-47: `Abs` of Int16, Int32, SByte: `abs(int)`, whose overflow is undefined. The conversion of the result to Double
is not modelled. -/
def abs32 (v : Int) : Res Int := if v < 0 then i32 (-v) else .ok v

end Verif.MathModel
