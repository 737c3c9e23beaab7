import Verif.TextLemmas
import Verif.IntModel
import Verif.FloatModel
/-!
# Specification: what a constant expression of C++ denotes

Integer literals and floating literals of ISO C++ ([lex.icon], [lex.fcon]) on an LP64 target, unary minus, and the named constants the runtime
library defines (/repo/DotNetLibrary/src/{Byte,SByte,Int16,UInt16,Int32,UInt32,Int64,UInt64,Double,Single}Value.cpp).
-/
namespace Verif.ConstSpec
open IntVal

/-- A typed integer value. -/
structure IVal where
  ty : Ty
  value : Int
  deriving DecidableEq, Repr

/-- The integral promotions ([conv.prom]): everything narrower than `int` becomes `int`. -/
def promote : Ty → Ty
  | .sbyte | .byte | .int16 | .uint16 => .int32
  | t => t

/-- The usual arithmetic conversions on two promoted types ([expr.arith.conv]); a 64-bit signed type holds all 32-bit unsigned values. -/
def common (a b : Ty) : Ty :=
  let a := promote a
  let b := promote b
  if a = .uint64 ∨ b = .uint64 then .uint64
  else if a = .int64 ∨ b = .int64 then .int64
  else if a = .uint32 ∨ b = .uint32 then .uint32
  else .int32

/-- The named integer constants with their declared types. -/
def named : List (WStr × IVal) :=
  [(w "ByteValue::MaxValue", ⟨.byte, 255⟩), (w "SByteValue::MaxValue", ⟨.sbyte, 127⟩), (w "Int16Value::MaxValue", ⟨.int16, 32767⟩),
   (w "Int32Value::MaxValue", ⟨.int32, 2147483647⟩), (w "Int64Value::MaxValue", ⟨.int64, 9223372036854775807⟩),
   (w "UInt16Value::MaxValue", ⟨.uint16, 65535⟩), (w "UInt32Value::MaxValue", ⟨.uint32, 4294967295⟩),
   (w "UInt64Value::MaxValue", ⟨.uint64, 18446744073709551615⟩), (w "SByteValue::MinValue", ⟨.sbyte, -128⟩),
   (w "Int16Value::MinValue", ⟨.int16, -32768⟩), (w "Int32Value::MinValue", ⟨.int32, -2147483648⟩),
   (w "Int64Value::MinValue", ⟨.int64, -9223372036854775808⟩)]

/-- Lookup of a name. -/
def lookup : List (WStr × IVal) → WStr → Option IVal
  | [], _ => none
  | (k, v) :: r, t => if t = k then some v else lookup r t

/-- A decimal (or the octal `0`) integer literal without suffix: its type is the first of `int`, `long` that can hold it. Other octal
literals are not read here. -/
def intLiteral (ds : WStr) : Option IVal :=
  if ds = [] ∨ ds.any (fun c => !isDigit c) then none
  else if ds.head? = some 48 ∧ ds ≠ [48] then none
  else if numeral ds ≤ 2147483647 then some ⟨.int32, numeral ds⟩
  else if numeral ds ≤ 9223372036854775807 then some ⟨.int64, numeral ds⟩
  else none

/-- An integer constant: a named constant, a literal, or a minus sign and a literal. -/
def intConstant : WStr → Option IVal
  | [] => none
  | c :: cs =>
    if c = 45 then (intLiteral cs).map (fun v => ⟨v.ty, -v.value⟩)
    else if isDigit c then intLiteral (c :: cs)
    else lookup named (c :: cs)

/-! ## Floating constants: a decimal number is `m * 10 ^ e` -/

/-- The parts of a floating text: sign, digits before the point, digits after it, exponent (if any: is it negative, and its digits), suffix `F`. -/
structure FParts where
  neg : Bool
  whole : WStr
  frac : Option WStr
  exp : Option (Bool × WStr)
  single : Bool
  deriving DecidableEq, Repr

/-- Digits at the front of a text. -/
def digits : WStr → WStr × WStr
  | [] => ([], [])
  | c :: cs => if isDigit c then (c :: (digits cs).1, (digits cs).2) else ([], c :: cs)

/-- `E`, a sign and digits. -/
def exponent : WStr → Option (Option (Bool × WStr) × WStr)
  | 69 :: 43 :: r => if (digits r).1 = [] then none else some (some (false, (digits r).1), (digits r).2)
  | 69 :: 45 :: r => if (digits r).1 = [] then none else some (some (true, (digits r).1), (digits r).2)
  | 69 :: _ => none
  | r => some (none, r)

/-- Optional suffix. -/
def suffix : WStr → Option Bool
  | [] => some false
  | [70] => some true
  | _ => none

/-- Exponent and suffix after the digits. -/
def finish (neg : Bool) (whole : WStr) (frac : Option WStr) (r : WStr) : Option FParts :=
  (exponent r).bind fun x => (suffix x.2).map fun s => ⟨neg, whole, frac, x.1, s⟩

/-- What follows the digits before the point. -/
def afterWhole (neg : Bool) (whole : WStr) : WStr → Option FParts
  | 46 :: r => if (digits r).1 = [] then none else finish neg whole (some (digits r).1) (digits r).2
  | r => finish neg whole none r

/-- Parse an optionally signed number `d+ [. d+] [E(+|-)d+] [F]`. -/
def parts (t : WStr) : Option FParts :=
  let neg := decide (t.head? = some 45)
  let t := if neg then t.drop 1 else t
  if (digits t).1 = [] then none else afterWhole neg (digits t).1 (digits t).2

/-- The exponent as a number. -/
def expValue : Option (Bool × WStr) → Int
  | none => 0
  | some (false, e) => numeral e
  | some (true, e) => -(numeral e : Int)

/-- The decimal number of the parts as mantissa and power of ten. -/
def FParts.num (p : FParts) : Int × Int :=
  let ds := p.whole ++ p.frac.getD []
  ((if p.neg then -(numeral ds : Int) else numeral ds), expValue p.exp - (p.frac.getD []).length)

/-- It is a floating literal (not an integer literal) in C++ exactly when it has a point or an exponent. -/
def FParts.isFloating (p : FParts) : Bool := p.frac.isSome || p.exp.isSome

/-- `m1 * 10 ^ e1 = m2 * 10 ^ e2` for decimal numbers. -/
def SameNumber (a b : Int × Int) : Prop :=
  a.1 * 10 ^ (a.2 - min a.2 b.2).toNat = b.1 * 10 ^ (b.2 - min a.2 b.2).toNat

end Verif.ConstSpec
