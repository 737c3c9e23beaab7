import Verif.IntModel
import Verif.FloatExprModel
/-!
# Model: boxing and unboxing

CppTranslator/MyIlInstructionVisitor.cs lines 152-164, 387-393 (`box`: `(new TValue(e))`) and 1383-1398 (`unbox.any`: `e->get_AsT()`), and the `get_As...` members
of DotNetLibrary/src/*Value.cpp and Object.cpp lines 47-88. Conversions to `Single` and `Double` are IEEE 754's (FloatExprModel).
-/
namespace Verif.Box
open Verif.IntVal (Ty)
open Verif.FltModel (Fmt dbl sgl)

/-- The types that can be boxed and unboxed; `other` is the n-th reference type. -/
inductive BTy where
  | bool | char | int (t : Ty) | single | double | dateTime | timeSpan | other (n : Nat)
deriving DecidableEq, Repr

/-- A boxed value: type and value (a truth value as 0 or 1, a floating-point number as its bit pattern, a time as its ticks). -/
structure Boxed where
  type : BTy
  value : Int
deriving DecidableEq, Repr

/-- `(Char) v`: `Char` is `wchar_t` (DotnetTypes.h line 40), 32 bits and signed or 16 bits and unsigned. -/
def charWrap (wide : Bool) (v : Int) : Int := if wide then wrapI32 v else wrapU16 v

/-- The smallest positive number is `2 ^ -unit`. -/
def unit (F : Fmt) : Nat := if F = dbl then 1074 else 149

/-- `(T) value` from a floating-point number: the fraction is dropped; undefined when the result does not fit (C++11 4.9). -/
def truncTo (F : Fmt) (t : Ty) (bits : Int) : Res Int :=
  let m := (FltModel.mag F bits.toNat)
  if F.I ≤ m then .ub else
  let v := (FltModel.val F bits.toNat).tdiv (2 ^ unit F)
  if t.min ≤ v ∧ v ≤ t.max then .ok v else .ub

/-- DoubleValue.cpp lines 31-54, SingleValue.cpp lines 38-61; the conversions not defined there are Object.cpp's, which throw. -/
def floatAs (F : Fmt) (bits : Int) : BTy → Res Int
  | .int .byte => .throw .invalidCast
  | .int .sbyte => .throw .invalidCast
  | .int t => truncTo F t bits
  | .single => .ok (if F = sgl then bits else FloatExpr.conv sgl F bits.toNat)
  | .double => .ok (if F = dbl then bits else FloatExpr.conv dbl F bits.toNat)
  | _ => .throw .invalidCast

/-- BooleanValue.cpp lines 27-61. -/
def boolAs (v : Int) : BTy → Res Int
  | .bool => .ok v
  | .int _ => .ok (if v ≠ 0 then 1 else 0)
  | _ => .throw .invalidCast

/-- CharValue.cpp lines 25-57. -/
def charAs (v : Int) : BTy → Res Int
  | .char => .ok v
  | .int t => .ok (t.wrap v)
  | .single => .ok (FloatExpr.ofInt sgl v)
  | .double => .ok (FloatExpr.ofInt dbl v)
  | _ => .throw .invalidCast

/-- ByteValue.cpp lines 24-59 and alike SByteValue.cpp, Int16Value.cpp, UInt16Value.cpp, Int32Value.cpp, UInt32Value.cpp, Int64Value.cpp, UInt64Value.cpp. -/
def intAs (wide : Bool) (v : Int) : BTy → Res Int
  | .bool => .ok (if v ≠ 0 then 1 else 0)
  | .char => .ok (charWrap wide v)
  | .int t => .ok (t.wrap v)
  | .single => .ok (FloatExpr.ofInt sgl v)
  | .double => .ok (FloatExpr.ofInt dbl v)
  | _ => .throw .invalidCast

/-- `get_AsT()` of a boxed value; DateTimeValue.cpp 370-372, TimeSpanValue.cpp 88-90; everything else is Object.cpp lines 47-88, which throws. -/
def getAs (wide : Bool) (b : Boxed) (t : BTy) : Res Int :=
  match b.type with
  | .bool => boolAs b.value t
  | .char => charAs b.value t
  | .int _ => intAs wide b.value t
  | .single => floatAs sgl b.value t
  | .double => floatAs dbl b.value t
  | .dateTime => if t = .dateTime then .ok b.value else .throw .invalidCast
  | .timeSpan => if t = .timeSpan then .ok b.value else .throw .invalidCast
  | .other _ => .throw .invalidCast

/-- `(T) o` of an object that may be null: lines 1383-1398; a null pointer is dereferenced. -/
def unbox (wide : Bool) (o : Option Boxed) (t : BTy) : Res Int :=
  match o with
  | none => .ub
  | some b => getAs wide b t

/-- `(object) e` where `e` has type `t`: lines 387-393 (the constructors of the `...Value` classes keep the value, e.g. Int32Value.h line 33). -/
def box (t : BTy) (v : Int) : Option Boxed := some ⟨t, v⟩

end Verif.Box
