import Verif.IntModel
import Verif.BoolCharModel
import Verif.FloatModel
import Verif.DateTimeModel
import Verif.TimeSpanModel
import Verif.StringModel
/-!
# Model: `Object.Equals(a, b)`

Object.cpp lines 25-34 with the overrides of `Equals(Object*)`: {SByte,Byte,Int16,UInt16,Int32,UInt32,Int64,UInt64}Value.cpp, BooleanValue.cpp lines 81-87, CharValue.cpp 70-75, DoubleValue.cpp 78-86,
SingleValue.cpp 85-93, DateTimeValue.cpp 242-247, TimeSpanValue.cpp 149-154, StringDotNet.cpp 247-251.
-/
namespace Verif.Obj

/-- What an object is. `plain` is any object whose class does not override `Equals`: Object, arrays, StringBuilder (Array.h line 148, StringBuilder.h line 268, Exception.h line 82: their raw type is ObjectType), exceptions and the
program's own classes. Structs of the program and classes that define their own `Equals` are not modelled. -/
inductive Ob where
  | int (ty : IntVal.Ty) (v : Int)
  | bool (b : Bool)
  | char (c : Nat)
  | real (F : FltModel.Fmt) (bits : Nat)
  | date (ticks : Int)
  | span (ticks : Int)
  | str (v : WStr)
  | plain
deriving DecidableEq, Repr

/-- A reference: null, or an address and the object there. -/
abbrev Ref := Option (Nat × Ob)

/-- `Equals(Object*)` of the object `a` at address `p`, called with a reference. -/
def equals (p : Nat) (a : Ob) (o : Ref) : Res Bool :=
  match a with
  | .int ty v => IntVal.equalsObj v (match o with | none => .null | some (_, .int t x) => if t = ty then .same x else .other | some _ => .other)
  | .bool b => BCModel.boolEqualsObj b (match o with | none => .null | some (_, .bool x) => .same x | some _ => .other)
  | .char c => BCModel.charEqualsObj c (match o with | none => .null | some (_, .char x) => .same x | some _ => .other)
  | .real F v => .ok (FltModel.equalsObj F v (match o with | none => .null | some (_, .real G x) => if G = F then .same x else .other | some _ => .other))
  | .date v => .ok (DateTime.equalsObj v (match o with | none => .null | some (_, .date x) => .dateTime x | some _ => .other))
  | .span v => .ok (TimeSpan.equalsObj v (match o with | none => .null | some (_, .span x) => .timeSpan x | some _ => .other))
  | .str v => StrModel.equalsObj (some v) (match o with | none => .null | some (_, .str x) => .str x | some _ => .other)
  | .plain => .ok (match o with | none => false | some (q, _) => p = q)

/-- `Object::Equals(Object*, Object*)`, Object.cpp lines 25-31. -/
def staticEquals (a b : Ref) : Res Bool :=
  match a, b with
  | none, none => .ok true
  | none, some _ => .ok false
  | some _, none => .ok false
  | some (p, x), some (q, y) => if p = q then .ok true else equals p x (some (q, y))

end Verif.Obj
