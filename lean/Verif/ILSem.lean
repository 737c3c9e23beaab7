import Verif.CppSem
/-!
# Specification: evaluation of the integer part of the IL tree (ECMA-335 partition III, C# language)

Independent of the translator.  A stack value of width 32 or 64 is held as the signed integer it represents.
-/
namespace Verif.Sem
open Verif.IntVal (Ty)

/-- Width of a stack value (StackType I4, I8). -/
inductive W | w32 | w64
deriving DecidableEq, Repr

def W.bits : W → Nat | .w32 => 32 | .w64 => 64
/-- The least signed value. -/
def W.lo : W → Int | .w32 => -2147483648 | .w64 => -9223372036854775808
/-- Signed reading of the low bits. -/
def W.wrapS : W → Int → Int | .w32 => wrapI32 | .w64 => wrapI64
/-- Unsigned reading of the low bits. -/
def W.wrapU : W → Int → Int | .w32 => wrapU32 | .w64 => wrapU64

/-- Binary operators of the IL. -/
inductive BOp | arith (o : AOp) | div
deriving DecidableEq, Repr

/-- Integer IL expressions: loads of typed variables, LdcI4, LdcI8, BinaryNumericInstruction (`un`: Sign is Unsigned, `chk`:
CheckForOverflow), Comp, BitNot, Conv (`un`: InputSign is Unsigned), and IfInstruction as an expression. -/
inductive X where
  | var (ty : Ty) (k : Nat)
  | i4 (n : Int) | i8 (n : Int)
  | bin (o : BOp) (un chk : Bool) (l r : X)
  | shift (o : SOp) (un : Bool) (l r : X)
  | comp (o : ROp) (un : Bool) (l r : X)
  | bitNot (e : X)
  | conv (ty : Ty) (chk un : Bool) (e : X)
  | ite (c t f : X)

def tyW : Ty → W
  | .int64 | .uint64 => .w64
  | _ => .w32

/-- Width of the value an expression leaves on the stack. -/
def X.width : X → W
  | .var ty _ => tyW ty
  | .i4 _ => .w32 | .i8 _ => .w64
  | .bin _ _ _ l _ => l.width
  | .shift _ _ l _ => l.width
  | .comp _ _ _ _ => .w32
  | .bitNot e => e.width
  | .conv ty _ _ _ => tyW ty
  | .ite _ t _ => t.width

/-- Operand reading chosen by the sign flag. -/
def W.rd (w : W) (un : Bool) (a : Int) : Int := if un then w.wrapU a else w.wrapS a

/-- Result of an arithmetic operation with mathematical value `x`. -/
def W.deliver (w : W) (un chk : Bool) (x : Int) : Res Int :=
  if chk ∧ w.rd un x ≠ x then .throw .overflow else .ok (w.wrapS x)

/-- Binary operators. Division and remainder of the least value by -1 raise OverflowException. -/
def ilBin (w : W) (o : BOp) (un chk : Bool) (a b : Int) : Res Int :=
  match o with
  | .arith .add => w.deliver un chk (w.rd un a + w.rd un b)
  | .arith .sub => w.deliver un chk (w.rd un a - w.rd un b)
  | .arith .mul => w.deliver un chk (w.rd un a * w.rd un b)
  | .arith .rem =>
    if b = 0 then .throw .divideByZero
    else if un = false ∧ a = w.lo ∧ b = -1 then .throw .overflow
    else .ok (w.wrapS ((w.rd un a).tmod (w.rd un b)))
  | .arith o => .ok (bitw o w.bits a b).toInt
  | .div =>
    if b = 0 then .throw .divideByZero
    else if un = false ∧ a = w.lo ∧ b = -1 then .throw .overflow
    else .ok (w.wrapS ((w.rd un a).tdiv (w.rd un b)))

/-- Shifts: the count is taken modulo the width (C# language, shift operators). -/
def ilShift (w : W) (o : SOp) (un : Bool) (a b : Int) : Res Int :=
  let k := (b % w.bits).toNat
  match o with
  | .shl => .ok (w.wrapS (a * 2 ^ k))
  | .shr => .ok (w.wrapS (w.rd un a / 2 ^ k))

/-- Conversion of a stack value of width `w` to type `ty`: unchecked conversions truncate, or extend by the sign of the target; checked
ones read the operand by the sign flag and raise OverflowException if the value does not fit. -/
def ilConv (w : W) (ty : Ty) (chk un : Bool) (a : Int) : Res Int :=
  if chk then
    (if ty.min ≤ w.rd un a ∧ w.rd un a ≤ ty.max then .ok ((tyW ty).wrapS (w.rd un a)) else .throw .overflow)
  else .ok ((tyW ty).wrapS (ty.wrap (if ty = .uint64 then w.wrapU a else a)))

/-- Value of an expression. -/
def X.eval (env : Nat → Int) : X → Res Int
  | .var ty k => .ok ((tyW ty).wrapS (ty.wrap (env k)))
  | .i4 n => .ok (wrapI32 n)
  | .i8 n => .ok (wrapI64 n)
  | .bin o un chk l r => l.eval env >>= fun a => r.eval env >>= fun b => ilBin l.width o un chk a b
  | .shift o un l r => l.eval env >>= fun a => r.eval env >>= fun b => ilShift l.width o un a b
  | .comp o un l r => l.eval env >>= fun a => r.eval env >>= fun b => .ok (if relOp o (l.width.rd un a) (l.width.rd un b) then 1 else 0)
  | .bitNot e => e.eval env >>= fun a => .ok (e.width.wrapS (-a - 1))
  | .conv ty chk un e => e.eval env >>= fun a => ilConv e.width ty chk un a
  | .ite c t f => c.eval env >>= fun a => if a ≠ 0 then t.eval env else f.eval env

end Verif.Sem
