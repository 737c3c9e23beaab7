import Verif.IntModel
/-!
# Specification: evaluation of C++ integer expressions (ISO C++17, LP64/LLP64 with 32-bit `int` and 64-bit `Int64`)

Independent of the translator.  Operands of the eight integer types are promoted ([conv.prom]); binary operators apply the usual
arithmetic conversions ([expr.arith.conv]); signed overflow, division by zero and out-of-range shift counts are undefined ([expr.pre],
[expr.mul], [expr.shift]).  The right shift of a negative number is arithmetic, as on every compiler the library supports.
-/
namespace Verif.Sem
open Verif.IntVal (Ty)

/-- The integer types an operand can have after promotion. -/
inductive CT | i32 | u32 | i64 | u64
deriving DecidableEq, Repr

def CT.bits : CT → Nat | .i32 | .u32 => 32 | .i64 | .u64 => 64
def CT.signed : CT → Bool | .i32 | .i64 => true | .u32 | .u64 => false
def CT.lo : CT → Int | .i32 => -2147483648 | .u32 => 0 | .i64 => -9223372036854775808 | .u64 => 0
def CT.hi : CT → Int | .i32 => 2147483647 | .u32 => 4294967295 | .i64 => 9223372036854775807 | .u64 => 18446744073709551615
/-- Integral conversion. -/
def CT.conv : CT → Int → Int | .i32 => wrapI32 | .u32 => wrapU32 | .i64 => wrapI64 | .u64 => wrapU64

/-- Integral promotion. -/
def promote : Ty → CT
  | .sbyte | .byte | .int16 | .uint16 | .int32 => .i32
  | .uint32 => .u32 | .int64 => .i64 | .uint64 => .u64

/-- Usual arithmetic conversions. -/
def common : CT → CT → CT
  | .u64, _ | _, .u64 => .u64
  | .i64, _ | _, .i64 => .i64
  | .u32, _ | _, .u32 => .u32
  | .i32, .i32 => .i32

inductive AOp | add | sub | mul | rem | band | bor | xor
deriving DecidableEq, Repr
inductive SOp | shl | shr
deriving DecidableEq, Repr
inductive ROp | eq | ne | lt | le | gt | ge
deriving DecidableEq, Repr

/-- C++ integer expressions. -/
inductive CX where
  | var (ty : Ty) (k : Nat)
  /-- a decimal literal, or a named constant of the same type -/
  | lit (n : Int)
  | arith (o : AOp) (l r : CX)
  | shift (o : SOp) (l r : CX)
  | rel (o : ROp) (l r : CX)
  | compl (e : CX)
  | cast (ty : Ty) (e : CX)
  | tern (c t f : CX)
  /-- `Math::Divide((Int64)l, (Int64)r)` -/
  | divide (l r : CX)

/-- The type of an expression. A literal that fits `int` is an `int`. -/
def CX.ty : CX → CT
  | .var ty _ => promote ty
  | .lit n => if I32 n then .i32 else .i64
  | .arith _ l r => common l.ty r.ty
  | .shift _ l _ => l.ty
  | .rel _ _ _ => .i32
  | .compl e => e.ty
  | .cast ty _ => promote ty
  | .tern _ t f => common t.ty f.ty
  | .divide _ _ => .i64

/-- A mathematical result delivered in type `c`: unsigned types wrap, a signed result out of range is undefined. -/
def deliver (c : CT) (x : Int) : Res Int :=
  if c.signed then (if c.lo ≤ x ∧ x ≤ c.hi then .ok x else .ub) else .ok (c.conv x)

/-- Bit-by-bit operators on `n`-bit two's complement. -/
def bitw (o : AOp) (n : Nat) (a b : Int) : BitVec n :=
  match o with
  | .bor => BitVec.ofInt n a ||| BitVec.ofInt n b
  | .xor => BitVec.ofInt n a ^^^ BitVec.ofInt n b
  | _ => BitVec.ofInt n a &&& BitVec.ofInt n b

/-- A binary operator on two operands already converted to `c`. -/
def arithOp (c : CT) (o : AOp) (a b : Int) : Res Int :=
  match o with
  | .add => deliver c (a + b)
  | .sub => deliver c (a - b)
  | .mul => deliver c (a * b)
  | .rem => if b = 0 then .ub else if c.signed ∧ a = c.lo ∧ b = -1 then .ub else .ok (a.tmod b)
  | .band | .bor | .xor => .ok (c.conv (bitw o c.bits a b).toInt)

/-- `a << b`, `a >> b` on a left operand of type `c`: the count must lie in `0 .. bits - 1`; a left-shifted signed value must be
non-negative and the result must fit the corresponding unsigned type. -/
def shiftOp (c : CT) (o : SOp) (a b : Int) : Res Int :=
  if b < 0 ∨ b ≥ c.bits then .ub
  else match o with
    | .shl => if c.signed ∧ (a < 0 ∨ a * 2 ^ b.toNat ≥ 2 ^ c.bits) then .ub else .ok (c.conv (a * 2 ^ b.toNat))
    | .shr => .ok (a / 2 ^ b.toNat)

def relOp (o : ROp) (a b : Int) : Bool :=
  match o with
  | .eq => a = b | .ne => a ≠ b | .lt => a < b | .le => a ≤ b | .gt => a > b | .ge => a ≥ b

/-- `~a` in type `c`. -/
def complOp (c : CT) (a : Int) : Int := c.conv (-a - 1)

/-- Both operands are evaluated, in an unspecified order: undefined behaviour of either makes the whole undefined. -/
def both (a b : Res Int) (f : Int → Int → Res Int) : Res Int :=
  match a, b with
  | .ub, _ | _, .ub => .ub
  | .throw e, _ => .throw e
  | _, .throw e => .throw e
  | .ok x, .ok y => f x y

/-- Value of an expression; `env` gives the contents of the variables. -/
def CX.eval (env : Nat → Int) : CX → Res Int
  | .var ty k => .ok (ty.wrap (env k))
  | .lit n => .ok n
  | .arith o l r => both (l.eval env) (r.eval env) fun a b =>
      arithOp (common l.ty r.ty) o ((common l.ty r.ty).conv a) ((common l.ty r.ty).conv b)
  | .shift o l r => both (l.eval env) (r.eval env) fun a b => shiftOp l.ty o a b
  | .rel o l r => both (l.eval env) (r.eval env) fun a b =>
      .ok (if relOp o ((common l.ty r.ty).conv a) ((common l.ty r.ty).conv b) then 1 else 0)
  | .compl e => e.eval env >>= fun a => .ok (complOp e.ty a)
  | .cast ty e => e.eval env >>= fun a => .ok (ty.wrap a)
  | .tern c t f => c.eval env >>= fun a =>
      if a ≠ 0 then t.eval env >>= fun x => .ok ((common t.ty f.ty).conv x) else f.eval env >>= fun x => .ok ((common t.ty f.ty).conv x)
  | .divide l r => both (l.eval env) (r.eval env) fun a b =>
      if wrapI64 b = 0 then .throw .divideByZero else i64 ((wrapI64 a).tdiv (wrapI64 b))

end Verif.Sem
