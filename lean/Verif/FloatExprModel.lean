import Verif.FloatTextModel
/-!
# Model of the translation of floating-point expressions (/repo/CppTranslator/MyIlInstructionVisitor.cs)

As in SemModel the C++ expression is a tree; that the text parses back to it is C60. The arithmetic is IEEE 754's in the format of the operands (C++ on the supported platforms evaluates `float` expressions in
`float`, FLT_EVAL_METHOD 0); all NaNs an operation gives are one pattern.
-/
namespace Verif.FloatExpr
open Verif.FltModel Verif.Rnd

/-! ## IEEE 754 arithmetic in a format -/

/-- The NaN an invalid operation gives. -/
def NaN (F : Fmt) : Nat := F.I + F.M / 2

/-- `-a` -/
def negate (F : Fmt) (a : Nat) : Nat := pack F (!neg F a) (mag F a)

/-- `a * b` -/
def mul (F : Fmt) (a b : Nat) : Nat :=
  if (nan F a || nan F b) = true then NaN F
  else if mag F a = F.I ∨ mag F b = F.I then (if mag F a = 0 ∨ mag F b = 0 then NaN F else pack F (neg F a != neg F b) F.I)
  else pack F (neg F a != neg F b) (roundMag F (magVal F (mag F a) * magVal F (mag F b)) (2 ^ places F))

/-- `a / b` -/
def div (F : Fmt) (a b : Nat) : Nat :=
  if (nan F a || nan F b) = true then NaN F
  else if mag F a = F.I then (if mag F b = F.I then NaN F else pack F (neg F a != neg F b) F.I)
  else if mag F b = F.I then pack F (neg F a != neg F b) 0
  else if mag F b = 0 then (if mag F a = 0 then NaN F else pack F (neg F a != neg F b) F.I)
  else pack F (neg F a != neg F b) (roundMag F (magVal F (mag F a) * 2 ^ places F) (magVal F (mag F b)))

/-- `a + b` -/
def add (F : Fmt) (a b : Nat) : Nat :=
  if (nan F a || nan F b) = true then NaN F
  else if mag F a = F.I then (if mag F b = F.I ∧ neg F a ≠ neg F b then NaN F else a)
  else if mag F b = F.I then b
  else if val F a + val F b = 0 then pack F (neg F a && neg F b) 0
  else pack F (decide (val F a + val F b < 0)) (roundMag F (val F a + val F b).natAbs 1)

/-- `a - b` -/
def sub (F : Fmt) (a b : Nat) : Nat := if nan F b = true then NaN F else add F a (negate F b)

/-- Conversion from format `F` to format `G`. -/
def conv (G F : Fmt) (a : Nat) : Nat :=
  if nan F a = true then NaN G
  else if mag F a = F.I then pack G (neg F a) G.I
  else pack G (neg F a) (roundMag G (magVal F (mag F a) * 2 ^ places G) (2 ^ places F))

/-- Conversion of an integer. -/
def ofInt (F : Fmt) (i : Int) : Nat := pack F (decide (i < 0)) (roundMag F (i.natAbs * 2 ^ places F) 1)

/-- `==`, `!=`, `<`, `<=`, `>`, `>=` -/
inductive Rel | eq | ne | lt | le | gt | ge
  deriving DecidableEq, Repr

def rel (F : Fmt) : Rel → Nat → Nat → Bool
  | .eq, a, b => feq F a b
  | .ne, a, b => !feq F a b
  | .lt, a, b => flt F a b
  | .le, a, b => flt F a b || feq F a b
  | .gt, a, b => flt F b a
  | .ge, a, b => flt F b a || feq F a b

/-! ## The instruction trees -/

/-- `float` and `double`: the stack types F4 and F8 of the IL tree, `Single` and `Double` in C++. -/
inductive FT | f4 | f8
  deriving DecidableEq, Repr

def FT.fmt : FT → Fmt
  | .f4 => sgl
  | .f8 => dbl

inductive Op | add | sub | mul | div | rem
  deriving DecidableEq, Repr

/-- Floating-point instructions. -/
inductive X
  /-- a variable -/
  | var (t : FT) (k : Nat)
  /-- a constant whose text has a decimal point (for doubles: every constant; C86) -/
  | lit (t : FT) (b : Nat)
  /-- a `float` constant that is a whole number: its text is that of an integer (C86) -/
  | whole (n : Int)
  /-- `conv.r4`/`conv.r8` of an integer variable -/
  | ofInt (t : FT) (k : Nat)
  | bin (o : Op) (l r : X)
  /-- `conv.r4`/`conv.r8` of a floating-point value -/
  | conv (t : FT) (e : X)
  deriving DecidableEq, Repr

/-- The stack type. Both operands of a binary instruction have the same one (ILSpy inserts conversions). -/
def X.ty : X → FT
  | .var t _ | .lit t _ | .ofInt t _ | .conv t _ => t
  | .whole _ => .f4
  | .bin _ l _ => l.ty

/-- The contents of the variables: bit patterns of the floating-point ones, the integers. -/
structure Env where
  f4 : Nat → Nat
  f8 : Nat → Nat
  i : Nat → Int

def Env.get (env : Env) : FT → Nat → Nat
  | .f4 => env.f4
  | .f8 => env.f8

/-- A binary operation in a format. -/
def op (F : Fmt) : Op → Nat → Nat → Nat
  | .add => add F
  | .sub => sub F
  | .mul => mul F
  | .div => div F
  | .rem => FloatText.modulus F

/-- What the source computes: every operation is rounded to its own type (ECMA-335 III.3 as .NET implements it: SSE arithmetic in the operand's format). -/
def X.eval (env : Env) : X → Nat
  | .var t k => env.get t k
  | .lit _ b => b
  | .whole n => FloatExpr.ofInt sgl n
  | .ofInt t k => FloatExpr.ofInt t.fmt (env.i k)
  | .bin o l r => op l.ty.fmt o (l.eval env) (r.eval env)
  | .conv t e => if e.ty = t then e.eval env else FloatExpr.conv t.fmt e.ty.fmt (e.eval env)

/-! ## C++ -/

/-- A C++ value with its type: an integer literal (its type is large enough for it), `Single` or `Double`. -/
inductive V
  | int (n : Int)
  | fl (t : FT) (b : Nat)
  deriving DecidableEq, Repr

/-- The implicit (and explicit) conversion to `Single` or `Double`. -/
def V.to (t : FT) : V → Nat
  | .int n => FloatExpr.ofInt t.fmt n
  | .fl u b => if u = t then b else FloatExpr.conv t.fmt u.fmt b

/-- The usual arithmetic conversions: `none` is an integer type. -/
def V.common : V → V → Option FT
  | .fl .f8 _, _ | _, .fl .f8 _ => some .f8
  | .fl .f4 _, _ | _, .fl .f4 _ => some .f4
  | .int _, .int _ => none

/-- C++ expressions. -/
inductive CX
  | var (t : FT) (k : Nat)
  | lit (t : FT) (b : Nat)
  | int (n : Int)
  | ofInt (t : FT) (k : Nat)
  | add (l r : CX)
  | sub (l r : CX)
  | mul (l r : CX)
  /-- `Math::Divide((Double)l,(Double)r)` -/
  | divide (l r : CX)
  /-- `DoubleValue::Modulus(l,r)` -/
  | modulus (l r : CX)
  | cast (t : FT) (e : CX)
  deriving DecidableEq, Repr

/-- DotNetMath.cpp lines 261-268: `Math::Divide(Double, Double)`: `divideSpecial` (C75) and the hardware division. -/
def mathDivide (a b : Nat) : Nat := (divideSpecial a b).getD (div dbl a b)

/-- A built-in `+`, `-`, `*`; on two integers the integer operation (overflow is not modelled). -/
def builtin (o : Op) (i : Int → Int → Int) (v w : V) : V :=
  match v.common w, v, w with
  | some t, _, _ => .fl t (op t.fmt o (v.to t) (w.to t))
  | none, .int a, .int b => .int (i a b)
  | none, _, _ => .int 0

/-- What the C++ computes. Arguments of `Math::Divide` and `DoubleValue::Modulus` are converted to `Double`, the result is a `Double` (DotNetMath.h line 261, DoubleValue.h). -/
def CX.eval (env : Env) : CX → V
  | .var t k => .fl t (env.get t k)
  | .lit t b => .fl t b
  | .int n => .int n
  | .ofInt t k => .fl t (FloatExpr.ofInt t.fmt (env.i k))
  | .add l r => builtin .add (· + ·) (l.eval env) (r.eval env)
  | .sub l r => builtin .sub (· - ·) (l.eval env) (r.eval env)
  | .mul l r => builtin .mul (· * ·) (l.eval env) (r.eval env)
  | .divide l r => .fl .f8 (mathDivide ((l.eval env).to .f8) ((r.eval env).to .f8))
  | .modulus l r => .fl .f8 (FloatText.modulus dbl ((l.eval env).to .f8) ((r.eval env).to .f8))
  | .cast t e => .fl t ((e.eval env).to t)

/-- The translation: `VisitLdLoc` 914-923, `VisitLdcF4` 819-837, `VisitLdcF8` 839-848, `VisitConv`/`CastToPrimativeType` 603-648, `VisitBinaryNumericInstruction` 189-203 with `HandleDivideByZero` 205-232 (both
floating-point stack types give `(Double)`) and `HandleSpecialModulusWithFLoatingNumbers` 234-246. -/
def tr : X → CX
  | .var t k => .var t k
  | .lit t b => .lit t b
  | .whole n => .int n
  | .ofInt t k => .ofInt t k
  | .bin .add l r => .add (tr l) (tr r)
  | .bin .sub l r => .sub (tr l) (tr r)
  | .bin .mul l r => .mul (tr l) (tr r)
  | .bin .div l r => .divide (tr l) (tr r)
  | .bin .rem l r => .modulus (tr l) (tr r)
  | .conv t e => .cast t (tr e)

/-- `x = e;` in C++, `x` a variable of type `t`: `VisitStLoc` 1120-1128; the value is converted to the variable's type. -/
def cppStore (env : Env) (t : FT) (e : X) : Nat := ((tr e).eval env).to t

/-- `VisitComp` 592-601: `((l) op r)`, a comparison in the common type; two integer literals are compared as integers. -/
def cppComp (env : Env) (o : Rel) (l r : X) : Bool :=
  match ((tr l).eval env).common ((tr r).eval env), (tr l).eval env, (tr r).eval env with
  | some t, v, w => rel t.fmt o (v.to t) (w.to t)
  | none, .int a, .int b => match o with
    | .eq => a = b
    | .ne => a ≠ b
    | .lt => a < b
    | .le => a ≤ b
    | .gt => a > b
    | .ge => a ≥ b
  | none, _, _ => false

/-- The comparison in the source. -/
def ilComp (env : Env) (o : Rel) (l r : X) : Bool := rel l.ty.fmt o (l.eval env) (r.eval env)

/-- `(Int64)e` of a floating-point value (`VisitConv`, lines 603-648): the fraction is dropped; undefined when the result does not fit. -/
def toI64 (F : Fmt) (a : Nat) : Res Int :=
  if F.I ≤ mag F a then .ub
  else if -2 ^ 63 ≤ (val F a).tdiv (2 ^ places F) ∧ (val F a).tdiv (2 ^ places F) < 2 ^ 63 then .ok ((val F a).tdiv (2 ^ places F)) else .ub

def cppToI64 (env : Env) (e : X) : Res Int :=
  match (tr e).eval env with
  | .int n => .ok n
  | .fl t b => toI64 t.fmt b

/-- In the source: the same number; where it does not fit the result is unspecified (ECMA-335 III.3.27), here `.ub`. -/
def ilToI64 (env : Env) (e : X) : Res Int := toI64 e.ty.fmt (e.eval env)

end Verif.FloatExpr
