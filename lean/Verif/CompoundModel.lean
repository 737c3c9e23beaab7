import Verif.SemModel
/-!
# Model of the translation of compound assignments and increments (/repo/CppTranslator/MyIlInstructionVisitor.cs)

The target is a variable of one of the integer types (the text of other targets is written once in either form); the value is an integer expression of
`ILSem`, or a floating constant.
-/
namespace Verif.Sem
open Verif.IntVal (Ty)

/-- Operators of NumericCompoundAssign. -/
inductive COp | bin (o : BOp) | sh (o : SOp)
deriving DecidableEq, Repr

/-- The forms the translator writes: `x++`, `x--`, `x op= e`. -/
inductive Form where
  | inc | dec
  | opAssign (o : COp) (e : CX)

/-- `IsConstant` lines 507-510: a constant, or any conversion. -/
def isConst : X → Bool
  | .i4 _ | .i8 _ | .conv _ _ _ _ => true
  | _ => false

/-- `GetAsIntConstant` lines 511-525: the value of a 32-bit constant, through conversions; a 64-bit constant is cast to the class of 32-bit constants,
which raises InvalidCastException; anything else gives -1. -/
def asInt : X → Res Int
  | .i4 n => .ok n
  | .i8 _ => .throw .invalidCast
  | .conv _ _ _ e => asInt e
  | _ => .ok (-1)

/-- `VisitNumericCompoundAssign` lines 1076-1099. -/
def compound (o : COp) (v : X) : Res Form :=
  match o with
  | .bin (.arith .add) =>
    if isConst v then asInt v >>= fun c => .ok (if c = 1 then .inc else .opAssign o (trK v none)) else .ok (.opAssign o (trK v none))
  | .bin (.arith .sub) =>
    if isConst v then asInt v >>= fun c => .ok (if c = 1 then .dec else .opAssign o (trK v none)) else .ok (.opAssign o (trK v none))
  | _ => .ok (.opAssign o (trK v none))

/-- The forms for a floating constant: `x++`, `x--`, or the operator with the constant. -/
inductive FForm | inc | dec | opAssign
deriving DecidableEq, Repr

/-- `VisitNumericCompoundAssign` with `x += c`, `x -= c` for the floating constant `num / den`: lines 519-522 truncate it to an integer (a value outside
the range of `int` becomes some other integer than 1 on every runtime). -/
def compoundFloat (add : Bool) (num : Int) (den : Nat) : FForm :=
  if num.tdiv den = 1 then (if add then .inc else .dec) else .opAssign

/-- The forms of a store to a local variable: `++x`, `--x`, `x = e`. -/
inductive StForm where
  | preInc | preDec
  | assign (e : CX)

/-- `VisitStLoc` 1127-1135 with `HandleIncrementAndDecrement` lines 1147-1165. -/
def stloc (k : Nat) (e : X) : StForm :=
  match e with
  | .bin o _ _ (.var _ j) (.i4 n) =>
    if (o = .arith .add ∨ o = .arith .sub) ∧ k = j ∧ n = 1 then (if o = .arith .add then .preInc else .preDec)
    else .assign (trK e none)
  | _ => .assign (trK e none)

end Verif.Sem
