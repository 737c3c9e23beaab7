import Verif.ILSem
/-!
# Model of the translation of integer expressions (/repo/CppTranslator/MyIlInstructionVisitor.cs)

The C++ expression is given as a tree; that the text emitted for the tree parses back to it is C60.
-/
namespace Verif.Sem
open Verif.IntVal (Ty)

/-- What follows the condition of a conditional expression: the second and third operand. -/
abbrev Rest := Option (CX × CX)

/-- An operand alone, or as the condition of a conditional expression. -/
def Rest.fin : Rest → CX → CX
  | none, e => e
  | some (t, f), e => .tern e t f

/-- The text of a constant as C++ (Const.ldcI8): a decimal literal without a suffix, or the name of a limit.  The limits have the type the literal would have, but for
`UInt32Value::MaxValue`, which stands for 4294967295 and is unsigned (lines 93, 855-864; UInt32Value.cpp line 23). -/
def constX (n : Int) : CX := if n = 4294967295 then .cast .uint32 (.lit n) else .lit n

/-- `VisitLdLoc` 914-923 (the variable's name), `VisitLdcI4` 850-855 and `VisitLdcI8` 867-871 (the decimal text, or a named constant for
the extreme values, both without a suffix), `VisitBinaryNumericInstruction` 189-204 (the operator symbol alone: Sign and CheckForOverflow
are not consulted), `HandleDivideByZero` 206-232, `VisitComp` 592-601, `VisitConv`/`CastToPrimativeType` 603-648, `VisitBitNot` 248-253,
`VisitIfInstruction`/`BuildCondition` 739-777 in expression position.  The second argument is what stands behind the expression when it is the
condition of a conditional: a conditional in that place is written without parentheses, `a ? (b) : (c) ? (t) : (f)`, so `(c) ? (t) : (f)` is its last
operand (C60). -/
def trK : X → Rest → CX
  | .var ty k, K => K.fin (.var ty k)
  | .i4 n, K => K.fin (constX n)
  | .i8 n, K => K.fin (constX n)
  | .bin (.arith o) _ _ l r, K => K.fin (.arith o (trK l none) (trK r none))
  | .bin .div _ _ l r, K => K.fin (.divide (trK l none) (trK r none))
  | .shift o _ l r, K => K.fin (.shift o (trK l none) (trK r none))
  | .comp o _ l r, K => K.fin (.rel o (trK l none) (trK r none))
  | .bitNot e, K => K.fin (.compl (trK e none))
  | .conv ty _ _ e, K => K.fin (.cast ty (trK e none))
  | .ite c t f, K => trK c (some (trK t none, K.fin (trK f none)))

/-- The condition of an `if` statement, `BuildCondition` with `justCondition` false, lines 759-769: of a conditional only the condition is written. -/
def trTest : X → CX
  | .ite c _ _ => trTest c
  | e => trK e none

/-- `x = e;` in C++: the value is converted to the variable's type. -/
def cppStore (env : Nat → Int) (ty : Ty) (e : X) : Res Int := (trK e none).eval env >>= fun v => .ok (ty.wrap v)

/-- `stloc`/`stobj` of a variable of type `ty`: the stack value is truncated to the variable's width. -/
def ilStore (env : Nat → Int) (ty : Ty) (e : X) : Res Int := e.eval env >>= fun v => .ok (ty.wrap v)

/-- The branch the C++ `if` takes. -/
def cppTest (env : Nat → Int) (c : X) : Res Bool := (trTest c).eval env >>= fun v => .ok (decide (v ≠ 0))

/-- The branch the source takes. -/
def ilTest (env : Nat → Int) (c : X) : Res Bool := c.eval env >>= fun v => .ok (decide (v ≠ 0))

end Verif.Sem
