import Verif.SemModel
import Verif.ConstModel
/-!
# Model: the characters written for an integer expression (/repo/CppTranslator/MyIlInstructionVisitor.cs)
-/
namespace Verif.Text
open Sem
open Verif.IntVal (Ty)

/-- `operatorSymbols`, lines 69-78 (Div is written as a call). -/
def arithSymbol : AOp → WStr
  | .add => w "+" | .sub => w "-" | .mul => w "*" | .rem => w "%" | .band => w "&" | .bor => w "|" | .xor => w "^"

/-- `operatorSymbols`, lines 77-78. -/
def shiftSymbol : SOp → WStr
  | .shl => w "<<" | .shr => w ">>"

/-- `comparisonSymbols`, lines 80-85. -/
def compSymbol : ROp → WStr
  | .eq => w " == " | .ne => w " != " | .lt => w " < " | .le => w " <= " | .gt => w " > " | .ge => w " >= "

/-- The casts of `CastToPrimativeType`, lines 611-642. -/
def castText : Ty → WStr
  | .sbyte => w "(SByte)" | .int16 => w "(Int16)" | .int32 => w "(Int32)" | .int64 => w "(Int64)"
  | .byte => w "(Byte)" | .uint16 => w "(UInt16)" | .uint32 => w "(UInt32)" | .uint64 => w "(UInt64)"

/-- The characters of an expression; `name k` is the name of variable `k`; the first argument says that the expression is the condition of an enclosing conditional.
`VisitLdLoc` 914-923 (`name k` is `written` below), `VisitLdcI4` 850-854, `VisitLdcI8` 866-870, `VisitBinaryNumericInstruction` 189-204, `HandleDivideByZero` 206-232, `VisitComp` 592-601, `VisitBitNot` 248-253,
`VisitConv`/`CastToPrimativeType` 603-648, `VisitIfInstruction`/`BuildCondition` 739-777. -/
def textB (name : Nat → WStr) : Bool → X → WStr
  | _, .var _ k => name k
  | _, .i4 n => Const.ldcI4 n
  | _, .i8 n => Const.ldcI8 n
  | _, .bin (.arith o) _ _ l r => w "(" ++ textB name false l ++ w " " ++ arithSymbol o ++ w " " ++ textB name false r ++ w ")"
  | _, .bin .div _ _ l r => w "Math::Divide(" ++ w "(Int64)" ++ textB name false l ++ w "," ++ w "(Int64)" ++ textB name false r ++ w ")"
  | _, .shift o _ l r => w "(" ++ textB name false l ++ w " " ++ shiftSymbol o ++ w " " ++ textB name false r ++ w ")"
  | _, .comp o _ l r => w "((" ++ textB name false l ++ w ")" ++ compSymbol o ++ textB name false r ++ w ")"
  | _, .bitNot e => w "~" ++ textB name false e
  | _, .conv ty _ _ e => w "(" ++ castText ty ++ textB name false e ++ w ")"
  | b, .ite c t f =>
    (if b then [] else w "(") ++ textB name true c ++ w " ? (" ++ textB name false t ++ w ") : (" ++ textB name false f ++ w ")" ++ (if b then [] else w ")")

/-- The name written for a variable: `VisitLdLoc`, line 921, with Formatter.cs lines 177-183 (no entry in `variableTranslation`; a variable always has a name). -/
def written (ci : Fmt.CharInfo) (name : WStr) : WStr :=
  match Fmt.nameText ci name with
  | .ok t => t
  | _ => []

/-- The characters of an expression. -/
abbrev text (name : Nat → WStr) (e : X) : WStr := textB name false e

/-- An argument, `(T)(e)`: `AddCallParameters` and `DoCastOnCallParamterIfNeeded`, lines 552-571. -/
def argText (name : Nat → WStr) (ty : Ty) (e : X) : WStr := castText ty ++ (w "(" ++ (text name e ++ w ")"))

/-- The arguments after the first: `AddCallParameters`, lines 547-559. -/
def argsRest (name : Nat → WStr) : List Ty → List X → WStr
  | ty :: tys, e :: es => w ", " ++ (argText name ty e ++ argsRest name tys es)
  | _, _ => []

/-- The arguments: `AddCallParameters`, lines 538-561. -/
def argsText (name : Nat → WStr) : List Ty → List X → WStr
  | ty :: tys, e :: es => argText name ty e ++ argsRest name tys es
  | _, _ => []

/-- A call of a static method: `FormatCall`, lines 413-436 (no special call; the class is written by `WrapTypeIfNeeded`, the method's name as it is: CppTypeVisitor.cs lines 223-230).
`fname` is `Class::Method`. -/
def callText (name : Nat → WStr) (fname : WStr) (params : List Ty) (args : List X) : WStr := fname ++ w "(" ++ (argsText name params args ++ w ")")

end Verif.Text
