import Verif.CppParse
/-!
# Model of the expression part of the translator (/repo/CppTranslator/MyIlInstructionVisitor.cs)

An instruction tree and the tokens the visitor writes for it.  Names and literals are opaque numbers; access operators (`->`, `.`, `::`) are one
token `arrow` (they have the same precedence), except that `Type::name` is one name.
-/
namespace Verif.Expr
open Cpp

inductive E where
  /-- `LdLoc`, `LdLoca`, `LdsFlda`, `LdNull`, non-negative constants: one name -/
  | atom (k : Nat)
  /-- a negative constant: `-` and a literal (`VisitLdcI4` etc., lines 820-866) -/
  | negLit (k : Nat)
  | bin (o : Op) (l r : E)
  /-- `HandleDivideByZero`, lines 198-228: `Math::Divide((Int64)l,(Int64)r)`; `f` is the function, `ty` the cast -/
  | div (f ty : Nat) (l r : E)
  /-- lines 230-243: `DoubleValue::Modulus(l,r)` -/
  | remf (f : Nat) (l r : E)
  | cmp (o : Op) (l r : E)
  /-- `VisitConv`; `none` for target types without a case in `CastToPrimativeType` -/
  | conv (ty : Option Nat) (e : E)
  | bitNot (e : E)
  /-- `VisitAddressOf`, lines 169-175 -/
  | addr (e : E)
  | box (ty : Nat) (e : E)
  | castClass (ty : Nat) (e : E)
  /-- `IfInstruction` inside a line -/
  | tern (c t f : E)
  | ldLen (m : Nat) (e : E)
  | field (e : E) (k : Nat)
  | call (e : E) (k : Nat) (args : E)
  | scall (f : Nat) (args : E)
  | newObj (ty : Nat) (args : E)
  | newStruct (ty : Nat) (args : E)
  | newArr (arr elem : Nat) (args : E)
  | elem (ty m : Nat) (a args : E)
  /-- `BoxExpression` of a primitive receiver, lines 150-156 -/
  | wrap (ty : Nat) (e : E)
  | assign (x : Nat) (v : E)
  | anil
  /-- an argument, with the cast of `DoCastOnCallParamterIfNeeded` if any -/
  | acons (c : Option Nat) (a rest : E)
deriving Repr, DecidableEq

def castToks : Option Nat → List Tok
  | some k => [.lp, .ty k, .rp]
  | none => []

def isNil : E → Bool
  | .anil => true
  | _ => false

/-- The visitor's text.
* `bin`: lines 187-195 `( l op r )`;  * `cmp`: `VisitComp`, lines 585-593 `((l) op r)`;  * `conv`: `CastToPrimativeType`, lines 601-638 `((T)e)`;
* `bitNot`: lines 245-249 `~e`;  * `box`: lines 395-401 `(new T(e))`;  * `castClass`: lines 571-577 `(T)e`;
* `tern`: `VisitIfInstruction` with `BuildCondition`, lines 739-777 `(c ? (t) : (f))`; the first argument says that the
instruction is the condition of an enclosing one, whose recursive call of `BuildCondition` writes no parentheses;
* `ldLen`: lines 907-911;  * `field`: `HandleFieldAccess` and `VisitLdFlda`, lines 137-149, 884-891;  * `call`, `scall`: `FormatCall`, lines 421-442
with `AddCallParameters`, lines 538-560;  * `newObj`, `newStruct`: lines 1045-1054;  * `newArr`: lines 1018-1026 `new Array(T,indices)`;
* `elem`: `VisitLdElema`, lines 872-881 `(*((T*)a->Address(indices)))`;  * `assign`: `VisitStLoc`, lines 1120-1128 `x = v`. -/
def emitB : Bool → E → List Tok
  | _, .atom k => [.id k]
  | _, .negLit k => [.op .sub, .id k]
  | _, .bin o l r => .lp :: emitB false l ++ .op o :: emitB false r ++ [.rp]
  | _, .div f ty l r => .id f :: .lp :: .lp :: .ty ty :: .rp :: emitB false l ++ .comma :: .lp :: .ty ty :: .rp :: emitB false r ++ [.rp]
  | _, .remf f l r => .id f :: .lp :: emitB false l ++ .comma :: emitB false r ++ [.rp]
  | _, .cmp o l r => .lp :: .lp :: emitB false l ++ .rp :: .op o :: emitB false r ++ [.rp]
  | _, .conv ty e => .lp :: castToks ty ++ emitB false e ++ [.rp]
  | _, .bitNot e => .tilde :: emitB false e
  | _, .addr e => .lp :: emitB false e ++ [.rp]
  | _, .box ty e => .lp :: .nw :: .ty ty :: .lp :: emitB false e ++ [.rp, .rp]
  | _, .castClass ty e => .lp :: .ty ty :: .rp :: emitB false e
  | b, .tern c t f =>
    (if b then [] else [.lp]) ++ emitB true c ++ .ques :: .lp :: emitB false t ++ .rp :: .colon :: .lp :: emitB false f ++ .rp ::
      (if b then [] else [.rp])
  | _, .ldLen m e => emitB false e ++ [.arrow, .id m, .lp, .rp]
  | _, .field e k => emitB false e ++ [.arrow, .id k]
  | _, .call e k args => emitB false e ++ .arrow :: .id k :: .lp :: emitB false args ++ [.rp]
  | _, .scall f args => .id f :: .lp :: emitB false args ++ [.rp]
  | _, .newObj ty args => .lp :: .nw :: .ty ty :: .lp :: emitB false args ++ [.rp, .rp]
  | _, .newStruct ty args => .ty ty :: .lp :: emitB false args ++ [.rp]
  | _, .newArr arr elem args => .nw :: .ty arr :: .lp :: .id elem :: .comma :: emitB false args ++ [.rp]
  | _, .elem ty m a args =>
    .lp :: .op .mul :: .lp :: .lp :: .ty ty :: .rp :: emitB false a ++ .arrow :: .id m :: .lp :: emitB false args ++ [.rp, .rp, .rp]
  | _, .wrap ty e => .ty ty :: .lp :: emitB false e ++ [.rp]
  | _, .assign x v => .id x :: .asg :: emitB false v
  | _, .anil => []
  | _, .acons none a rest => emitB false a ++ (if isNil rest then [] else .comma :: emitB false rest)
  | _, .acons (some k) a rest => .lp :: .ty k :: .rp :: .lp :: emitB false a ++ .rp :: (if isNil rest then [] else .comma :: emitB false rest)

/-- The text of an expression. -/
abbrev emit (e : E) : List Tok := emitB false e

/-- The condition of an `if` statement between its parentheses: `BuildCondition` with `justCondition` false, lines 759-769.  Of a conditional only the
condition is written. -/
def emitTest : E → List Tok
  | .tern c _ _ => emitTest c
  | e => emitB false e

end Verif.Expr
