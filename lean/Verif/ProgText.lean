import Verif.StmtText
import Verif.CppRead
import Verif.ProgramModel
/-!
# Model: the characters written for the methods of a program (/repo/CppTranslator/MyIlInstructionVisitor.cs)

The bodies of StmtText with calls of static methods in the expressions and as statements, static fields, and `throw` statements.
-/
namespace Verif.Text
open Sem Stmt
open Verif.Program (Prog Meth)
open Verif.IntVal (Ty)

/-- A static field: its class, its name, its type, and the variable of the program that it is. -/
structure FieldText where
  cls : WStr
  name : WStr
  ty : Ty
  place : Nat

/-- A program and the names in it: `cls m` and `meth m` the class and the name of method `m`, of which there are `count`; `src m` its variables, parameters first; `handler m h` and `exVar m h` the class and the variable
of handler `h` in it; `exc x` the name of the class of the exception `x`; `void m`: the method returns nothing; `fields` the static fields. -/
structure PText where
  P : Prog
  count : Nat
  ci : Fmt.CharInfo
  nl : WStr
  cls : Nat → WStr
  meth : Nat → WStr
  src : Nat → List (WStr × Ty)
  handler : Nat → Nat → WStr
  exVar : Nat → Nat → WStr
  exc : Exc → WStr
  void : Nat → Bool
  fields : List FieldText

/-- The name a static method is called by: `WrapTypeIfNeeded` lines 159-164 with CppTypeVisitor.cs lines 187-200 (`FormatType`), and `FormatMethodAccessType`, CppTypeVisitor.cs lines 223-230, with `GetMethodName`
lines 530-537. -/
def PText.fname (C : PText) (m : Nat) : WStr := written C.ci (C.cls m) ++ w "::" ++ C.meth m

/-- The name of a static field: `VisitLdsFlda` lines 948-954, with `WrapTypeIfNeeded` lines 159-164. -/
def PText.fieldName (C : PText) (f : FieldText) : WStr := written C.ci f.cls ++ w "::" ++ written C.ci f.name

/-- Method `m` as declared by the class header. -/
def PText.head (C : PText) (m : Nat) : Read.Fun := { name := C.fname m, params := (C.P.meth m).params, ret := (C.P.meth m).retType, void := C.void m }

/-- The static fields as declared by the class headers. -/
def PText.fieldFuns (C : PText) : List Read.Fun := C.fields.map fun f => { name := C.fieldName f, params := [], ret := f.ty, place := some f.place }

/-- The static members a C++ compiler knows: as declared by the class headers. -/
def PText.funs (C : PText) : List Read.Fun := (List.range C.count).map C.head ++ C.fieldFuns

/-- The name written for a variable of method `m` or for a static field (`VisitLdObj` 942-946 writes what it loads from). -/
def PText.name (C : PText) (m k : Nat) : WStr :=
  match (C.src m)[k]? with
  | some p => written C.ci p.1
  | none => ((C.fields.find? (·.place == k)).map C.fieldName).getD []

/-- The characters for a variable, or for the call whose value it stands for. -/
def PText.atom (C : PText) (m : Nat) (c : Option Program.Call) (k : Nat) : WStr :=
  match c with
  | some c => if k = c.result then callText (C.name m) (C.fname c.callee) (C.P.meth c.callee).params c.args else C.name m k
  | none => C.name m k

/-- An expression with at most one call. -/
def PText.piece (C : PText) (m : Nat) (p : Program.Piece) : WStr := text (C.atom m p.call) p.expr

/-- `VisitStLoc` 1127-1135, `HandleStoreVariable` 1136-1145 and `HandleIncrementAndDecrement` 1146-1165. `VisitThrow`, lines 1311-1317, of an object made without arguments:
`VisitNewObj`, lines 1045-1054, with the brackets of `AddCallParameters`, lines 544 and 560. A store to a static field: `VisitStObj`, lines 1177-1186, with no special form for increments. A call:
`FormatCall`, lines 413-436. -/
def PText.store (C : PText) (m k : Nat) : WStr :=
  match (C.P.meth m).stmt k with
  | .assign x _ p =>
    if x < (C.src m).length then
      match stloc x p.expr with
      | .preInc => w "++" ++ C.name m x
      | .preDec => w "--" ++ C.name m x
      | .assign _ => C.name m x ++ (w " = " ++ C.piece m p)
    else C.name m x ++ (w " = " ++ C.piece m p)
  | .call c => callText (C.name m) (C.fname c.callee) (C.P.meth c.callee).params c.args
  | .throw x => w "throw (" ++ (w "(new " ++ (C.exc x ++ (w "(" ++ w ")") ++ w ")")) ++ w ")"

/-- The type a returned value is converted to: `GetTypeForInstruction`, CppTypeVisitor.cs lines 248-265. -/
def retFor (R : Ty) (p : Program.Piece) : Ty :=
  match p.call with
  | none => typeFor R p.expr
  | some _ => R

/-- What is written after `return`: `VisitLeave`, lines 982-992. -/
def PText.ret (C : PText) (m v : Nat) : WStr :=
  w "(" ++ (w "(" ++ tyName (retFor (C.P.meth m).retType ((C.P.meth m).ret v)) ++ w ")" ++ C.piece m ((C.P.meth m).ret v) ++ w ")")

/-- What the body of method `m` is written from. -/
def PText.cfg (C : PText) (m : Nat) : Cfg where
  ci := C.ci
  nl := C.nl
  main := (C.P.meth m).main
  src := C.src m
  target k := match (C.P.meth m).stmt k with
    | .assign x _ _ => x
    | _ => 0
  store := C.store m
  cond c := C.piece m ((C.P.meth m).cond c)
  val v := C.piece m ((C.P.meth m).val v)
  ret := C.ret m
  cls := C.handler m
  exVar := C.exVar m
  throws k := match (C.P.meth m).stmt k with
    | .throw _ => true
    | _ => false
  other k := match (C.P.meth m).stmt k with
    | .assign x _ _ => decide ((C.src m).length ≤ x)
    | .call _ => true
    | .throw _ => false

/-- The characters of the body of method `m`. -/
def PText.body (C : PText) (m : Nat) (fs : Fmt.St) : Res WStr := (C.cfg m).method (C.P.meth m).params.length (C.P.meth m).blocks fs

end Verif.Text
