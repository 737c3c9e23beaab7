import Verif.TypesModel
import Verif.MemberModel
/-!
# Model: reaching a member of an operand

CppTranslator/MyIlInstructionVisitor.cs lines 138-158 (`HandleFieldAccess`, `BoxExpression`), 420-431 (instance calls), 496-506 (`FormatCallInstance`), 525-529 (`FormatMethodAccessType`);
CppTypeVisitor.cs lines 206-265 (`IsPointerType`, `FormatTypeAccess`, `GetTypeForInstruction`). An operand is given by the instruction that produces it; the operands of that instruction are
left out where they do not matter. Enumerations and generic types are not modelled.
-/
namespace Verif.Access
open Verif.Types (Ty Kind isPointer access)
open Verif.Member (PMod)

/-- A type of the program: name and kind. -/
structure T where
  name : WStr
  kind : Kind
deriving DecidableEq, Repr

/-- Where a variable comes from. -/
inductive Origin where
  | this | local | param (m : PMod)
deriving DecidableEq, Repr

/-- A variable of type `ty`. -/
structure Var where
  origin : Origin
  ty : T
deriving DecidableEq, Repr

/-- The variable is a managed pointer in IL: `this` of a struct, and parameters passed by reference. -/
def Var.byRef (v : Var) : Bool :=
  match v.origin with
  | .this => v.ty.kind == .struct
  | .local => false
  | .param .ref => true
  | .param .out => true
  | .param .in => true
  | .param _ => false

/-- `Variable.Type`. -/
def Var.ilType (v : Var) : Ty := if v.byRef then .byRef v.ty.name v.ty.kind else .named v.ty.name v.ty.kind

/-- The instruction whose value is the object, or the address of the struct, whose member is used: `ldloc`/`ldloca`, `ldflda`, `ldsflda`, `ldelema` (types of the field or element),
`ldobj`, `addressof`, a call, and every instruction that makes a new object (`newobj`, `ldstr`, `box`). -/
inductive Tgt where
  | var (v : Var)
  | fld (ty : T)
  | sfld (ty : T)
  | elem (ty : T)
  | ldobj (t : Tgt) (ty : T)
  | addrOf (t : Tgt) (ty : T)
  | call (ty : T)
  | fresh (ty : T)
deriving DecidableEq, Repr

/-- `GetTypeForInstruction(inst, null)`, CppTypeVisitor.cs lines 248-265: `ldsflda`, calls and the others are not in the list. -/
def typeOf : Tgt → Option Ty
  | .var v => some v.ilType
  | .fld ty => some (.named ty.name ty.kind)
  | .elem ty => some (.named ty.name ty.kind)
  | .ldobj _ ty => some (.named ty.name ty.kind)
  | .addrOf _ ty => some (.named ty.name ty.kind)
  | .sfld _ => none
  | .call _ => none
  | .fresh _ => none

/-- The operator written before a field's name, lines 138-151. -/
def fieldOp : Tgt → WStr
  | .var ⟨.this, _⟩ => w "->"
  | t => access (typeOf t)

/-- `IsPrimative` of an IL type, lines 115-137, for a type whose primitive names are `prim`; a reference to a type is not primitive. -/
def primType (prim : WStr → Bool) : Option Ty → Bool
  | some (.named n k) => k == .struct && prim n
  | _ => false

/-- The operand of an instance call and the operator written after it: the operand is put into its `...Value` class when its type is primitive (lines 496-506); the operator is
lines 525-529. -/
def callOp (prim : WStr → Bool) (t : Tgt) : Bool × WStr := (primType prim (typeOf t), access (typeOf t))

end Verif.Access
