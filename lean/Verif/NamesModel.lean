import Verif.TypesModel
/-!
# Model of the names the translator writes at declarations and at uses, of enum members and of the output path
(/repo/CppTranslator: HeaderTypeVisitor.cs, CppVisitorBase.cs, ProtoTypeVisitor.cs, CppTypeVisitor.cs, MyIlInstructionVisitor.cs, Program.cs)
-/
namespace Verif.Names
open Fmt

/-- `WriteMethodHeader`, HeaderTypeVisitor.cs lines 273-277 and CppVisitorBase.cs lines 131-137: the method's name at its declaration and
definition (`AppendName`). -/
def methodDecl (ci : CharInfo) (name : WStr) : Res WStr := nameText ci name

/-- `GetMethodName`, MyIlInstructionVisitor.cs lines 530-537 with the table of lines 66-67. -/
def getMethodName (name : WStr) : WStr :=
  if name = w ".ctor" then [] else if name = w "op_Equality" then w "Equals" else name

/-- `FormatCall`, MyIlInstructionVisitor.cs lines 418-435 with `FormatMethodAccessType`, CppTypeVisitor.cs lines 223-230: the method's name at a
call (`Append` of the raw name); an empty name writes no call at all. -/
def methodUse (name : WStr) : WStr := getMethodName name

/-- `HeaderTypeDeclaration`, HeaderTypeVisitor.cs line 161 and CppVisitorBase.cs line 133 (`FormatType`): the class name at its definition. -/
def classDecl (ci : CharInfo) (name : WStr) : Res WStr := nameText ci name

/-- `VisitNewObj`, MyIlInstructionVisitor.cs line 1049: the class name where an object is created (`Append`). -/
def classNew (name : WStr) : WStr := name

/-- `VisitVariableInitializer`, HeaderTypeVisitor.cs lines 295-298: the field name at its declaration. -/
def fieldDecl (ci : CharInfo) (name : WStr) : Res WStr := nameText ci name

/-- `ReplaceSpecial`, MyIlInstructionVisitor.cs lines 892-900. -/
def replaceSpecial (name : WStr) : WStr :=
  if name.head? = some 60 then name.filter (fun c => c ≠ 60 && c ≠ 62) else name

/-- `VisitLdFlda`, MyIlInstructionVisitor.cs lines 884-891: the field name at a use. -/
def fieldUse (ci : CharInfo) (name : WStr) : Res WStr := nameText ci (replaceSpecial name)

/-- The compiler's backing field of the automatic property `name`: `<name>k__BackingField` (C# compiler convention). -/
def backingField (name : WStr) : WStr := [60] ++ name ++ [62] ++ w "k__BackingField"

/-- `VisitPropertyDeclaration`, HeaderTypeVisitor.cs lines 319-328 with `GetHiddenPropertyName`, MyIlInstructionVisitor.cs lines 1434-1454: the
declaration of the backing field (`Append` of the name without angle brackets). -/
def backingDecl (name : WStr) : WStr := replaceSpecial (backingField name)

/-- `VisitPropertyDeclaration`, HeaderTypeVisitor.cs lines 303-318 and CppVisitorBase.cs lines 681-703: the accessor names declared. -/
def getterDecl (name : WStr) : WStr := w "get_" ++ name

/-- The metadata name of the getter, which is what a call of it uses. -/
def getterUse (name : WStr) : WStr := methodUse (w "get_" ++ name)

/-- `VisitEnumMemberDeclaration`, ProtoTypeVisitor.cs lines 106-110: the enumerator's name. -/
def enumerator (ci : CharInfo) (member enumName : WStr) : Res WStr :=
  prefixName ci member >>= fun m => .ok (m ++ [95] ++ enumName)

/-- `LastIndexOf(c)` as the length of the text up to and including the last occurrence (0 when absent). -/
def afterLast (c : Nat) : WStr → Nat
  | [] => 0
  | x :: xs => if c ∈ xs then afterLast c xs + 1 else if x = c then 1 else 0

/-- `GetPathToAssembly`, Program.cs lines 81-95: the directory part, `Substring(0, index + 1)`. -/
def directory (arg : WStr) : WStr :=
  if 47 ∈ arg then arg.take (afterLast 47 arg) else arg.take (afterLast 92 arg)

/-- Lines 93-94 and 65-67: the three output files. -/
def outputs (arg : WStr) : List WStr :=
  [directory arg ++ w "generated/Translated" ++ w "Protos.h", directory arg ++ w "generated/Translated" ++ w "Header.h",
   directory arg ++ w "generated/Translated" ++ w ".cpp"]

/-! ## Casts in return statements -/

/-- Members of the classes in the order in which the .cpp file is written. -/
inductive Member
  | method (returns : Types.Ty)
  | getter (type : Types.Ty)
  | operator (returns : Types.Ty)
  deriving DecidableEq, Repr

/-- The type of the value returned by the member. -/
def Member.type : Member → Types.Ty
  | .method t | .getter t | .operator t => t

/-- `MethodReturnType` after a member: set by `VisitMethodDeclaration` (CppVisitorBase.cs line 550) and by nothing else
(`VisitPropertyDeclaration` lines 678-707, `VisitOperatorDeclaration` lines 592-603, `VisitAccessor` leave it alone). -/
def afterMember (cur : Option Types.Ty) : Member → Option Types.Ty
  | .method t => some t
  | _ => cur

/-- The type in the cast that `VisitLeave` (MyIlInstructionVisitor.cs line 988) writes before a returned value that is not a variable, field, element or
object (for those `GetTypeForInstruction`, CppTypeVisitor.cs lines 248-265, knows the type itself): `MethodReturnType`, as set when the body is written.
`none` stands for the null dereference when it was never set. -/
def returnCast (cur : Option Types.Ty) (m : Member) : Option Types.Ty := afterMember cur m

/-- The casts written for a sequence of members. -/
def returnCasts : Option Types.Ty → List Member → List (Member × Option Types.Ty)
  | _, [] => []
  | cur, m :: ms => (m, returnCast cur m) :: returnCasts (afterMember cur m) ms

end Verif.Names
