import Verif.MemberModel
/-!
# Model: the type of a static field, in the header and in the code file, for every form a type can have

CppTypeVisitor.cs lines 173-216 (`FormatTypeDelaration`, `FormatType`, `IsPointerType`: by the type's own name and kind) and 281-356 (the type visitor).
-/
namespace Verif.FieldType
open Verif.Types (Ty Kind formatType isPointer declText)
open Verif.Fmt (CharInfo nameText)
open Verif.Member (definitionType)

/-- The forms of types that the type visitor answers with an error text, CppTypeVisitor.cs lines 295-356: `VisitByReferenceType`, `VisitModOpt`, `VisitModReq`,
`VisitNullabilityAnnotatedType`, `VisitOtherType`, `VisitParameterizedType`, `VisitPointerType`, `VisitTupleType`, `VisitTypeParameter`. -/
inductive Form
  | byReference | modOpt | modReq | nullability | other | parameterized | pointer | tuple | typeParameter
  deriving DecidableEq, Repr

/-- The type of a field: a type definition or an array, or a type of another form with its `Name`, `Kind` (a constructed class has the kind of its definition) and
`ToString()`. -/
inductive FTy
  | plain (name : WStr) (kind : Kind)
  | formed (form : Form) (name : WStr) (kind : Kind) (full : WStr)
  deriving DecidableEq, Repr

/-- `FormatTypeDelaration`, lines 173-181, as called for the field in the header (HeaderTypeVisitor.cs lines 279-293, `VisitFieldDeclaration`): only name and kind count. A field cannot have a by-reference type. -/
def declared (ci : CharInfo) : FTy → Res WStr
  | .plain n k => declText ci (.named n k)
  | .formed _ n k _ => declText ci (.named n k)

/-- The text the type visitor writes for the field's definition (CppVisitorBase.cs line 229), lines 281-356; `rest` is what the decompiler library's `base.Visit...` makes the visitor write for the
parts of the type (an exception of that library is not modelled: it is the caller's `rest`). -/
def defined (rest : FTy → WStr) : FTy → WStr
  | .plain n k => definitionType (.named n k)
  | .formed f n k full => w "*** Unknow type " ++ full ++ rest (.formed f n k full)

end Verif.FieldType
