import Verif.FmtModel
/-!
# Model of the ordering of type definitions in the generated header
(/repo/CppTranslator/HeaderTypeVisitor.cs and the selection of types in /repo/CppTranslator/Program.cs)
-/
namespace Verif.Header

/-- `TypeKind`/`ClassType` of a top-level type definition. -/
inductive Kind
  | class | struct | enum | interface | delegate
  deriving DecidableEq, Repr

/-- What the header visitor looks at in a type declaration: its full name, its simple name and namespace, what it is, the full names of
the types in its base list, and the full names of the types of its instance fields. -/
structure Decl where
  fullName : WStr
  name : WStr
  ns : WStr
  kind : Kind
  bases : List WStr
  fields : List WStr
  deriving DecidableEq, Repr

/-- `IsParentOf(possibleParent, possibleChild)`, HeaderTypeVisitor.cs lines 135-147. -/
def isParentOf (parent child : Decl) : Bool := child.bases.any (fun b => parent.fullName == b)

/-- The loop of `VisitTypeDeclaration`, lines 118-126: insert before the first child, else append. -/
def insertDecl : List Decl → Decl → List Decl
  | [], d => [d]
  | e :: es, d => if isParentOf d e then d :: e :: es else e :: insertDecl es d

/-- `VisitTypeDeclaration`, lines 113-128: enums are skipped. -/
def visitType (ds : List Decl) (d : Decl) : List Decl :=
  if d.kind ≠ .enum then insertDecl ds d else ds

/-- The selection of `ProcessModules`, Program.cs lines 110-114: only classes, enums and structs whose name does not start with
`<` and whose namespace does not contain "CppTranslatorSupport". The two name tests are one parameter. -/
def selected (skip : Decl → Bool) (d : Decl) : Bool :=
  (d.kind = .class || d.kind = .enum || d.kind = .struct) && !skip d

/-- The declaration list after all type definitions of the main module were visited, Program.cs lines 108-127. -/
def collect (skip : Decl → Bool) (module : List Decl) : List Decl :=
  (module.filter (selected skip)).foldl visitType []

/-- The definitions `CreateHeaders` writes, in order, HeaderTypeVisitor.cs lines 77-93: structs, then classes. -/
def printed (ds : List Decl) : List Decl :=
  ds.filter (fun d => d.kind = .struct) ++ ds.filter (fun d => d.kind = .class)

/-- The header of a module: the definitions in the order they are written. -/
def header (skip : Decl → Bool) (module : List Decl) : List Decl := printed (collect skip module)

/-- Lines 158-159 repeated for every definition written: the namespaces in order of first use (a `Dictionary` without removals
enumerates in insertion order). -/
def namespacesOf : List WStr → List Decl → List WStr
  | acc, [] => acc
  | acc, d :: ds => namespacesOf (if d.ns ∈ acc then acc else acc ++ [d.ns]) ds

/-- The line written for one namespace by `WriteUsingNamespaces`, lines 102-110. -/
def usingText (ns : WStr) : WStr :=
  w "using namespace " ++ (if ns.isEmpty then w "UNNAMED" else ns ++ w "_NS") ++ w ";"

/-- `WriteUsingNamespaces`, lines 99-111: the lines. -/
def usings (ds : List Decl) : List WStr := (namespacesOf [] ds).map usingText

/-- `OutputParentage`, lines 183-194 with `WriteBaseClasses`, lines 215-228: the text after the class name. The base names are
written with the access specifier `public` only before the first. -/
def commaSep : List WStr → WStr
  | [] => []
  | [b] => b
  | b :: c :: r => b ++ [44] ++ commaSep (c :: r)

/-- See `commaSep`; `baseNames` are the printed names of the base list. -/
def parentage (kind : Kind) (baseNames : List WStr) : WStr :=
  if baseNames ≠ [] then w " : public " ++ commaSep baseNames
  else if kind = .class ∨ kind = .struct then w " : public Object"
  else []

end Verif.Header
