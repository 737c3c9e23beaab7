import Verif.TypesModel
import Verif.HeaderModel
/-!
# Model of the declarations and definitions of class members (/repo/CppTranslator/HeaderTypeVisitor.cs and CppVisitorBase.cs)

What is written for a member is given as a list of items whose parts are texts; `Item.text` puts the parts together.
-/
namespace Verif.Member
open Verif.Types (Ty Kind formatType declText)
open Verif.Fmt (CharInfo nameText)

/-- `ParameterModifier`. -/
inductive PMod | none | ref | out | params | in
deriving DecidableEq, Repr

structure Param where
  ty : Ty
  mod : PMod
  name : WStr
  deriving DecidableEq, Repr

/-- `AddParameterModifiers`, CppVisitorBase.cs lines 176-191. -/
def modText : PMod → WStr
  | .ref => w "& "
  | .out => w "* "
  | _ => []

/-- `VisitParameterDeclaration`, CppVisitorBase.cs lines 610-617: declared type, modifier, a blank, the name. -/
def paramText (ci : CharInfo) (p : Param) : Res WStr :=
  declText ci p.ty >>= fun t => nameText ci p.name >>= fun n => .ok (t ++ modText p.mod ++ [32] ++ n)

/-- The texts of a parameter list. -/
def paramTexts (ci : CharInfo) : List Param → Res (List WStr)
  | [] => .ok []
  | p :: ps => paramText ci p >>= fun t => paramTexts ci ps >>= fun ts => .ok (t :: ts)

/-- The modifiers the translator distinguishes. -/
inductive Mod | static | abstract | virtual | other
deriving DecidableEq, Repr

/-- `WriteModifiers`, CppVisitorBase.cs lines 154-171. -/
def modifierTexts : List Mod → List WStr
  | [] => []
  | .static :: r => w "static " :: modifierTexts r
  | .abstract :: r => w "virtual " :: modifierTexts r
  | .virtual :: r => w "virtual " :: modifierTexts r
  | .other :: r => modifierTexts r

/-- Where a field lives. -/
inductive Storage | instance | static | const
deriving DecidableEq, Repr

/-- User-defined operators: the three of the table in the constructor of CppVisitorBase, lines 72-74, and all others. -/
inductive Oper | addition | subtraction | bitwiseAnd | other
deriving DecidableEq, Repr

/-- `Operators[type]`: a missing key raises KeyNotFoundException. -/
def operName : Oper → Res WStr
  | .addition => .ok (w "op_Addition")
  | .subtraction => .ok (w "op_Subtraction")
  | .bitwiseAnd => .ok (w "op_BitwiseAnd")
  | .other => .throw .keyNotFound

/-- The syntax of an operator's return type: a name, a keyword (`int`, `bool`, ...), or a composed type. -/
inductive RetSyntax | simple (id : WStr) | keyword | composed
deriving DecidableEq, Repr

/-- `VisitSimpleType`, `VisitPrimitiveType`, `VisitComposedType` of CppVisitorBase.cs (lines 764-767, 673-676, 324-326): the name, NotImplementedException, nothing. -/
def retSyntax (ci : CharInfo) : RetSyntax → Res WStr
  | .simple id => nameText ci id
  | .keyword => .throw .notImplemented
  | .composed => .ok []

/-- A member of a class or struct.  `getter`, `setter`: the property has that accessor; `hasBody`: its accessors have bodies (they are not abstract).  The
backing name of an automatic property is what `GetHiddenPropertyName` returns. -/
inductive Member where
  | ctor (static : Bool) (params : List Param)
  | method (mods : List Mod) (ret : Ty) (name : WStr) (params : List Param) (hasBody : Bool)
  | field (storage : Storage) (ty : Ty) (names : List WStr)
  | property (mods : List Mod) (ty : Ty) (name : WStr) (getter setter hasBody : Bool) (backing : Option WStr)
  | oper (op : Oper) (ret : RetSyntax) (params : List Param)
  deriving DecidableEq, Repr

/-- A function declaration or definition head: specifiers, return type (none for constructors), qualifier (in definitions), name, parameters, `= 0`. -/
structure Fn where
  specs : List WStr
  ret : Option WStr
  qual : Option WStr
  name : WStr
  params : List WStr
  pure : Bool
  deriving DecidableEq, Repr

/-- A variable declaration or definition. -/
structure Var where
  specs : List WStr
  ty : WStr
  qual : Option WStr
  names : List WStr
  deriving DecidableEq, Repr

inductive Item | fn (f : Fn) | var (v : Var)
deriving DecidableEq, Repr

/-- The text of an item up to its body or semicolon. -/
def Item.text : Item → WStr
  | .fn f => f.specs.flatten ++ (match f.ret with | some r => r ++ [32] | none => []) ++ (match f.qual with | some q => q ++ w "::" | none => []) ++
      f.name ++ [40] ++ Header.commaSep f.params ++ [41] ++ (if f.pure then w " = 0" else [])
  | .var v => v.specs.flatten ++ v.ty ++ [32] ++ (match v.qual with | some q => q ++ w "::" | none => []) ++ Header.commaSep v.names

/-- A list of names written with `AppendName`. -/
def nameTexts (ci : CharInfo) : List WStr → Res (List WStr)
  | [] => .ok []
  | n :: ns => nameText ci n >>= fun t => nameTexts ci ns >>= fun ts => .ok (t :: ts)

/-- `AppendType`, CppTypeVisitor.cs lines 58-72, 271-279: C# keywords are translated, every other name is written as it is. -/
def appendType (n : WStr) : WStr :=
  if n = w "bool" then w "Boolean" else if n = w "byte" then w "Byte" else if n = w "sbyte" then w "SByte" else if n = w "char" then w "Char"
  else if n = w "double" then w "Double" else if n = w "float" then w "Float" else if n = w "int" then w "Int32" else if n = w "uint" then w "UInt32"
  else if n = w "long" then w "Int64" else if n = w "ulong" then w "UInt64" else if n = w "object" then w "Object" else if n = w "short" then w "Int16"
  else if n = w "ushort" then w "UInt16" else if n = w "string" then w "String" else n

/-- The type text of a static field's definition: `VisitArrayType`, `VisitTypeDefinition`, CppTypeVisitor.cs lines 281-293 (generic instances and type
parameters, which get an error text, are not among the types of the model); a reference type cannot be the
type of a field, its text is the error text of `VisitByReferenceType`. -/
def definitionType : Ty → WStr
  | .named n k => if k = .array then w "Array*" else if k = .class then appendType n ++ [42] else appendType n
  | .byRef n _ => w "*** Unknow type " ++ n ++ [38]

/-- The name of a type. -/
def tyName : Ty → WStr
  | .named n _ => n
  | .byRef n _ => n

/-- The declaration of a property's backing field, HeaderTypeVisitor.cs lines 321-328. -/
def backingItems (t : WStr) : Option WStr → List Item
  | some b => if b = [] then [] else [.var ⟨[], t, none, [b]⟩]
  | none => []

/-- The header's text for a member of the class `cls` (`HeaderTypeVisitor` lines 229-341).  A property's backing field is looked up in the body of its getter
(lines 319-320), which is a null reference when there is no getter or it has no body. -/
def header (ci : CharInfo) (cls : WStr) : Member → Res (List Item)
  | .ctor false ps => nameText ci cls >>= fun n => paramTexts ci ps >>= fun ts => .ok [.fn ⟨[], none, none, n, ts, false⟩]
  | .ctor true _ => nameText ci cls >>= fun n =>
      .ok [.fn ⟨[w "static "], some (w "Boolean"), none, n ++ w "_Static", [], false⟩, .var ⟨[w "static "], w "Boolean", none, [n ++ w "_Initilized"]⟩]
  | .method mods ret name ps body => declText ci ret >>= fun r => nameText ci name >>= fun n => paramTexts ci ps >>= fun ts =>
      .ok [.fn ⟨modifierTexts mods, some r, none, n, ts, !body⟩]
  | .field st ty names => declText ci ty >>= fun t => nameTexts ci names >>= fun ns =>
      .ok [.var ⟨if st = .instance then [] else [w "static "], t, none, ns⟩]
  | .property _ ty name g s body backing => declText ci ty >>= fun t =>
      if !g || !body then .throw .nullReference else
      .ok ((if g then [.fn ⟨[], some t, none, w "get_" ++ name, [], false⟩] else []) ++
        (if s then [.fn ⟨[], some (w "void"), none, w "set_" ++ name, [t ++ w " x_value "], false⟩] else []) ++
        backingItems t backing)
  | .oper op ret ps => retSyntax ci ret >>= fun r => operName op >>= fun n => paramTexts ci ps >>= fun ts =>
      .ok [.fn ⟨[w "static "], some r, none, n, ts, false⟩]

/-- The source file's text for a member of the class `cls` (`CppVisitorBase`: `VisitConstructorDeclaration` 845-885, `VisitMethodDeclaration` 544-555 with
`WriteMethod` 144-149, `VisitFieldDeclaration` 424-428 with `FormatStaticFieldDeclaration` 226-235, `VisitPropertyDeclaration` 678-711,
`VisitOperatorDeclaration` 592-604). -/
def source (ci : CharInfo) (cls : Ty) : Member → Res (List Item)
  | .ctor false ps => formatType ci cls >>= fun q => nameText ci (tyName cls) >>= fun n => paramTexts ci ps >>= fun ts =>
      .ok [.fn ⟨[], none, some q, n, ts, false⟩]
  | .ctor true _ => formatType ci cls >>= fun q => nameText ci (tyName cls) >>= fun n =>
      .ok [.fn ⟨[], some (w "Boolean"), some q, n ++ w "_Static", [], false⟩, .var ⟨[], w "Boolean", some q, [n ++ w "_Initilized"]⟩]
  | .method _ ret name ps body =>
      if body then
        declText ci ret >>= fun r => formatType ci cls >>= fun q => nameText ci name >>= fun n => paramTexts ci ps >>= fun ts =>
          .ok [.fn ⟨[], some r, some q, n, ts, false⟩]
      else .ok []
  | .field st ty names =>
      if st = .static then formatType ci cls >>= fun q => nameTexts ci names >>= fun ns => .ok [.var ⟨[], definitionType ty, some q, ns⟩]
      else .ok []
  | .property _ ty name g s body _ => declText ci ty >>= fun t => formatType ci cls >>= fun q =>
      if !body && (g || s) then .throw .nullReference else
      .ok ((if g then [.fn ⟨[], some t, some q, w "get_" ++ name, [], false⟩] else []) ++
        (if s then [.fn ⟨[], some (w "void"), some q, w "set_" ++ name, [t ++ w " x_value "], false⟩] else []))
  | .oper op ret ps => retSyntax ci ret >>= fun r => operName op >>= fun n => paramTexts ci ps >>= fun ts =>
      .ok [.fn ⟨[], some r, some r, n, ts, false⟩]

/-- The items of all members, in order. -/
def items (f : Member → Res (List Item)) : List Member → Res (List Item)
  | [] => .ok []
  | m :: ms => f m >>= fun a => items f ms >>= fun b => .ok (a ++ b)

end Verif.Member
