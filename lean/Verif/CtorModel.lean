import Verif.MemberModel
import Verif.FmtModel
import Verif.TextModel
/-!
# Model of constructor initialisers and of the generated default constructor (/repo/CppTranslator/CppVisitorBase.cs, HeaderTypeVisitor.cs)

The arguments of `: base(...)` and `: this(...)` are written by the syntax visitor, not by the instruction visitor.
-/
namespace Verif.Ctor
open Verif.Types (Ty formatType)
open Verif.Fmt (CharInfo nameText)

/-- The value of a literal, as `PrimitiveExpression.Value` has it.  `double` and `single` are given by their .NET text. -/
inductive Lit where
  | int (v : Int)
  | char (c : Nat)
  | bool (b : Bool)
  | double (text : WStr)
  | single (text : WStr)
  deriving DecidableEq, Repr

/-- The kinds of expression for which the visitor has an empty body (CppVisitorBase.cs lines 246-251, 277-279, 289-291, 327-329, 367-369, 382-384,
482-484, 500-502, 536-538). -/
inductive Silent | arrayCreate | binary | cast | conditional | defaultValue | direction | indexer | invocation | memberReference
deriving DecidableEq, Repr

/-- Some of the kinds of expression for which it raises NotImplementedException (lines 237-245, 257-260, 270-273, 301-304, 486-489, 504-512, 588-591,
618-621, 795-798, 891-894, 902-910). -/
inductive Rejected | this | new | unary | as | is | lambda | typeOf | checked | parenthesized | interpolated
deriving DecidableEq, Repr

/-- An argument of a constructor initialiser.  `boxed` is the type's name when the literal is boxed. -/
inductive Arg where
  | ident (name : WStr)
  | str (s : WStr)
  | lit (l : Lit) (boxed : Option WStr)
  | null
  | silent (k : Silent)
  | rejected (k : Rejected)
  | named (a : Arg)
  deriving DecidableEq, Repr

/-- The literal itself, CppVisitorBase.cs lines 656-668. -/
def litText : Lit → WStr
  | .int v => decInt v
  | .char c => Fmt.charLiteral c
  | .bool b => if b then w "true" else w "false"
  | .double t => t
  | .single t => w "((Single)" ++ t ++ w ")"

/-- The visits of an argument: `VisitIdentifierExpression` 475-478, `VisitPrimitiveExpression` 638-671, `VisitNullReferenceExpression` 582-585,
`VisitNamedArgumentExpression` 557-560 (the name is dropped), the empty and the throwing ones. -/
def argText (ci : CharInfo) : Arg → Res WStr
  | .ident n => nameText ci n
  | .str s => .ok (w "(new String(" ++ Fmt.stringLiteral s ++ w "))")
  | .lit l none => .ok (litText l)
  | .lit l (some ty) => .ok (w "new " ++ ty ++ w "Value(" ++ litText l ++ w ")")
  | .null => .ok (w "nullptr")
  | .silent _ => .ok []
  | .rejected _ => .throw .notImplemented
  | .named a => argText ci a

/-- The texts of the arguments. -/
def argTexts (ci : CharInfo) : List Arg → Res (List WStr)
  | [] => .ok []
  | a :: as => argText ci a >>= fun t => argTexts ci as >>= fun ts => .ok (t :: ts)

/-- What is written for a constructor initialiser: the initialised entity and its arguments. -/
structure Init where
  target : WStr
  args : List WStr
  deriving DecidableEq, Repr

/-- `VisitConstructorInitializer`, lines 337-351. -/
def initializer (ci : CharInfo) (this : Bool) (base : Ty) (args : List Arg) : Res Init :=
  (if this then .ok (w "this") else formatType ci base) >>= fun q => argTexts ci args >>= fun ts => .ok ⟨q, ts⟩

/-- The text of an initialiser. -/
def Init.text (i : Init) : WStr := w ": " ++ i.target ++ w " (" ++ Header.commaSep i.args ++ w ")"

/-- `HadConstructor` and `HadDefaultConstructor` after the members have been visited, HeaderTypeVisitor.cs lines 256-258 (in `VisitConstructorDeclaration`,
for static constructors too), starting from lines 152-153. -/
def hadCtors : List Member.Member → Bool × Bool
  | [] => (false, false)
  | .ctor _ ps :: ms => (true, ps.isEmpty || (hadCtors ms).2)
  | _ :: ms => hadCtors ms

/-- `CreateDefaultConstructor` is called, HeaderTypeVisitor.cs line 168. -/
def generatesDefault (isStruct : Bool) (ms : List Member.Member) : Bool := isStruct && (hadCtors ms).1 && !(hadCtors ms).2

end Verif.Ctor
