import Verif.TextModel
/-!
# Model: which types and members of an assembly are translated

CppTranslator/Program.cs lines 47-75 (`Main`) and 103-135 (`ProcessModules`); CppVisitorBase.cs lines 196-204, 789-795, 837-843 and the visitors that throw NotImplementedException (lines 363-379, 410-413,
430-433, 482-485); ProtoTypeVisitor.cs lines 54-88; HeaderTypeVisitor.cs lines 67-93, 113-128, 152-175. Only which declarations are written is modelled; the order of the header is in HeaderModel, the
text in MemberModel, CtorModel, EnumModel.
-/
namespace Verif.Drive

/-- The kinds of types. -/
inductive TK where
  | class | struct | enum | interface | delegate
deriving DecidableEq, Repr

/-- A type with its members, and lists of declarations. `plain n` is a field, method, constructor, property or operator; `other n` an event, an indexer, a destructor, a fixed-size buffer or a delegate. -/
inductive Decl where
  | ty (kind : TK) (ns name : WStr) (members : Decl)
  | plain (n : Nat)
  | other (n : Nat)
  | nil
  | cons (d : Decl) (r : Decl)
deriving DecidableEq, Repr

/-- The translator stops. -/
inductive Stop where
  /-- NotImplementedException -/
  | notImplemented
  /-- InvalidOperationException: a list is changed while it is enumerated -/
  | collectionModified
deriving DecidableEq, Repr

/-- `String.StartsWith`. -/
def startsWith (p s : WStr) : Bool := p.isPrefixOf s

/-- `String.Contains`. -/
def contains (p : WStr) : WStr → Bool
  | [] => startsWith p []
  | c :: s => startsWith p (c :: s) || contains p s

/-- `ProcessModules`, lines 112-116: the types that are translated. -/
def selected : Decl → Bool
  | .ty k ns name _ => (k = .class || k = .enum || k = .struct) && (!startsWith (w "<") name && !contains (w "CppTranslatorSupport") ns)
  | _ => false

/-- `ProtoTypeVisitor.VisitTypeDeclaration`, lines 54-88: a declaration of the type; for an enum its definition. Members are not visited. -/
def proto : Decl → List WStr
  | .ty _ _ name _ => [name]
  | _ => []

/-- A member visited by `HeaderTypeVisitor.HeaderTypeDeclaration`: a nested type other than an enum is added (`VisitTypeDeclaration`, lines 113-128) to the list that `CreateHeaders` (lines 77-93) is
enumerating, which makes the enumeration fail. -/
def headerMember : Decl → Except Stop (List Nat)
  | .plain n => .ok [n]
  | .ty .enum _ _ _ => .ok []
  | .ty .delegate _ _ _ => .error Stop.notImplemented
  | .ty _ _ _ _ => .error Stop.collectionModified
  | _ => .error Stop.notImplemented

/-- The members, lines 166-169. -/
def headerMembers : Decl → Except Stop (List Nat)
  | .cons d r => headerMember d >>= fun a => headerMembers r >>= fun b => .ok (a ++ b)
  | _ => .ok []

/-- `HeaderTypeVisitor`: the class definitions, with the members declared in them. -/
def header : Decl → Except Stop (List (WStr × List Nat))
  | .ty k _ name ms => if k = .class ∨ k = .struct then (headerMembers ms).map (fun l => [(name, l)]) else .ok []
  | _ => .ok []

/-- `CppVisitorBase.HeaderTypeDeclaration`, lines 196-204, for the source file: the definitions, each with the class it is written for (`CurrentClass`), and the class that is current afterwards. -/
def source : Decl → WStr → Except Stop (List (WStr × Nat) × WStr)
  | .nil, cur => .ok ([], cur)
  | .cons d r, cur => source d cur >>= fun a => source r a.2 >>= fun b => .ok (a.1 ++ b.1, b.2)
  | .plain n, cur => .ok ([(cur, n)], cur)
  | .other _, _ => .error .notImplemented
  | .ty k _ name ms, cur => if k = .enum then .ok ([], cur) else if k = .delegate then .error .notImplemented else source ms name

/-- One pass over the selected types. -/
def pass {α : Type} (f : Decl → Except Stop (List α)) : List Decl → Except Stop (List α)
  | [] => .ok []
  | t :: r => f t >>= fun a => pass f r >>= fun b => .ok (a ++ b)

/-- What `Main` leaves behind: the declarations, the class definitions and the member definitions, as far as it gets. -/
structure Output where
  protos : List WStr
  header : Option (List (WStr × List Nat))
  source : Option (List (WStr × Nat))
deriving DecidableEq, Repr

/-- `Main`, lines 63-66, on the top-level types of the main module. -/
def run (types : List Decl) : Output :=
  let sel := types.filter selected
  let protos := (sel.map proto).flatten
  match pass header sel with
  | .error _ => ⟨protos, none, none⟩
  | .ok h => match pass (fun t => (source t []).map (·.1)) sel with
    | .error _ => ⟨protos, some h, none⟩
    | .ok s => ⟨protos, some h, some s⟩

end Verif.Drive
