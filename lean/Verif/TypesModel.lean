import Verif.FmtModel
/-!
# Model of the type checks and type texts of the translator (/repo/CppTranslator/CppTypeVisitor.cs)

Simplification: `Replace`/`StartsWith` with `StringComparison.InvariantCulture` are modelled as ordinal (they agree on the
ASCII names of the .NET library).
-/
namespace Verif.Types

/-- The keys of `legalTypes` (lines 38-41) and the names written to the trace log (line 165), oldest first. -/
structure St where
  legal : List WStr
  errors : List WStr
  deriving DecidableEq, Repr

/-- `LoadValidationData`, lines 94-101: `Dictionary.Add` throws on a duplicate key, which the handler of lines 88-91 catches (and
reports as a missing file). The result is the dictionary and whether that happened. -/
def load : List WStr → List WStr → List WStr × Bool
  | legal, [] => (legal, false)
  | legal, r :: rs => if r ∈ legal then (legal, true) else load (legal ++ [r]) rs

/-- Line 109: remove every reference character. -/
def strip (t : WStr) : WStr := t.filter (· ≠ 38)

/-- `ValidateType(String)`, lines 106-116, with `IllegalType`, lines 163-168. -/
def validate (s : St) (t : WStr) : St :=
  let t := strip t
  if ¬ (w "System.").isPrefixOf t then s
  else if t ∈ s.legal then s
  else { legal := s.legal ++ [t], errors := s.errors ++ [t] }

/-- The parameter list text of `BuildCallSignature`, lines 147-155. -/
def paramText : List WStr → WStr
  | [] => []
  | [p] => p
  | p :: q :: r => p ++ [44] ++ paramText (q :: r)

/-- `BuildCallSignature`, lines 142-158: the signature text. -/
def signature (fullName : WStr) (params : List WStr) : WStr := fullName ++ [40] ++ paramText params ++ [41]

/-- `ValidateCall`, lines 129-136: every parameter type is checked while the signature is built, then the signature. -/
def validateCall (s : St) (fullName : WStr) (params : List WStr) : St :=
  validate (params.foldl validate s) (signature fullName params)

/-- The kinds of types the code distinguishes (`TypeKind`). -/
inductive Kind
  | class | struct | enum | interface | array | other
  deriving DecidableEq, Repr

/-- A type: a named type, or a reference to one (`ByReferenceType`, whose name ends in "&"). -/
inductive Ty
  | named (name : WStr) (kind : Kind)
  | byRef (elem : WStr) (kind : Kind)
  deriving DecidableEq, Repr

/-- `FormatType`, lines 186-200: the emitted text. -/
def formatType (ci : Fmt.CharInfo) : Ty → Res WStr
  | .named name kind => if kind = .array then Fmt.nameText ci (w "Array") else Fmt.nameText ci name
  | .byRef elem _ => Fmt.nameText ci elem

/-- `IsPointerType`, lines 206-216. -/
def isPointer : Ty → Bool
  | .named _ kind => kind = .class || kind = .array
  | .byRef _ kind => kind ≠ .struct

/-- `FormatTypeDelaration`, lines 173-181: the emitted text (its check of line 175 is `validate` on the full name). -/
def declText (ci : Fmt.CharInfo) (t : Ty) : Res WStr :=
  formatType ci t >>= fun n => .ok (if isPointer t then n ++ [42] else n)

/-- `FormatTypeAccess`, lines 235-241: `->` for pointers and unknown types, `.` otherwise. -/
def access : Option Ty → WStr
  | none => w "->"
  | some t => if isPointer t then w "->" else w "."

end Verif.Types
