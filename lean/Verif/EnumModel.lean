import Verif.TextModel
/-!
# Model: enums

CppTranslator/ProtoTypeVisitor.cs lines 89-116 (`OutputEnumValues`, `VisitEnumMemberDeclaration`), CppVisitorBase.cs line 668 (`VisitPrimitiveExpression` of a `long`), MyIlInstructionVisitor.cs lines 1137-1146 and
562-571 (casts to an enum type).
-/
namespace Verif.Enum

/-- One member as the decompiler gives it: the name as it is written (C87, C88) and the initialiser, a `long`, if there is one. -/
structure Member where
  name : WStr
  init : Option Int
deriving DecidableEq, Repr

/-- `VisitEnumMemberDeclaration`, lines 106-116; the initialiser is `Value.ToString()`, CppVisitorBase.cs line 668. -/
def memberText (m : Member) : WStr :=
  m.name ++ (match m.init with
    | none => []
    | some v => w " = " ++ decInt v)

/-- What is between the braces, lines 89-104: the members, indented, separated by a comma and the end of the line. -/
def bodyText (nl indent : WStr) : List Member → WStr
  | [] => []
  | [m] => indent ++ memberText m
  | m :: r => indent ++ memberText m ++ w "," ++ nl ++ bodyText nl indent r

/-- The number of bits of a natural number. -/
def width (n : Nat) : Nat := if n = 0 then 0 else Nat.log2 n + 1

/-- The greatest value of a C++ enumeration without fixed underlying type (lines 60-61: `enum E`), [dcl.enum]: the least `2^M - 1` that is at least every enumerator and one less than the negation of every negative one. -/
def bmax (vals : List Int) : Int := 2 ^ (vals.map (fun v => width (if v < 0 then (-v - 1).toNat else v.toNat))).foldl Nat.max 0 - 1

/-- The least value. -/
def bmin (vals : List Int) : Int := if vals.any (· < 0) then -(bmax vals + 1) else 0

/-- `(E)v`, lines 1139-1144 (`HandleStoreVariable`), 562-571 (arguments): a value outside the range of the enumeration is undefined behaviour ([expr.static.cast]). -/
def castTo (vals : List Int) (v : Int) : Res Int := if bmin vals ≤ v ∧ v ≤ bmax vals then .ok v else .ub

end Verif.Enum
