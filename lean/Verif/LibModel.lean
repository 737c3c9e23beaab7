import Verif.LibTable
import Verif.NamesModel
import Verif.ValidTable
/-!
# Model: calls of library methods

How the translator writes the class, the name and the parameter types of a library call (/repo/CppTranslator/MyIlInstructionVisitor.cs lines 116-164,
413-436, 538-571; CppTypeVisitor.cs lines 174-230). Texts are numbers as in `LibTable`.
-/
namespace Verif.Lib
open LibTable

/-- The number of a text (base 256). -/
def code (t : WStr) : Nat := t.foldl (fun a c => a * 256 + c) 0

/-- The part of a full name after the last point: the `Name` of the type. -/
def lastName (t : WStr) : WStr := (t.reverse.takeWhile (fun c => !(Nat.beq c 46))).reverse

/-- The types `IsPrimative` accepts (MyIlInstructionVisitor.cs lines 116-137): Boolean, Byte, SByte, Char, Int16, UInt16, Int32, UInt32, Int64, UInt64, Single, Double, DateTime, TimeSpan. -/
def primitives : List Nat := [0x426f6f6c65616e, 0x42797465, 0x5342797465, 0x43686172, 0x496e743136, 0x55496e743136, 0x496e743332,
  0x55496e743332, 0x496e743634, 0x55496e743634, 0x53696e676c65, 0x446f75626c65, 0x4461746554696d65, 0x54696d655370616e]

/-- Membership in a list of numbers. -/
def has : List Nat → Nat → Bool
  | [], _ => false
  | a :: l, k => Nat.beq a k || has l k

/-- The C++ class a call goes to: `WrapTypeIfNeeded`, lines 159-164; a receiver of a primitive type is boxed (lines 497-506) into the same class. -/
def className (full : Nat) : Nat :=
  let n := lastName (ValidTable.text full)
  if has primitives (code n) then code n * 0x10000000000 + 0x56616c7565 else code n

/-- The C++ method name: `GetMethodName`, lines 530-537. -/
def methodName (name : Nat) : Nat := code (Names.methodUse (ValidTable.text name))

/-- Library types that are classes, so pointers in C++ (CppTypeVisitor.cs lines 205-216): Object, String, Array, StringBuilder, CharEnumerator. -/
def classTypes : List Nat := [0x4f626a656374, 0x537472696e67, 0x4172726179, 0x537472696e674275696c646572, 0x43686172456e756d657261746f72]

/-- The C++ type of an argument declared with this .NET type: `FormatTypeDelaration`, CppTypeVisitor.cs lines 174-199. Arguments of primitive and enum
parameters are cast to it (MyIlInstructionVisitor.cs lines 562-571). -/
def argType (full : Nat) : Nat :=
  let t := ValidTable.text full
  if t.any (fun c => Nat.beq c 91) then 0x41727261792a
  else let n := lastName t; if has classTypes (code n) then code n * 256 + 42 else code n

/-- `HandleStringImplicit`, MyIlInstructionVisitor.cs lines 446-455, for a call of `System.String.op_Implicit`: the first argument, if it is a string
literal, and the number of arguments. `none` means that the call is left to the general code. -/
def stringImplicit (literal : Option WStr) (args : Nat) : Res (Option WStr) :=
  if literal.isNone && args > 1 then .ok none
  else match literal with
    | none => .throw .nullReference
    | some t => .ok (some t)

end Verif.Lib
