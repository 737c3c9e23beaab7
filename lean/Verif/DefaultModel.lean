import Verif.CtorModel
/-!
# Model: the default value of a struct

CppTranslator/MyIlInstructionVisitor.cs lines 660-667 (`VisitDefaultValue`: `default(S)` becomes `S()`) and HeaderTypeVisitor.cs lines 170-182 (the constructor `S(){};` that is
added to a struct that has constructors). Inside an instruction tree a default value is always of a value type; `default` of a class is a null constant.
-/
namespace Verif.Default

mutual
/-- Types of fields: `scalar` is a number, truth value, character, enumeration or pointer, `time` is `DateTime` or `TimeSpan`, `struct` a struct of the program with the
members that the translator visits (which may have constructors) and its fields. -/
inductive FTy where
  | scalar
  | time
  | struct (ms : List Member.Member) (fs : FTys)
inductive FTys where
  | nil
  | cons (t : FTy) (fs : FTys)
end

/-- The struct has a user-provided constructor without parameters: one of the program, or the added one. -/
def provided (ms : List Member.Member) : Bool := Ctor.generatesDefault true ms || ms.any (fun m => m == .ctor false [])

end Verif.Default
