/-!
# Model: the order in which a new object is made

CppTranslator/CppVisitorBase.cs lines 845-870: a constructor is written with its initialiser `: Base (arguments)` and with the instructions of its body; the instruction that calls the base constructor writes nothing
(MyIlInstructionVisitor.cs lines 66, 418-421: the name `.ctor` is replaced by the empty one). The instructions of a constructor in the assembly are the initialisers of the fields, the call of the base constructor, and the
statements of the constructor, in this order (ECMA-334 15.11.3). Classes whose constructor is not in the syntax tree, and whose initialisers are lost, are C121's.
-/
namespace Verif.CtorOrder

/-- A class, as far as making an object goes: what is to be done by the initialisers of its fields and by the constructor used. `α` are the things that can be done, told apart. -/
structure Cls (α : Type) where
  inits : List α
  body : List α

/-- An instruction of a constructor. -/
inductive Ins (α : Type) where
  | act (a : α)
  | baseCall

/-- The instructions in the assembly. -/
def Cls.il {α : Type} (c : Cls α) : List (Ins α) := c.inits.map .act ++ .baseCall :: c.body.map .act

/-- What the translator writes for an instruction of a constructor: FormatCall, MyIlInstructionVisitor.cs lines 413-421: nothing for the call of the base constructor. -/
def written {α : Type} : Ins α → Option α
  | .act a => some a
  | .baseCall => none

/-- The C++ constructor's body: WriteMethodBody, CppVisitorBase.cs line 864. -/
def body {α : Type} (c : Cls α) : List α := c.il.filterMap written

end Verif.CtorOrder
