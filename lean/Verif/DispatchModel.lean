import Verif.MemberModel
/-!
# Model: which method a translated call reaches

CppTranslator/MyIlInstructionVisitor.cs lines 402-436: `call` and `callvirt` are written alike, `operand->Method(arguments)`, without naming the class that declares the method. CppVisitorBase.cs lines
154-171: the keyword `virtual` is written for the modifiers `virtual` and `abstract` and nothing for `override`, `new`, `sealed`. The class hierarchy is kept (C85), all members are public, and a
method keeps name and parameter types.
-/
namespace Verif.Dispatch
open Verif.Member (Mod modifierTexts)

/-- How a method is declared: not virtual, `virtual` or `abstract` (a new slot), or `override`. -/
inductive Kind where
  | plain | virt | override
deriving DecidableEq, Repr

/-- Its modifiers, as the translator distinguishes them. -/
def Kind.mods : Kind → List Mod
  | .plain => []
  | .virt => [.virtual]
  | .override => [.other]

/-- A method: its name and the types of its parameters, both known by number, and how it is declared. -/
structure Meth where
  name : Nat
  params : Nat
  kind : Kind
deriving DecidableEq, Repr

/-- The methods a class declares. A class with its bases is a list, most derived first. -/
abbrev Cls := List Meth

/-- The C++ member function a method becomes. -/
structure CppFn where
  name : Nat
  params : Nat
  keyword : Bool
deriving DecidableEq, Repr

/-- The declaration in the header. -/
def declare (m : Meth) : CppFn := ⟨m.name, m.params, (modifierTexts m.kind.mods).contains (w "virtual ")⟩

/-- The C++ class. -/
def translate (c : Cls) : List CppFn := c.map declare

/-- A call in IL: `callvirt` or `call`, and the name and parameters of the method. (The class that declares it is a parameter of the semantics.) -/
structure Call where
  virt : Bool
  name : Nat
  params : Nat
deriving DecidableEq, Repr

/-- The C++ call: name and argument types (lines 419, 428-435); whether it was `call` or `callvirt` is lost. -/
def emit (c : Call) : Nat × Nat := (c.name, c.params)

end Verif.Dispatch
