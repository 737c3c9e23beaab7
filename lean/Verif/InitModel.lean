/-!
# Model: initial values of fields

CppTranslator/HeaderTypeVisitor.cs lines 279-304 and CppVisitorBase.cs lines 226-235, 424-428, 889-892: a field declaration is written without its initialiser, in the header and (static fields) in the code file.
CppVisitorBase.cs lines 845-886: constructors are written with the instructions of their bodies; a static constructor becomes a function called by the initialiser of a `Boolean` that follows it in
the code file. HeaderTypeVisitor.cs line 253. The order of the classes is that of Program.cs line 107.

The constructors of the syntax tree come from the decompiler: it shows the constructor of a class as field initialisers and leaves it out when nothing else is in it, and
the C# compiler puts the initialisers at the start of the instructions of each constructor.
-/
namespace Verif.Init

/-- The values of the fields of an object (or of the static fields of a class). -/
abbrev State := Nat → Int

/-- `field = value`, the value computed from the fields. -/
structure Store where
  field : Nat
  value : State → Int

/-- A class: the fields with initialisers, in order, and the bodies of the constructors it declares (an empty list: it declares none, and has the implicit one). -/
structure Cls where
  inits : List Store
  ctors : List (List Store)

/-- The instructions of the constructors in the assembly: initialisers, then body. -/
def Cls.il (c : Cls) : List (List Store) := (if c.ctors.isEmpty then [[]] else c.ctors).map (c.inits ++ ·)

/-- A C++ class: initialisers of members and constructors. -/
structure CppCls where
  inits : List Store
  ctors : List (List Store)

/-- What the translator writes for a class: no initialisers; the constructors of the syntax tree, with the instructions of the assembly. The tree has no constructor when the class
declares none or a single empty one. -/
def translate (c : Cls) : CppCls where
  inits := []
  ctors := match c.ctors with
    | [] => []
    | [[]] => []
    | _ => c.il

/-- The static side of a class: the static fields with initialisers and the static constructor it declares, if any. -/
structure SCls where
  inits : List Store
  ctor : Option (List Store)

/-- What the translator writes for it: a static field without its initialiser (CppVisitorBase.cs lines 226-235), and the function `X_Static` with the instructions of the static constructor when the
syntax tree has one (lines 871-886): the decompiler shows none when the class declares none. -/
def translateStatic (c : SCls) : SCls where
  inits := []
  ctor := c.ctor.map (c.inits ++ ·)

/-! ### The order of static constructors -/

/-- The static fields of all classes. -/
abbrev Statics := Nat → State

/-- A static constructor: the fields of its class as a function of the static fields; it looks only at the classes in `deps`. -/
structure SCtor where
  result : Statics → State
  deps : Nat → Prop
  frame : ∀ s t : Statics, (∀ d, deps d → s d = t d) → result s = result t

/-- A program: the classes in the order of the assembly, with their static constructors, if they have one. -/
abbrev Prog := List (Option SCtor)

/-- A definition of a variable in the code file: `Boolean X::X_Initilized = X::X_Static();` for class `i`. -/
structure Def where
  cls : Nat
  call : SCtor

/-- Program.cs lines 107-122 and CppVisitorBase.cs lines 871-886: the definitions in the code file, of the classes from number `i` on: the classes are written in the order of the assembly, each static constructor
with the variable whose initialiser calls it. -/
def codeFile (i : Nat) : Prog → List Def
  | [] => []
  | none :: rest => codeFile (i + 1) rest
  | some c :: rest => ⟨i, c⟩ :: codeFile (i + 1) rest

end Verif.Init
