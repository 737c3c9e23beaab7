/-!
# Model: operands with side effects

CppTranslator/MyIlInstructionVisitor.cs: how the operands of an instruction are arranged in the emitted C++ expression. Storage is a sequence of cells:
cell `2 x` is the local variable or static field `x`, cell `2 n + 1` is the array element at address `n`. Values are lists of numbers so that an
argument list is a value; a single operand is a list of length one.
-/
namespace Verif.Order

/-- The contents of the cells. -/
abbrev State := Nat → Int
/-- A value, or the values of an argument list. -/
abbrev Val := List Int

mutual
/-- Instructions: constant, read of a local, read of an array element (the operand is its address), store to a local, store to an array element,
binary operation, compound assignment to a local, conditional, call. Primitive operations and methods are known by number. -/
inductive Src where
  | const (v : Int)
  | ldloc (x : Nat)
  | ldelem (i : Src)
  | stloc (x : Nat) (e : Src)
  | stelem (i e : Src)
  | bin (op : Nat) (a b : Src)
  | comp (op : Nat) (x : Nat) (e : Src)
  | cond (c a b : Src)
  | call (f : Nat) (args : Args)
/-- Arguments of a call, the object of an instance call first. -/
inductive Args where
  | nil
  | cons (a : Src) (t : Args)
end

/-- C++ expressions: `app a b` are the operands `a` and `b` of one operator or call, `prim` applies an operator to its operands, `call` a function. -/
inductive E where
  | lit (v : Val)
  | load (x : Nat)
  | loadAt (i : E)
  | store (x : Nat) (e : E)
  | storeAt (ie : E)
  | app (a b : E)
  | prim (op : Nat) (e : E)
  | cond (c a b : E)
  | call (f : Nat) (e : E)
deriving DecidableEq

mutual
/-- The emitted expression: `VisitLdcI4` (lines 850-854), `VisitLdLoc` (914-923), `VisitLdElema` (872-882), `VisitStLoc` (1127-1136), `VisitStObj`
(1177-1186), `VisitBinaryNumericInstruction` and `VisitComp` (189-203, 592-601: left operand, operator, right operand), `VisitNumericCompoundAssign` (1076-1099: `x op= e`,
which C++ evaluates as `x = x op e`), `VisitIfInstruction` as an expression (`c ? a : b`, lines 739-777), `FormatCall` and `AddCallParameters` (413-436, 538-561: the
arguments of one C++ call, in order). -/
def lower : Src → E
  | .const v => .lit [v]
  | .ldloc x => .load x
  | .ldelem i => .loadAt (lower i)
  | .stloc x e => .store x (lower e)
  | .stelem i e => .storeAt (.app (lower i) (lower e))
  | .bin op a b => .prim op (.app (lower a) (lower b))
  | .comp op x e => .store x (.prim op (.app (.load x) (lower e)))
  | .cond c a b => .cond (lower c) (lower a) (lower b)
  | .call f args => .call f (lowerArgs args)
def lowerArgs : Args → E
  | .nil => .lit []
  | .cons a t => .app (lower a) (lowerArgs t)
end

end Verif.Order
