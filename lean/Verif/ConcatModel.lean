import Verif.StringModel
/-!
# Model: string concatenation in translated code

CppTranslator/MyIlInstructionVisitor.cs lines 457-496 and DotNetLibrary/include/StringDotNet.h lines 134-151.
-/
namespace Verif.Concat
open Verif.StrModel (concat)

/-! The source: calls of `System.String.Concat` nested in each other. An `atom` is any other operand, known by its number. -/
mutual
/-- An operand: something else, a call with its operands as arguments (`arg a b rest` has at least two: with fewer the call is an ordinary one, line
462), or a call whose argument is an array-initialiser block. -/
inductive Src where
  | atom (n : Nat)
  | args (a b : Src) (rest : Srcs)
  | block (items : Items)
/-- A list of operands. -/
inductive Srcs where
  | nil
  | cons (a : Src) (t : Srcs)
/-- The instructions of an array-initialiser block: a store to a local (the new array), a store to an element, anything else. -/
inductive Items where
  | nil
  | stloc (t : Items)
  | stobj (value : Src) (t : Items)
  | other (t : Items)
end

/-- Pieces of the emitted text: `String::Concat(`, `, `, `)` and the text of an atom. -/
inductive Tok where
  | opn | comma | cls | atom (n : Nat)
deriving DecidableEq, Repr

mutual
/-- MyIlInstructionVisitor.cs lines 457-482: `HandleStringConcat`. -/
def emit : Src → Res (List Tok)
  | .atom n => .ok [.atom n]
  | .args a b rest => (emit a).bind fun x => (emit b).bind fun y => (emitRest rest).bind fun z => .ok (.opn :: x ++ .comma :: y ++ z ++ [.cls])
  | .block items => (emitBlock items true).bind fun x => .ok (.opn :: x ++ [.cls])
/-- Lines 471-478: the further arguments, each after a comma. -/
def emitRest : Srcs → Res (List Tok)
  | .nil => .ok []
  | .cons a t => (emit a).bind fun x => (emitRest t).bind fun y => .ok (.comma :: x ++ y)
/-- Lines 483-496: `HandleConcatBlock`; an instruction that is neither kind of store fails the cast of line 490. -/
def emitBlock : Items → Bool → Res (List Tok)
  | .nil, _ => .ok []
  | .stloc t, first => emitBlock t first
  | .stobj v t, first => (emit v).bind fun x => (emitBlock t false).bind fun y => .ok ((if first then [] else [.comma]) ++ x ++ y)
  | .other _, _ => .throw .invalidCast
end

/-- The C++ expression: an atom or a call of `String::Concat`. -/
inductive Tree where
  | atom (n : Nat)
  | call (args : List Tree)

/-- Overloads of `String::Concat` (StringDotNet.h lines 138 and 150-151): an operand list is accepted if it has one to seven members. -/
def arity (n : Nat) : Bool := 1 ≤ n && n ≤ 7

/-- Run-time value of a call: StringDotNet.cpp lines 171-189, parameters not given are null (StringDotNet.h lines 150-151). -/
def call : List (Option WStr) → Res (Option WStr)
  | [] => .ub
  | o :: rest => (concat o (rest ++ List.replicate (6 - rest.length) none)).bind fun v => .ok (some v)

end Verif.Concat
