import Verif.MethodProps
/-!
# Model and specification for C157: programs of methods that call each other

The methods of C149, with `throw` statements, static fields and calls of static methods. A program is given the meaning of its instructions and the meaning of the C++ functions written for its methods. Both are functions
of a bound on the nesting of calls and a bound on the jumps of each execution of a method.
-/
namespace Verif.Program
open Verif.Stmt Verif.Sem
open Verif.IntVal (Ty)
open Verif.Method (Env)

/-- What ends a method early: an exception; undefined behaviour (of C++, or of instructions that do not say how to go on); one of the bounds is used up. -/
inductive Fault where
  | exc (x : Exc)
  | undefined
  | cut
deriving DecidableEq

/-- A call of a static method: the method, its arguments, and the variable that stands for the returned value in the expression the call is part of. -/
structure Call where
  callee : Nat
  args : List X
  result : Nat

/-- An expression with at most one call in it. The call is made first, then the expression is evaluated with the value returned. (C# evaluates operands from left to right, C++ in any order; for an expression whose other
operands do not raise exceptions and do not read static fields this is the same: C112.) -/
structure Piece where
  call : Option Call
  expr : X

/-- A simple statement. -/
inductive Stmt where
  /-- a piece is assigned to a variable of the type: local variable, parameter, static field -/
  | assign (target : Nat) (type : Ty) (p : Piece)
  /-- an exception is thrown -/
  | throw (x : Exc)
  /-- a call made for its effect; what it returns is not used (and there is no variable for it) -/
  | call (c : Call)

/-- A static method: the types of its parameters (which are variables 0, 1, ...), the type it returns, its instruction tree, and what the tree's numbers stand for. -/
structure Meth where
  params : List Ty
  retType : Ty
  main : Nat
  blocks : IL
  stmt : Nat → Stmt
  cond : Nat → Piece
  val : Nat → Piece
  ret : Nat → Piece
  catches : Nat → Exc → Bool

/-- A program; `static` tells which variables are static fields. The other variables are local to an execution of a method. -/
structure Prog where
  meth : Nat → Meth
  static : Nat → Bool

/-! ## What expressions mean -/

/-- The value stored in a variable of a type (or passed, or returned), the branch taken, the value of a switch. -/
structure ExprSem where
  store : Env → Ty → X → Res Int
  test : Env → X → Res Bool
  val : Env → X → Res Int

/-- The source. -/
def source : ExprSem := ⟨ilStore, ilTest, fun s e => e.eval s⟩

/-- The C++. An argument is written `(T)(e)` with the type of the parameter, MyIlInstructionVisitor.cs lines 538-571; a returned value `(T)e`, lines 979-992. -/
def cpp : ExprSem := ⟨cppStore, cppTest, fun s e => (trK e none).eval s⟩

/-- The source, stopped where the C++ is undefined or the source raises OverflowException. -/
def stopped : ExprSem :=
  ⟨fun s ty e => Method.guarded (cppStore s ty e) (ilStore s ty e), fun s e => Method.guarded (cppTest s e) (ilTest s e), fun s e => Method.guarded ((trK e none).eval s) (e.eval s)⟩

/-! ## What statements mean -/

def set (s : Env) (x : Nat) (v : Int) : Env := fun y => if y = x then v else s y

/-- A value, or the fault. -/
def look {α : Type} (s : Env) : Res α → Ev Env Fault α
  | .ok v => .ok v s
  | .throw e => .raise (.exc e) s
  | .ub => .raise .undefined s

def Ev.then {α β : Type} : Ev Env Fault α → (α → Env → Ev Env Fault β) → Ev Env Fault β
  | .ok a s, f => f a s
  | .raise x s, _ => .raise x s

/-- The values of the arguments, converted to the parameters' types. -/
def evalArgs (E : ExprSem) (s : Env) : List Ty → List X → Res (List Int)
  | ty :: tys, e :: es => E.store s ty e >>= fun v => evalArgs E s tys es >>= fun vs => .ok (v :: vs)
  | _, _ => .ok []

/-- What a call of a method does: the method, the arguments, the variables at the caller. -/
abbrev Calls := Nat → List Int → Env → Ev Env Fault (Option Int)

/-- A piece: the call, if there is one, then what is done with the expression. -/
def Prog.piece {α : Type} (P : Prog) (E : ExprSem) (C : Calls) (p : Piece) (f : Env → X → Res α) (s : Env) : Ev Env Fault α :=
  match p.call with
  | none => look s (f s p.expr)
  | some c =>
    Ev.then (look s (evalArgs E s (P.meth c.callee).params c.args)) fun vs s =>
    Ev.then (C c.callee vs s) fun r s =>
    let s := match r with | some v => set s c.result v | none => s
    look s (f s p.expr)

/-- Handlers are for exceptions. -/
def Meth.handles (m : Meth) (h : Nat) : Fault → Bool
  | .exc x => m.catches h x
  | _ => false

/-- The pieces of method `m`, under a meaning of expressions and of calls. -/
def Prog.interp (P : Prog) (E : ExprSem) (C : Calls) (m : Nat) : Interp Env Fault where
  act k s := match (P.meth m).stmt k with
    | .assign x ty p => Ev.then (P.piece E C p (fun s e => E.store s ty e) s) fun v s => .ok () (set s x v)
    | .throw x => .raise (.exc x) s
    | .call c => Ev.then (look s (evalArgs E s (P.meth c.callee).params c.args)) fun vs s => Ev.then (C c.callee vs s) fun _ s => .ok () s
  cond c s := P.piece E C ((P.meth m).cond c) E.test s
  val v s := P.piece E C ((P.meth m).val v) E.val s
  ret v s := P.piece E C ((P.meth m).ret v) (fun s e => E.store s (P.meth m).retType e) s
  catches := (P.meth m).handles
  bind _ _ s := s

/-! ## What programs mean -/

/-- The variables of an execution of a method: static fields as they are, parameters the arguments, the other variables whatever they hold (`fresh`; no C# method reads a variable before it is assigned). -/
def Prog.enter (P : Prog) (fresh : Env) (vs : List Int) (s : Env) : Env := fun k => if P.static k then s k else (vs[k]?).getD (fresh k)

/-- The variables of the caller after the call: static fields as the method left them, the others as they were. -/
def Prog.back (P : Prog) (s s' : Env) : Env := fun k => if P.static k then s' k else s k

/-- How the call ends. -/
def Prog.finish (P : Prog) (s : Env) : Out Env Fault → Ev Env Fault (Option Int)
  | .ret v s' => .ok v (P.back s s')
  | .uncaught x s' => .raise x (P.back s s')
  | .timeout s' => .raise .cut (P.back s s')
  | .stuck => .raise .undefined s

/-- A call of a method with calls nested at most `d` deep; `run` runs the body of a method. -/
def Prog.call (P : Prog) (E : ExprSem) (fresh : Env) (run : Nat → Interp Env Fault → Env → Out Env Fault) : Nat → Calls
  | 0, _, _, s => .raise .cut s
  | d + 1, m, vs, s => P.finish s (run m (P.interp E (P.call E fresh run d) m) (P.enter fresh vs s))

/-- The program: the instructions are run; each execution of a method jumps at most `n` times. -/
def Prog.runSource (P : Prog) (fresh : Env) (n d : Nat) : Calls := P.call source fresh (fun m I => runIL I (P.meth m).main (P.meth m).blocks n) d

/-- The translated program: `body m` is the function written for method `m`. -/
def Prog.runCpp (P : Prog) (body : Nat → CS) (fresh : Env) (n d : Nat) : Calls := P.call cpp fresh (fun m I => runC I (body m) n) d

/-- The program, stopped where the C++ is undefined or the source raises OverflowException. -/
def Prog.runStopped (P : Prog) (fresh : Env) (n d : Nat) : Calls := P.call stopped fresh (fun m I => runIL I (P.meth m).main (P.meth m).blocks n) d

end Verif.Program
