import Verif.CppStmtRead
import Verif.ProgramModel
/-!
# Specification: how a program of C++ functions runs

Independent of the translator: the functions of a program, each with the body its characters are (CppStmtRead), call each other. Executions of the same function have their own variables.
-/
namespace Verif.Read
open Cpp Sem
open Verif.Stmt
open Verif.Method (Env)
open Verif.Program (Calls look)
open Verif.IntVal (Ty)

/-- The values of the arguments of a call, from left to right, converted to the types of the parameters ([expr.call]). -/
def argValues (s : Env) : List Ty → List CX → Res (List Int)
  | ty :: tys, c :: cs => c.eval s >>= fun v => argValues s tys cs >>= fun vs => .ok (ty.wrap v :: vs)
  | _, _ => .ok []

/-- A number that is none of a piece of the kind, a function that is not there. -/
def nothing {α : Type} (s : Env) : Ev Env Program.Fault α := .raise .undefined s

/-- An expression with at most one call: the call is made, then the expression is evaluated with its value. (Everything else in the expression raises no exception before the call and does not depend on what the
call does: `once` of CppRead; an operand that is undefined is taken to be evaluated after the call. A void function is not called in an expression: `callX` of CppRead.)
`use` is what is done with the value. -/
def RX.run {α : Type} (funs : List Fun) (calls : Calls) (r : RX) (use : Int → α) (s : Env) : Ev Env Program.Fault α :=
  match r.call with
  | none => look s (r.expr.eval s >>= fun v => .ok (use v))
  | some c =>
    match funs[c.callee]? with
    | none => nothing s
    | some f =>
      Program.Ev.then (look s (argValues s f.params c.args)) fun vs s =>
      Program.Ev.then (calls c.callee vs s) fun x s =>
      let s := match x with | some v => Program.set s c.result v | none => s
      look s (r.expr.eval s >>= fun v => .ok (use v))

/-- What the pieces of the body of a function of result type `R` do; `classes T x`: a handler for the class `T` catches `x`;
`exn T`: the exception an object of the class `T` is ([except.throw]). -/
def meaningP (classes : WStr → Exc → Bool) (exn : WStr → Option Exc) (funs : List Fun) (calls : Calls) (R : Ty) (ps : List RP) : Interp Env Program.Fault where
  act i s := match ps[i]? with
    | some (.asg k ty c) => Program.Ev.then (c.run funs calls ty.wrap s) fun v s => .ok () (Program.set s k v)
    | some (.asgF k ty c) => Program.Ev.then (c.run funs calls ty.wrap s) fun v s => .ok () (Program.set s k v)
    | some (.callP f args) => match funs[f]? with
      | none => nothing s
      | some p => Program.Ev.then (look s (argValues s p.params args)) fun vs s => Program.Ev.then (calls f vs s) fun _ s => .ok () s
    | some (.thr T) => match exn T with
      | some x => .raise (.exc x) s
      | none => nothing s
    | _ => nothing s
  cond i s := match ps[i]? with
    | some (.ifP c) => c.run funs calls (fun v => decide (v ≠ 0)) s
    | _ => nothing s
  val i s := match ps[i]? with
    | some (.switchP c) => c.run funs calls id s
    | _ => nothing s
  ret i s := match ps[i]? with
    | some (.ret (some c)) => c.run funs calls R.wrap s
    | _ => nothing s
  catches i x := match ps[i]?, x with
    | some (.catchP T), .exc x => classes T x
    | _, _ => false
  bind _ _ s := s

/-- A function whose characters have been read. -/
structure Def where
  head : Fun
  pieces : List RP
  body : CS

/-- A static field is kept in variable `k`. -/
def isField (fields : List Fun) (k : Nat) : Bool := fields.any fun p => p.place == some k

/-- How a call ends; the caller's variables are as before, static fields as the function left them. -/
def finish (fields : List Fun) (s : Env) : Out Env Program.Fault → Ev Env Program.Fault (Option Int)
  | .ret v s' => .ok v fun k => if isField fields k then s' k else s k
  | .uncaught x s' => .raise x fun k => if isField fields k then s' k else s k
  | .timeout s' => .raise .cut fun k => if isField fields k then s' k else s k
  | .stuck => .raise .undefined s

/-- A call of a function of the program, with calls nested at most `d` deep and at most `n` jumps in each execution of a function. `fields` are the static fields of the program. The parameters are variables
0, 1, ...; the other variables start with whatever `fresh` says. -/
def callDef (classes : WStr → Exc → Bool) (exn : WStr → Option Exc) (defs : List Def) (fields : List Fun) (fresh : Env) (n : Nat) : Nat → Calls
  | 0, _, _, s => .raise .cut s
  | d + 1, f, vs, s =>
    match defs[f]? with
    | none => nothing s
    | some D => finish fields s (runC (meaningP classes exn (defs.map (·.head) ++ fields) (callDef classes exn defs fields fresh n d) D.head.ret D.pieces) D.body n
        (fun k => if isField fields k then s k else (vs[k]?).getD (fresh k)))

/-- The `return` statements of a void function have no value, those of the others have one ([stmt.return]). -/
def Def.Returns (D : Def) : Prop := ∀ v, RP.ret v ∈ D.pieces → v.isNone = D.head.void

end Verif.Read
