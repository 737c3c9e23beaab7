import Verif.ArrProgModel
import Verif.DispatchProps
/-!
# Model and specification for C159: programs with objects

The programs of C158, which also declare classes, create objects with constructors, read and assign their fields, call their methods (virtual or not), cast and compare references, and keep, pass and return them. An
object is its class and the values of its fields, in the source and in C++ (whose members are where the compiler puts them; new memory is zero: C52). A reference to an object is a number: 0 is null, `k` is the `k`-th object
created. (References to arrays are numbered apart: a variable is of an array type or of a class type. A variable of type Object that holds an array is not modelled, and neither are interfaces, strings, structs,
delegates, and what happens when memory runs out.)
-/
namespace Verif.ObjProg
open Verif.Stmt Verif.Sem
open Verif.IntVal (Ty)
open Verif.Method (Env)
open Verif.Program (Fault ExprSem set)
open Verif.ArrModel (Arr)
open Verif.ArrProg (Xs Arg Param Mem SArr Order sourceMem stoppedMem cppMem shapeOf Holds andThen)

/-! ## Programs -/

/-- A field as the source names it: the class that declares it and its name; and the static type of the operand. -/
structure Fld where
  stat : Nat
  decl : Nat
  name : Nat

/-- The call of an instance method: `callvirt` or `call`; the static type of the operand; the class that declares the method; its name and parameter types. -/
structure Site where
  virt : Bool
  stat : Nat
  decl : Nat
  name : Nat
  params : Nat

/-- The read of a field of the object in variable `obj`; `result` stands for the value. -/
structure FRead where
  obj : Nat
  f : Fld
  result : Nat

/-- A read inside an expression (see `ArrProg.Read`). -/
inductive Read where
  | arr (r : ArrProg.Read)
  | fld (r : FRead)

/-- An expression with reads in it (see `ArrProg.RX`). -/
structure RX where
  reads : List Read
  expr : X

/-- An operation with effects: the call of a static method, of an instance method, the creation of an array or of an object. -/
inductive Op where
  | call (callee : Nat) (reads : List Read) (args : List Arg) (result : Nat)
  | inst (site : Site) (recv : Nat) (reads : List Read) (args : List Arg) (result : Nat)
  | newArr (t : Ty) (reads : List Read) (sizes : Xs) (result : Nat)
  | newObj (ctor : Nat) (reads : List Read) (args : List Arg) (result : Nat)

/-- An expression with at most one operation in it, which is done first. -/
structure Piece where
  op : Option Op
  rx : RX

/-- A reference: null or the one in a variable, which may stand for the result of the operation or of a read; cast to a class, perhaps. -/
structure RefPiece where
  op : Option Op
  reads : List Read
  src : Option Nat
  cast : Option Nat

inductive Stmt where
  | assign (target : Nat) (type : Ty) (p : Piece)
  | refer (target : Nat) (p : RefPiece)
  /-- `pre`: the fields read to find the array and the indices -/
  | setElem (pre : List FRead) (t : Ty) (arr : Nat) (ixReads : List ArrProg.Read) (ix : Xs) (value : ArrProg.RX)
  /-- assignment of an integer to a field; `pre`: the fields read to find the object -/
  | setField (pre : List FRead) (obj : Nat) (f : Fld) (type : Ty) (p : Piece)
  /-- assignment of a reference to a field -/
  | setRef (pre : List FRead) (obj : Nat) (f : Fld) (p : RefPiece)
  | throw (x : Exc)

inductive Cond where
  | test (p : Piece)
  | isNull (p : RefPiece)
  | same (p : RefPiece) (x : Nat)

inductive Ret where
  | val (p : Piece)
  | ref (p : RefPiece)

structure Meth where
  params : List Param
  retType : Ty
  main : Nat
  blocks : IL
  stmt : Nat → Stmt
  cond : Nat → Cond
  val : Nat → Piece
  ret : Nat → Ret
  catches : Nat → Exc → Bool

/-- A class: its bases, nearest first; the names of the fields it declares; the methods it declares, and the number of the code of each. -/
structure Class where
  bases : List Nat
  fields : List Nat
  decls : Dispatch.Cls
  code : Nat → Nat → Nat

/-- A constructor: of a class without a base (other than Object), or with the constructor of the base class it calls first and the arguments for it; then its body, a method whose variable 0 is `this`. (Initialisers of fields
are assignments at the start of the body; a class with a base constructor has none here: C# executes them before the base constructor and C++ after it. The implicit constructor of a class without one: no body.) -/
inductive Ctor where
  | root (cls : Nat) (params : List Param) (body : Option Nat)
  | derived (cls : Nat) (params : List Param) (base : Ctor) (args : List Arg) (body : Option Nat)

def Ctor.cls : Ctor → Nat
  | .root c _ _ => c
  | .derived c _ _ _ _ => c

def Ctor.params : Ctor → List Param
  | .root _ ps _ => ps
  | .derived _ ps _ _ _ => ps

/-- A program; `sig` gives the types a number of `Dispatch.Meth.params` stands for. -/
structure Prog where
  cls : Nat → Class
  ctor : Nat → Ctor
  meth : Nat → Meth
  sig : Nat → List Param
  static : Nat → Bool

/-! ## What objects mean -/

/-- An object: its class; the class whose constructor is at work or has been completed (C++11 12.7: the class the object has for virtual calls); whether its construction has not failed; its fields, by declaring class
and name. -/
structure Obj where
  cls : Nat
  now : Nat
  live : Bool
  fields : Nat → Nat → Int

/-- A class with its bases. -/
def Prog.chain (P : Prog) (c : Nat) : List Nat := c :: (P.cls c).bases

/-- The classes of `c` that are more derived than `d`. -/
def Prog.above (P : Prog) (c d : Nat) : List Nat := (P.chain c).takeWhile (· ≠ d)

def Prog.declsOf (P : Prog) (cs : List Nat) : List Dispatch.Cls := cs.map fun c => (P.cls c).decls

/-- The class that is `n` classes from the root. -/
def Prog.depth (P : Prog) (c n : Nat) : Option Nat := if n = 0 then none else (P.chain c)[(P.chain c).length - n]?

/-- C#: the class whose method a call executes on an object of class `c` (C120). -/
def Prog.called (P : Prog) (c : Nat) (k : Site) : Option Nat :=
  if k.decl ∈ P.chain c then (Dispatch.csharp ⟨k.virt, k.name, k.params⟩ (P.declsOf (P.above c k.decl)) (P.declsOf (P.chain k.decl))).bind (P.depth c) else none

/-- C++: the class whose function the translated call `operand->Method(arguments)` executes on an object that has class `c` (MyIlInstructionVisitor.cs lines 402-436; C120). -/
def Prog.reached (P : Prog) (c : Nat) (k : Site) : Option Nat :=
  if k.stat ∈ P.chain c then
    (Dispatch.cpp (Dispatch.emit ⟨k.virt, k.name, k.params⟩) ((P.declsOf (P.above c k.stat)).map Dispatch.translate) ((P.declsOf (P.chain k.stat)).map Dispatch.translate)).bind (P.depth c)
  else none

/-- C++ (C++11 10.2): the class whose field `operand->Name` denotes (VisitLdFlda, MyIlInstructionVisitor.cs lines 138-151, 884-891, names no class): the nearest that declares the name. -/
def Prog.nearest (P : Prog) (stat name : Nat) : Option Nat := (P.chain stat).find? fun c => name ∈ (P.cls c).fields

/-- What can be done with objects. -/
structure ObjSem where
  /-- the class whose field is meant; `none`: undefined -/
  field : Obj → Fld → Option Nat
  /-- the class whose method is executed -/
  target : Obj → Site → Option Nat
  cast : Obj → Nat → Res Unit

/-- C#. (A field or method of a class the object does not have: no verified program does this.) -/
def Prog.sourceObj (P : Prog) : ObjSem where
  field o f := if f.decl ∈ P.chain o.cls then some f.decl else none
  target o k := P.called o.cls k
  cast o c := if c ∈ P.chain o.cls then .ok () else .throw .invalidCast

/-- C++. An object whose constructor raised an exception is gone (C++11 5.3.4). The cast `(T*)x` (VisitCastClass, MyIlInstructionVisitor.cs lines 578-585) is not checked: undefined for an object that is no `T`. -/
def Prog.cppObj (P : Prog) : ObjSem where
  field o f := if o.live ∧ f.stat ∈ P.chain o.now then P.nearest f.stat f.name else none
  target o k := if o.live then P.reached o.now k else none
  cast o c := if o.live ∧ c ∈ P.chain o.now then .ok () else .ub

/-- C#, stopped: at casts that fail; at uses of an object as more than the constructor at work has made of it, or after its constructor raised an exception; at virtual calls to a method that a class whose constructor has
not yet begun overrides. -/
def Prog.stoppedObj (P : Prog) : ObjSem where
  field o f := if o.live ∧ f.stat ∈ P.chain o.now ∧ f.decl ∈ P.chain o.cls then some f.decl else none
  target o k := if o.live ∧ k.stat ∈ P.chain o.now ∧ P.called o.cls k = P.called o.now k then P.called o.cls k else none
  cast o c := if o.live ∧ c ∈ P.chain o.now ∧ c ∈ P.chain o.cls then .ok () else .ub

/-! ## What expressions mean -/

structure Lang (H : Type) where
  A : ArrProg.Lang H
  O : ObjSem

/-- The variables, the arrays and the objects created so far. -/
structure St (H : Type) where
  vars : Env
  heap : List H
  objs : List Obj

section
variable {H : Type}

/-- The object a reference refers to. -/
def Lang.obj (L : Lang H) (objs : List Obj) (r : Int) : Res Obj :=
  if r = 0 then (match L.A.M.null with | some x => .throw x | none => .ub)
  else if r < 0 then .ub
  else match objs[(r - 1).toNat]? with | some o => .ok o | none => .ub

/-- A field of it: the object and the class whose field is meant. -/
def Lang.slot (L : Lang H) (objs : List Obj) (r : Int) (f : Fld) : Res (Obj × Nat) :=
  L.obj objs r >>= fun o => match L.O.field o f with | some c => .ok (o, c) | none => .ub

def Lang.fread (L : Lang H) (objs : List Obj) (s : Env) (r : FRead) : Res Env := L.slot objs (s r.obj) r.f >>= fun p => .ok (set s r.result (p.1.fields p.2 r.f.name))

def Lang.freads (L : Lang H) (objs : List Obj) : Env → List FRead → Res Env
  | s, [] => .ok s
  | s, r :: rs => L.fread objs s r >>= fun s => L.freads objs s rs

def Lang.read (L : Lang H) (heap : List H) (objs : List Obj) (s : Env) : Read → Res Env
  | .arr r => L.A.read heap s r
  | .fld r => L.fread objs s r

def Lang.reads (L : Lang H) (heap : List H) (objs : List Obj) : Env → List Read → Res Env
  | s, [] => .ok s
  | s, r :: rs => L.read heap objs s r >>= fun s => L.reads heap objs s rs

/-! ## What statements mean -/

def look {α : Type} (s : St H) : Res α → Ev (St H) Fault α
  | .ok v => .ok v s
  | .throw e => .raise (.exc e) s
  | .ub => .raise .undefined s

abbrev Calls (H : Type) := Nat → List Int → St H → Ev (St H) Fault (Option Int)

/-- The state of an execution of a method (see `Program.Prog.enter`). -/
def Prog.enter (P : Prog) (fresh : Env) (vs : List Int) (s : St H) : St H := { s with vars := fun k => if P.static k then s.vars k else (vs[k]?).getD (fresh k) }

/-- The object has become one of class `c`. -/
def become (r : Int) (c : Nat) (s : St H) : St H := { s with objs := s.objs.modify (r - 1).toNat fun o => { o with now := c } }

/-- The construction of the object has failed. -/
def abandon (r : Int) (s : St H) : St H := { s with objs := s.objs.modify (r - 1).toNat fun o => { o with live := false } }

def runBody (C : Calls H) (r : Int) (vs : List Int) (body : Option Nat) (s : St H) : Ev (St H) Fault Unit :=
  match body with
  | none => .ok () s
  | some m => andThen (C m (r :: vs) s) fun _ s => .ok () s

/-- A constructor at work on the object `r`: the constructor of the base with its arguments (CppVisitorBase.cs lines 337-351, 858-864: the initialiser; the call in the instructions writes nothing, MyIlInstructionVisitor.cs
lines 66, 418-421), then the body. -/
def Prog.construct (P : Prog) (L : Lang H) (C : Calls H) (r : Int) : Ctor → List Int → St H → Ev (St H) Fault Unit
  | .root c _ body, vs, s => runBody C r vs body (become r c s)
  | .derived c _ base args body, vs, s =>
    andThen (look s (L.A.args (P.enter (fun _ => 0) (r :: vs) s).vars base.params args)) fun ws s =>
    andThen (P.construct L C r base ws s) fun _ s => runBody C r vs body (become r c s)

/-- An operation: the variables with which the expression around it is evaluated. `(new T(arguments))`: VisitNewObj, MyIlInstructionVisitor.cs lines 1045-1054. -/
def Prog.op (P : Prog) (L : Lang H) (C : Calls H) (s : St H) : Option Op → Ev (St H) Fault Env
  | none => .ok s.vars s
  | some (.call callee reads args result) =>
    andThen (look s (L.reads s.heap s.objs s.vars reads >>= fun env => L.A.args env (P.meth callee).params args)) fun vs s =>
    andThen (C callee vs s) fun r s => .ok (match r with | some v => set s.vars result v | none => s.vars) s
  | some (.inst site recv reads args result) =>
    andThen (look s (L.reads s.heap s.objs s.vars reads >>= fun env => L.A.args env (P.sig site.params) args >>= fun vs => .ok (env recv :: vs))) fun vs s =>
    andThen (look s (L.obj s.objs (vs.headD 0) >>= fun o => match L.O.target o site with | some c => .ok c | none => .ub)) fun c s =>
    andThen (C ((P.cls c).code site.name site.params) vs s) fun r s => .ok (match r with | some v => set s.vars result v | none => s.vars) s
  | some (.newArr t reads sizes result) =>
    andThen (look s (L.reads s.heap s.objs s.vars reads >>= fun env => L.A.index env sizes >>= fun i => L.A.M.new t (shapeOf i))) fun a s =>
    .ok (set s.vars result (s.heap.length + 1)) { s with heap := s.heap ++ [a] }
  | some (.newObj k reads args result) =>
    andThen (look s (L.reads s.heap s.objs s.vars reads >>= fun env => L.A.args env (P.ctor k).params args)) fun vs s =>
    let r : Int := s.objs.length + 1
    match P.construct L C r (P.ctor k) vs { s with objs := s.objs ++ [⟨(P.ctor k).cls, (P.ctor k).cls, true, fun _ _ => 0⟩] } with
    | .ok _ s => .ok (set s.vars result r) s
    | .raise x s => .raise x (abandon r s)

def Prog.piece {α : Type} (P : Prog) (L : Lang H) (C : Calls H) (p : Piece) (f : Env → X → Res α) (s : St H) : Ev (St H) Fault α :=
  andThen (P.op L C s p.op) fun env s => look s (L.reads s.heap s.objs env p.rx.reads >>= fun env => f env p.rx.expr)

def Lang.cast (L : Lang H) (objs : List Obj) (r : Int) : Option Nat → Res Int
  | none => .ok r
  | some c => if r = 0 then .ok 0 else L.obj objs r >>= fun o => L.O.cast o c >>= fun _ => .ok r

def Prog.refPiece (P : Prog) (L : Lang H) (C : Calls H) (p : RefPiece) (s : St H) : Ev (St H) Fault Int :=
  andThen (P.op L C s p.op) fun env s =>
    look s (L.reads s.heap s.objs env p.reads >>= fun env => L.cast s.objs (match p.src with | some x => env x | none => 0) p.cast)

/-- The object whose field is assigned. -/
def Lang.ref (L : Lang H) (pre : List FRead) (obj : Nat) (s : St H) : Res Int := L.freads s.objs s.vars pre >>= fun env => .ok (env obj)

/-- The assignment of a value to a field: the objects after it. -/
def Lang.put (L : Lang H) (r : Int) (f : Fld) (v : Int) (s : St H) : Res (List Obj) :=
  L.slot s.objs r f >>= fun p => .ok (s.objs.set (r - 1).toNat { p.1 with fields := fun c n => if c = p.2 ∧ n = f.name then v else p.1.fields c n })

/-- An assignment to a field, `x->f = value` (VisitStObj, MyIlInstructionVisitor.cs lines 1177-1186). C#: the object, the value, the assignment. C++11 leaves the order open: the left side first, or the value first. Stopped:
as C#, but undefined unless the left side denotes the same field of an object before and after the value is computed. -/
def Lang.store (L : Lang H) (pre : List FRead) (obj : Nat) (f : Fld) (val : St H → Ev (St H) Fault Int) (s : St H) : Ev (St H) Fault (List Obj) :=
  match L.A.order with
  | .source => andThen (look s (L.ref pre obj s)) fun r s => andThen (val s) fun v s => look s (L.put r f v s)
  | .early => andThen (look s (L.ref pre obj s)) fun r s => andThen (look s (L.slot s.objs r f)) fun _ s => andThen (val s) fun v s => look s (L.put r f v s)
  | .late => andThen (val s) fun v s => andThen (look s (L.ref pre obj s)) fun r s => look s (L.put r f v s)
  | .stopped => andThen (look s (L.ref pre obj s)) fun r s => andThen (look s (L.slot s.objs r f)) fun _ s => andThen (val s) fun v s =>
      if L.ref pre obj s = .ok r then look s (L.put r f v s) else .raise .undefined s

def Meth.handles (m : Meth) (h : Nat) : Fault → Bool
  | .exc x => m.catches h x
  | _ => false

/-- The pieces of method `m`. -/
def Prog.interp (P : Prog) (L : Lang H) (C : Calls H) (m : Nat) : Interp (St H) Fault where
  act k s := match (P.meth m).stmt k with
    | .assign x ty p => andThen (P.piece L C p (fun s e => L.A.E.store s ty e) s) fun v s => .ok () { s with vars := set s.vars x v }
    | .refer x p => andThen (P.refPiece L C p s) fun v s => .ok () { s with vars := set s.vars x v }
    | .setElem pre t arr ixReads ix value =>
      andThen (look s (L.freads s.objs s.vars pre >>= fun env => L.A.setElem ⟨env, s.heap⟩ t arr ixReads ix value)) fun heap s => .ok () { s with heap := heap }
    | .setField pre obj f ty p => andThen (L.store pre obj f (P.piece L C p (fun s e => L.A.E.store s ty e)) s) fun objs s => .ok () { s with objs := objs }
    | .setRef pre obj f p => andThen (L.store pre obj f (P.refPiece L C p) s) fun objs s => .ok () { s with objs := objs }
    | .throw x => .raise (.exc x) s
  cond c s := match (P.meth m).cond c with
    | .test p => P.piece L C p L.A.E.test s
    | .isNull p => andThen (P.refPiece L C p s) fun r s => .ok (decide (r = 0)) s
    | .same p x => andThen (P.refPiece L C p s) fun r s => .ok (decide (r = s.vars x)) s
  val v s := P.piece L C ((P.meth m).val v) L.A.E.val s
  ret v s := match (P.meth m).ret v with
    | .val p => P.piece L C p (fun s e => L.A.E.store s (P.meth m).retType e) s
    | .ref p => P.refPiece L C p s
  catches := (P.meth m).handles
  bind _ _ s := s

/-! ## What programs mean -/

/-- The state of the caller after the call. -/
def Prog.back (P : Prog) (s s' : St H) : St H := { s' with vars := fun k => if P.static k then s'.vars k else s.vars k }

def Prog.finish (P : Prog) (s : St H) : Out (St H) Fault → Ev (St H) Fault (Option Int)
  | .ret v s' => .ok v (P.back s s')
  | .uncaught x s' => .raise x (P.back s s')
  | .timeout s' => .raise .cut (P.back s s')
  | .stuck => .raise .undefined s

/-- A call of a method with calls nested at most `d` deep; `run` runs the body of a method. -/
def Prog.call (P : Prog) (L : Lang H) (fresh : Env) (run : Nat → Interp (St H) Fault → St H → Out (St H) Fault) : Nat → Calls H
  | 0, _, _, s => .raise .cut s
  | d + 1, m, vs, s => P.finish s (run m (P.interp L (P.call L fresh run d) m) (P.enter fresh vs s))

end

def Prog.sourceLang (P : Prog) : Lang SArr := ⟨⟨Program.source, sourceMem, .source⟩, P.sourceObj⟩
def Prog.cppLang (P : Prog) (first : Bool) : Lang Arr := ⟨⟨Program.cpp, cppMem, if first then .early else .late⟩, P.cppObj⟩
def Prog.stoppedLang (P : Prog) : Lang SArr := ⟨⟨Program.stopped, stoppedMem, .stopped⟩, P.stoppedObj⟩

/-- The program: the instructions are run; each execution of a method jumps at most `n` times. -/
def Prog.runSource (P : Prog) (fresh : Env) (n d : Nat) : Calls SArr := P.call P.sourceLang fresh (fun m I => runIL I (P.meth m).main (P.meth m).blocks n) d

/-- The translated program: `body m` is the function written for method `m`; `first` tells which side of an assignment the compiler evaluates first. -/
def Prog.runCpp (P : Prog) (first : Bool) (body : Nat → CS) (fresh : Env) (n d : Nat) : Calls Arr := P.call (P.cppLang first) fresh (fun m I => runC I (body m) n) d

/-- The program, stopped where the C++ is undefined or `stoppedObj` or C158 stop. -/
def Prog.runStopped (P : Prog) (fresh : Env) (n d : Nat) : Calls SArr := P.call P.stoppedLang fresh (fun m I => runIL I (P.meth m).main (P.meth m).blocks n) d

/-! ## When two states are the same -/

/-- The same variables and objects; as many arrays, each holding what the source's holds. -/
def Same (s : St SArr) (c : St Arr) : Prop :=
  s.vars = c.vars ∧ s.objs = c.objs ∧ s.heap.length = c.heap.length ∧ ∀ (k : Nat) a b, s.heap[k]? = some a → c.heap[k]? = some b → Holds a b

/-- The same end: the same value returned or the same fault, in states that are the same. -/
inductive SameEnd : Ev (St SArr) Fault (Option Int) → Ev (St Arr) Fault (Option Int) → Prop where
  | ok (v : Option Int) {s c} (h : Same s c) : SameEnd (.ok v s) (.ok v c)
  | raise (x : Fault) {s c} (h : Same s c) : SameEnd (.raise x s) (.raise x c)

end Verif.ObjProg
