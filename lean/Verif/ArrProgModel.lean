import Verif.ProgramModel
import Verif.ArraySpec
/-!
# Model and specification for C158: programs with arrays

The programs of C157, whose methods also create arrays of integers, read and write their elements, ask for their lengths, pass them to methods, return them and keep them in variables and static fields. In the source an
array is a shape and a function from index tuples to numbers; in C++ it is the `Array` object of the library (C40-C43): its sizes and its bytes. A reference is a number on both sides: 0 is null, `k` is the `k`-th array
created.
-/
namespace Verif.ArrProg
open Verif.Stmt Verif.Sem
open Verif.IntVal (Ty)
open Verif.Method (Env)
open Verif.Program (Fault ExprSem set)
open Verif.ArrModel (Arr tySize)
open Verif.ArrSpec (Shape Idx InBounds)

/-! ## Programs -/

/-- One, two or three index or size expressions. -/
inductive Xs where
  | one (a : X)
  | two (a b : X)
  | three (a b c : X)

/-- A read inside an expression, of an element of the array in variable `arr` or of its length; `result` stands for the value read in the expression. -/
inductive Read where
  | elem (t : Ty) (arr : Nat) (ix : Xs) (result : Nat)
  | len (arr : Nat) (result : Nat)

/-- An expression with reads in it: they are done in order (each may use the values of the earlier ones), then the expression is evaluated. (C++ may do independent reads in another order. They have no effects,
so this makes no difference unless one raises an exception and another is undefined or raises another exception.) -/
structure RX where
  reads : List Read
  expr : X

inductive Arg where
  | val (e : X)
  | ref (x : Nat)
  | null

inductive Param where
  | val (t : Ty)
  | ref

/-- An operation with effects: the call of a static method, or the creation of an array. `result` stands for the value returned, or for the new array, in the expression the operation is part of. -/
inductive Op where
  | call (callee : Nat) (reads : List Read) (args : List Arg) (result : Nat)
  | new (t : Ty) (reads : List Read) (sizes : Xs) (result : Nat)

/-- An expression with at most one operation in it, which is done first (see `Program.Piece`). -/
structure Piece where
  op : Option Op
  rx : RX

/-- A reference: null or the one in a variable, which may stand for the result of an operation. -/
structure RefPiece where
  op : Option Op
  src : Option Nat

inductive Stmt where
  /-- assignment of an integer to a variable -/
  | assign (target : Nat) (type : Ty) (p : Piece)
  /-- assignment of a reference to a variable -/
  | refer (target : Nat) (p : RefPiece)
  /-- assignment to an element; `ixReads` are the reads inside the index expressions -/
  | setElem (t : Ty) (arr : Nat) (ixReads : List Read) (ix : Xs) (value : RX)
  | throw (x : Exc)

inductive Cond where
  | test (p : Piece)
  | isNull (x : Nat)

inductive Ret where
  | val (p : Piece)
  | ref (p : RefPiece)

structure Meth where
  params : List Param
  retType : Ty
  main : Nat
  blocks : IL
  stmt : Nat → Stmt
  cond : Nat → Cond
  val : Nat → Piece
  ret : Nat → Ret
  catches : Nat → Exc → Bool

structure Prog where
  meth : Nat → Meth
  static : Nat → Bool

/-! ## What arrays mean -/

/-- What can be done with arrays. -/
structure Mem (H : Type) where
  /-- the exception raised when the reference is null; `none`: undefined -/
  null : Option Exc
  new : Ty → Shape → Res H
  get : H → Ty → Idx → Res Int
  /-- whether the element exists -/
  check : H → Ty → Idx → Res Unit
  set : H → Ty → Idx → Int → Res H
  len : H → Int

/-- An array of the source. -/
structure SArr where
  ty : Ty
  sh : Shape
  elem : Idx → Int

def SArr.check (a : SArr) (t : Ty) (ix : Idx) : Res Unit :=
  if a.ty ≠ t ∨ ix.rank ≠ a.sh.rank then .ub else if InBounds a.sh ix then .ok () else .throw .indexOutOfRange

/-- The arrays of C#: created with zeros; a negative size raises OverflowException; an index outside raises IndexOutOfRangeException; null raises NullReferenceException. (An instruction with the wrong element type or the
wrong number of indices is no C# program: `ub`.) -/
def sourceMem : Mem SArr where
  null := some .nullReference
  new t sh := if sh.NonNeg then .ok ⟨t, sh, fun _ => 0⟩ else .throw .overflow
  get a t ix := a.check t ix >>= fun _ => .ok (a.elem ix)
  check := SArr.check
  set a t ix v := a.check t ix >>= fun _ => .ok { a with elem := fun jx => if jx = ix then t.wrap v else a.elem jx }
  len a := a.sh.cells

/-- The sizes the library's constructor can make an array of: the number of bytes, and the intermediate product, fit an Int32 (C40). -/
def Makes (t : Ty) (sh : Shape) : Prop := sh.NonNeg ∧ sh.cells * tySize t ≤ 2147483647 ∧ ∀ x y z, sh = .three x y z → x * y ≤ 2147483647

instance (t : Ty) (sh : Shape) : Decidable (Makes t sh) := by
  unfold Makes
  cases sh with
  | one x => exact decidable_of_iff (Shape.NonNeg (.one x) ∧ Shape.cells (.one x) * tySize t ≤ 2147483647) (by simp)
  | two x y => exact decidable_of_iff (Shape.NonNeg (.two x y) ∧ Shape.cells (.two x y) * tySize t ≤ 2147483647) (by simp)
  | three x y z =>
    exact decidable_of_iff (Shape.NonNeg (.three x y z) ∧ Shape.cells (.three x y z) * tySize t ≤ 2147483647 ∧ x * y ≤ 2147483647)
      (by simp only [Shape.three.injEq]; exact ⟨fun ⟨a, b, c⟩ => ⟨a, b, fun _ _ _ ⟨h1, h2, _⟩ => h1 ▸ h2 ▸ c⟩, fun ⟨a, b, c⟩ => ⟨a, b, c x y z ⟨rfl, rfl, rfl⟩⟩⟩)

/-- The arrays of C#, stopped at null references, negative sizes and sizes that are too large. -/
def stoppedMem : Mem SArr := { sourceMem with null := none, new := fun t sh => if Makes t sh then sourceMem.new t sh else .ub }

/-- `(*((T*)a->Address(i)))` as a value: VisitLdElema, MyIlInstructionVisitor.cs lines 872-882; Address is Array.cpp lines 72-74. -/
def cppGet (a : Arr) (t : Ty) (ix : Idx) : Res Int :=
  ArrModel.address a ix.args.1 ix.args.2.1 ix.args.2.2 >>= fun o =>
    match SBModel.peek a.data o (tySize t) with
    | none => .ub
    | some bs => .ok (ArrModel.loadInt t bs)

/-- The same at the left of `=`: VisitStObj, MyIlInstructionVisitor.cs lines 1177-1186. -/
def cppSet (a : Arr) (t : Ty) (ix : Idx) (v : Int) : Res Arr :=
  ArrModel.address a ix.args.1 ix.args.2.1 ix.args.2.2 >>= fun o =>
    match SBModel.poke a.data o (leBytes (tySize t) v) with
    | none => .ub
    | some d => .ok { a with data := d }

/-- The library's arrays: `new Array(TType,n)` (VisitNewArr, MyIlInstructionVisitor.cs lines 1022-1030), elements, `a->get_Length()` (VisitLdLen, lines 907-912). A null `a` is undefined. -/
def cppMem : Mem Arr where
  null := none
  new t sh := ArrModel.newArr (.int t) sh.args.1 sh.args.2.1 sh.args.2.2
  get := cppGet
  check a _ ix := ArrModel.address a ix.args.1 ix.args.2.1 ix.args.2.2 >>= fun _ => .ok ()
  set := cppSet
  len := ArrModel.length

/-! ## What expressions mean -/

/-- In which order the two sides of an assignment to an element are evaluated: as in C# (array and index, value, then the check of the index); C++11, which leaves the order open, with the left side first, and with the
right side first; and the order of C#, stopped when anything of it is undefined or the two sides raise different exceptions. -/
inductive Order where
  | source | early | late | stopped

/-- The meaning of expressions, of arrays, and the order. -/
structure Lang (H : Type) where
  E : ExprSem
  M : Mem H
  order : Order

/-- The variables and the arrays created so far. -/
structure St (H : Type) where
  vars : Env
  heap : List H

section
variable {H : Type}

/-- The array a reference refers to. -/
def Lang.deref (L : Lang H) (heap : List H) (r : Int) : Res H :=
  if r = 0 then (match L.M.null with | some x => .throw x | none => .ub)
  else if r < 0 then .ub
  else match heap[(r - 1).toNat]? with | some a => .ok a | none => .ub

/-- Index expressions: arguments of type Int32. -/
def Lang.index (L : Lang H) (s : Env) : Xs → Res Idx
  | .one a => L.E.store s .int32 a >>= fun i => .ok (.one i)
  | .two a b => L.E.store s .int32 a >>= fun i => L.E.store s .int32 b >>= fun j => .ok (.two i j)
  | .three a b c => L.E.store s .int32 a >>= fun i => L.E.store s .int32 b >>= fun j => L.E.store s .int32 c >>= fun k => .ok (.three i j k)

def shapeOf : Idx → Shape
  | .one i => .one i
  | .two i j => .two i j
  | .three i j k => .three i j k

/-- One read. -/
def Lang.read (L : Lang H) (heap : List H) (s : Env) : Read → Res Env
  | .elem t arr ix result => L.index s ix >>= fun i => L.deref heap (s arr) >>= fun a => L.M.get a t i >>= fun v => .ok (set s result v)
  | .len arr result => L.deref heap (s arr) >>= fun a => .ok (set s result (L.M.len a))

/-- The reads, in order. -/
def Lang.reads (L : Lang H) (heap : List H) : Env → List Read → Res Env
  | s, [] => .ok s
  | s, r :: rs => L.read heap s r >>= fun s => L.reads heap s rs

/-- What is done with an expression with reads. -/
def Lang.rx {α : Type} (L : Lang H) (heap : List H) (s : Env) (e : RX) (f : Env → X → Res α) : Res α := L.reads heap s e.reads >>= fun s => f s e.expr

/-! ## What statements mean -/

def look {α : Type} (s : St H) : Res α → Ev (St H) Fault α
  | .ok v => .ok v s
  | .throw e => .raise (.exc e) s
  | .ub => .raise .undefined s

def andThen {σ α β : Type} : Ev σ Fault α → (α → σ → Ev σ Fault β) → Ev σ Fault β
  | .ok a s, f => f a s
  | .raise x s, _ => .raise x s

def Lang.args (L : Lang H) (s : Env) : List Param → List Arg → Res (List Int)
  | .val ty :: tys, .val e :: es => L.E.store s ty e >>= fun v => L.args s tys es >>= fun vs => .ok (v :: vs)
  | _ :: tys, .ref x :: es => L.args s tys es >>= fun vs => .ok (s x :: vs)
  | _ :: tys, .null :: es => L.args s tys es >>= fun vs => .ok (0 :: vs)
  | _, _ => .ok []

/-- What a call of a method does: the method, the arguments, the state at the caller. -/
abbrev Calls (H : Type) := Nat → List Int → St H → Ev (St H) Fault (Option Int)

/-- An operation: the variables with which the expression around it is evaluated. -/
def Prog.op (P : Prog) (L : Lang H) (C : Calls H) (s : St H) : Option Op → Ev (St H) Fault Env
  | none => .ok s.vars s
  | some (.call callee reads args result) =>
    andThen (look s (L.reads s.heap s.vars reads >>= fun env => L.args env (P.meth callee).params args)) fun vs s =>
    andThen (C callee vs s) fun r s => .ok (match r with | some v => set s.vars result v | none => s.vars) s
  | some (.new t reads sizes result) =>
    andThen (look s (L.reads s.heap s.vars reads >>= fun env => L.index env sizes >>= fun i => L.M.new t (shapeOf i))) fun a s =>
    .ok (set s.vars result (s.heap.length + 1)) { s with heap := s.heap ++ [a] }

def Prog.piece {α : Type} (P : Prog) (L : Lang H) (C : Calls H) (p : Piece) (f : Env → X → Res α) (s : St H) : Ev (St H) Fault α :=
  andThen (P.op L C s p.op) fun env s => look s (L.rx s.heap env p.rx f)

def Prog.refPiece (P : Prog) (L : Lang H) (C : Calls H) (p : RefPiece) (s : St H) : Ev (St H) Fault Int :=
  andThen (P.op L C s p.op) fun env s => .ok (match p.src with | some x => env x | none => 0) s

/-- The index tuple of an assignment to an element. -/
def Lang.target (L : Lang H) (s : St H) (ixReads : List Read) (ix : Xs) : Res Idx := L.reads s.heap s.vars ixReads >>= fun env => L.index env ix
/-- `Address(...)` of it. -/
def Lang.checked (L : Lang H) (s : St H) (t : Ty) (arr : Nat) (i : Idx) : Res Unit := L.deref s.heap (s.vars arr) >>= fun a => L.M.check a t i
/-- The assignment itself. -/
def Lang.write (L : Lang H) (s : St H) (t : Ty) (arr : Nat) (i : Idx) (v : Int) : Res (List H) :=
  L.deref s.heap (s.vars arr) >>= fun a => L.M.set a t i v >>= fun a => .ok (s.heap.set (s.vars arr - 1).toNat a)

/-- An assignment to an element: the arrays after it. -/
def Lang.setElem (L : Lang H) (s : St H) (t : Ty) (arr : Nat) (ixReads : List Read) (ix : Xs) (value : RX) : Res (List H) :=
  let target := L.target s ixReads ix
  let val := L.rx s.heap s.vars value fun env e => L.E.store env t e
  match L.order with
  | .source => target >>= fun i => val >>= fun v => L.write s t arr i v
  | .early => target >>= fun i => L.checked s t arr i >>= fun _ => val >>= fun v => L.write s t arr i v
  | .late => val >>= fun v => target >>= fun i => L.write s t arr i v
  | .stopped =>
    match target, (target >>= L.checked s t arr), val with
    | .ub, _, _ => .ub
    | _, .ub, _ => .ub
    | _, _, .ub => .ub
    | _, .throw e, .throw e' => if e = e' then .throw e else .ub
    | _, _, _ => target >>= fun i => val >>= fun v => L.write s t arr i v

def Meth.handles (m : Meth) (h : Nat) : Fault → Bool
  | .exc x => m.catches h x
  | _ => false

/-- The pieces of method `m`. -/
def Prog.interp (P : Prog) (L : Lang H) (C : Calls H) (m : Nat) : Interp (St H) Fault where
  act k s := match (P.meth m).stmt k with
    | .assign x ty p => andThen (P.piece L C p (fun s e => L.E.store s ty e) s) fun v s => .ok () { s with vars := set s.vars x v }
    | .refer x p => andThen (P.refPiece L C p s) fun v s => .ok () { s with vars := set s.vars x v }
    | .setElem t arr ixReads ix value => andThen (look s (L.setElem s t arr ixReads ix value)) fun heap s => .ok () { s with heap := heap }
    | .throw x => .raise (.exc x) s
  cond c s := match (P.meth m).cond c with
    | .test p => P.piece L C p L.E.test s
    | .isNull x => .ok (decide (s.vars x = 0)) s
  val v s := P.piece L C ((P.meth m).val v) L.E.val s
  ret v s := match (P.meth m).ret v with
    | .val p => P.piece L C p (fun s e => L.E.store s (P.meth m).retType e) s
    | .ref p => P.refPiece L C p s
  catches := (P.meth m).handles
  bind _ _ s := s

/-! ## What programs mean -/

/-- The state of an execution of a method (see `Program.Prog.enter`). -/
def Prog.enter (P : Prog) (fresh : Env) (vs : List Int) (s : St H) : St H := { s with vars := fun k => if P.static k then s.vars k else (vs[k]?).getD (fresh k) }

/-- The state of the caller after the call. -/
def Prog.back (P : Prog) (s s' : St H) : St H := { s' with vars := fun k => if P.static k then s'.vars k else s.vars k }

def Prog.finish (P : Prog) (s : St H) : Out (St H) Fault → Ev (St H) Fault (Option Int)
  | .ret v s' => .ok v (P.back s s')
  | .uncaught x s' => .raise x (P.back s s')
  | .timeout s' => .raise .cut (P.back s s')
  | .stuck => .raise .undefined s

/-- A call of a method with calls nested at most `d` deep; `run` runs the body of a method. -/
def Prog.call (P : Prog) (L : Lang H) (fresh : Env) (run : Nat → Interp (St H) Fault → St H → Out (St H) Fault) : Nat → Calls H
  | 0, _, _, s => .raise .cut s
  | d + 1, m, vs, s => P.finish s (run m (P.interp L (P.call L fresh run d) m) (P.enter fresh vs s))

end

/-- The program: the instructions are run; each execution of a method jumps at most `n` times. -/
def Prog.runSource (P : Prog) (fresh : Env) (n d : Nat) : Calls SArr :=
  P.call ⟨Program.source, sourceMem, .source⟩ fresh (fun m I => runIL I (P.meth m).main (P.meth m).blocks n) d

/-- The translated program: `body m` is the function written for method `m`; `first` tells which side of an assignment to an element the compiler evaluates first. -/
def Prog.runCpp (P : Prog) (first : Bool) (body : Nat → CS) (fresh : Env) (n d : Nat) : Calls Arr :=
  P.call ⟨Program.cpp, cppMem, if first then .early else .late⟩ fresh (fun m I => runC I (body m) n) d

/-- The program, stopped where the C++ is undefined, the source raises OverflowException, an array is too large, a null reference is used, or the two sides of an assignment to an element raise different exceptions. -/
def Prog.runStopped (P : Prog) (fresh : Env) (n d : Nat) : Calls SArr :=
  P.call ⟨Program.stopped, stoppedMem, .stopped⟩ fresh (fun m I => runIL I (P.meth m).main (P.meth m).blocks n) d

/-! ## When two states are the same -/

/-- The `Array` object has the shape and the elements of the source's array. -/
structure Holds (a : SArr) (c : Arr) : Prop where
  shape : ArrSpec.HasShape a.sh c
  type : c.ty = .int a.ty
  elem : ∀ ix, InBounds a.sh ix → cppGet c a.ty ix = .ok (a.elem ix)

/-- The same variables; as many arrays, each holding what the source's holds. -/
def Same (s : St SArr) (c : St Arr) : Prop :=
  s.vars = c.vars ∧ s.heap.length = c.heap.length ∧ ∀ (k : Nat) a b, s.heap[k]? = some a → c.heap[k]? = some b → Holds a b

/-- The same end: the same value returned or the same fault, in states that are the same. -/
inductive SameEnd : Ev (St SArr) Fault (Option Int) → Ev (St Arr) Fault (Option Int) → Prop where
  | ok (v : Option Int) {s c} (h : Same s c) : SameEnd (.ok v s) (.ok v c)
  | raise (x : Fault) {s c} (h : Same s c) : SameEnd (.raise x s) (.raise x c)

end Verif.ArrProg
