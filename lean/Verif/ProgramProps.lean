import Verif.ProgramModel
/-!
# C157: programs of methods that call each other
-/
namespace Verif.Program
open Verif.Stmt Verif.Sem Verif.Method
open Verif.IntVal (Ty)

/-! ## The programs of the theorem -/

/-- Expressions whose value may be stored in a variable of the type (C94). -/
def Storable (ty : Ty) (e : X) : Prop := Agree e ∧ ¬ (e.width = .w32 ∧ tyW ty = .w64)
/-- Conditions (C104). -/
def Testable (e : X) : Prop := Agree e ∧ isIte e = false ∧ (sx e = true ∨ ux e = true)
/-- Switch values. -/
def Switchable (e : X) : Prop := Agree e ∧ sx e = true

/-- The arguments of the call. -/
def Prog.GoodCall (P : Prog) : Option Call → Prop
  | none => True
  | some c => ∀ (i : Nat) ty e, (P.meth c.callee).params[i]? = some ty → c.args[i]? = some e → Storable ty e

structure Prog.GoodMeth (P : Prog) (m : Meth) : Prop where
  stmt : ∀ k x ty p, m.stmt k = .assign x ty p → Storable ty p.expr ∧ P.GoodCall p.call
  call : ∀ k c, m.stmt k = .call c → P.GoodCall (some c)
  cond : ∀ c, Testable (m.cond c).expr ∧ P.GoodCall (m.cond c).call
  val : ∀ v, Switchable (m.val v).expr ∧ P.GoodCall (m.val v).call
  ret : ∀ v, Storable m.retType (m.ret v).expr ∧ P.GoodCall (m.ret v).call
  shape : Shape .blocks m.blocks
  inner : Innermost m.main [] m.blocks
  ids : (m.main :: ids m.blocks).Nodup
  jumps : ∀ l ∈ branches m.blocks, ∀ b, (l, b) ∈ visited m.blocks → ¬ LoneLeave b

/-- Every method is one of C149's. -/
def Prog.Good (P : Prog) : Prop := ∀ m, P.GoodMeth (P.meth m)

/-! ## Expressions -/

/-- `A` is undefined or does what `B` does. -/
structure Below (A B : ExprSem) : Prop where
  store : ∀ s ty e, Storable ty e → A.store s ty e = .ub ∨ A.store s ty e = B.store s ty e
  test : ∀ s e, Testable e → A.test s e = .ub ∨ A.test s e = B.test s e
  val : ∀ s e, Switchable e → A.val s e = .ub ∨ A.val s e = B.val s e

theorem below_source : Below stopped source where
  store s ty e _ := (guarded_cases (cppStore s ty e) (ilStore s ty e)).imp id (fun h => h.2.2)
  test s e _ := (guarded_cases (cppTest s e) (ilTest s e)).imp id (fun h => h.2.2)
  val s e _ := (guarded_cases ((trK e none).eval s) (e.eval s)).imp id (fun h => h.2.2)

theorem below_cpp : Below stopped cpp where
  store s ty e h := (guarded_cases (cppStore s ty e) (ilStore s ty e)).imp id (fun ⟨h1, h2, h3⟩ => h3.trans (C94_value_partial s ty e h.1 h.2 h1 h2).symm)
  test s e h := (guarded_cases (cppTest s e) (ilTest s e)).imp id (fun ⟨h1, h2, h3⟩ => h3.trans (C104_branch_partial s e h.2.1 h.1 h.2.2 h1 h2).symm)
  val s e h := (guarded_cases ((trK e none).eval s) (e.eval s)).imp id (fun ⟨h1, h2, h3⟩ => h3.trans (val_same s e h.1 h.2 h1 h2).symm)

def Bad (x : Fault) : Prop := x = .undefined

/-- The first stops, or they are the same. -/
def ELe {α : Type} (a b : Ev Env Fault α) : Prop := a = b ∨ ∃ x s, a = .raise x s ∧ Bad x

theorem look_le {α : Type} (s : Env) {a b : Res α} (h : a = .ub ∨ a = b) : ELe (look s a) (look s b) := by
  rcases h with h | h
  · exact .inr ⟨.undefined, s, by rw [h]; rfl, rfl⟩
  · exact .inl (by rw [h])

theorem then_le {α β : Type} {a b : Ev Env Fault α} {f g : α → Env → Ev Env Fault β} (h : ELe a b) (hf : ∀ v s, ELe (f v s) (g v s)) : ELe (Ev.then a f) (Ev.then b g) := by
  rcases h with h | ⟨x, s, h, hb⟩
  · subst h
    cases a with
    | ok v s => exact hf v s
    | raise x s => exact .inl rfl
  · rw [h]; exact .inr ⟨x, s, rfl, hb⟩

theorem args_le {A B : ExprSem} (R : Below A B) (s : Env) : ∀ (tys : List Ty) (es : List X), (∀ (i : Nat) ty e, tys[i]? = some ty → es[i]? = some e → Storable ty e) →
    evalArgs A s tys es = .ub ∨ evalArgs A s tys es = evalArgs B s tys es
  | [], _, _ => .inr (by simp [evalArgs])
  | _ :: _, [], _ => .inr (by simp [evalArgs])
  | ty :: tys, e :: es, h => by
    have h0 := R.store s ty e (h 0 ty e rfl rfl)
    have ih := args_le R s tys es (fun i ty e h1 h2 => h (i + 1) ty e h1 h2)
    simp only [evalArgs]
    rcases h0 with h0 | h0
    · exact .inl (by rw [h0]; rfl)
    · rw [h0]
      cases B.store s ty e with
      | ok v =>
        simp only [Res.bind_ok]
        rcases ih with ih | ih
        · exact .inl (by rw [ih]; rfl)
        · exact .inr (by rw [ih])
      | throw x => exact .inr rfl
      | ub => exact .inl rfl

theorem piece_le {α : Type} (P : Prog) {A B : ExprSem} (R : Below A B) {C D : Calls} (hC : ∀ m vs s, ELe (C m vs s) (D m vs s)) (p : Piece) (hp : P.GoodCall p.call)
    {f g : Env → X → Res α} (hf : ∀ s, f s p.expr = .ub ∨ f s p.expr = g s p.expr) (s : Env) : ELe (P.piece A C p f s) (P.piece B D p g s) := by
  unfold Prog.piece
  cases hc : p.call with
  | none => exact look_le s (hf s)
  | some c =>
    rw [hc] at hp
    refine then_le (look_le s (args_le R s _ _ hp)) fun vs s => then_le (hC _ _ _) fun r s => ?_
    exact look_le _ (hf _)

theorem interp_le (P : Prog) (hP : P.Good) {A B : ExprSem} (R : Below A B) {C D : Calls} (hC : ∀ m vs s, ELe (C m vs s) (D m vs s)) (m : Nat) : Refines Bad (P.interp A C m) (P.interp B D m) where
  act k s := by
    show ELe ((P.interp A C m).act k s) ((P.interp B D m).act k s)
    unfold Prog.interp
    simp only []
    cases hk : (P.meth m).stmt k with
    | assign x ty p =>
      obtain ⟨h1, h2⟩ := (hP m).stmt k x ty p hk
      exact then_le (piece_le P R hC p h2 (fun s => R.store s ty _ h1) s) fun v s => .inl rfl
    | throw x => exact .inl rfl
    | call c =>
      have h := (hP m).call k c hk
      exact then_le (look_le s (args_le R s _ _ h)) fun vs s => then_le (hC _ _ _) fun r s => .inl rfl
  cond c s := piece_le P R hC _ ((hP m).cond c).2 (fun s => R.test s _ ((hP m).cond c).1) s
  val v s := piece_le P R hC _ ((hP m).val v).2 (fun s => R.val s _ ((hP m).val v).1) s
  ret v s := piece_le P R hC _ ((hP m).ret v).2 (fun s => R.store s _ _ ((hP m).ret v).1) s
  catches h x := rfl
  bad h x hx := by rw [hx]; rfl
  bind h x s := rfl

/-! ## Calls -/

theorem finish_le (P : Prog) (s : Env) {a b : Out Env Fault} (h : BLe Bad a b) : ELe (P.finish s a) (P.finish s b) := by
  rcases h with ⟨x, s', hx, e⟩ | e
  · rw [e]; exact .inr ⟨x, _, rfl, hx⟩
  · rw [e]; exact .inl rfl

theorem source_le (P : Prog) (hP : P.Good) (fresh : Env) (n : Nat) : ∀ d m vs s, ELe (P.runStopped fresh n d m vs s) (P.runSource fresh n d m vs s)
  | 0, _, _, _ => .inl rfl
  | d + 1, m, vs, s => finish_le P s (runIL_ref (interp_le P hP below_source (source_le P hP fresh n d) m) _ _ n _)

theorem cpp_le (P : Prog) (hP : P.Good) (body : Nat → CS)
    (hflow : ∀ m (I : Interp Env Fault) n s, runIL I (P.meth m).main (P.meth m).blocks n s = .stuck ∨ runC I (body m) n s = runIL I (P.meth m).main (P.meth m).blocks n s)
    (fresh : Env) (n : Nat) : ∀ d m vs s, ELe (P.runStopped fresh n d m vs s) (P.runCpp body fresh n d m vs s)
  | 0, _, _, _ => .inl rfl
  | d + 1, m, vs, s => by
    have ih := cpp_le P hP body hflow fresh n d
    show ELe (P.finish s (runIL (P.interp stopped (P.runStopped fresh n d) m) _ _ n _)) (P.finish s (runC (P.interp cpp (P.runCpp body fresh n d) m) (body m) n _))
    rcases hflow m (P.interp stopped (P.runStopped fresh n d) m) n (P.enter fresh vs s) with e | e
    · rw [e]; exact .inr ⟨.undefined, s, rfl, rfl⟩
    · rw [← e]
      exact finish_le P s (runC_ref (interp_le P hP below_cpp ih m) (body m) n _)

/-- **C157** (partial: the methods of C149 with calls of static methods, static fields and exceptions thrown). A translated program does what the program does: for each method there is exactly one way to read what is
written as a function body, and a call of any method with any arguments and any contents of the static fields returns the same value or ends with the same exception, and leaves the same values in the static fields;
however deep the calls are nested and however often the methods jump; unless on the way some C++ is undefined or the source raises OverflowException. -/
theorem C157_program_partial (P : Prog) (hP : P.Good) :
    ∃ body : Nat → CS, (∀ m, (body m).WF ∧ (body m).flat = emitMain (P.meth m).main false (P.meth m).blocks ∧
        ∀ b : CS, b.WF → b.flat = emitMain (P.meth m).main false (P.meth m).blocks → b = body m) ∧
      ∀ (fresh : Env) (n d m : Nat) (vs : List Int) (s : Env), (∀ s', P.runStopped fresh n d m vs s ≠ .raise .undefined s') →
        P.runCpp body fresh n d m vs s = P.runSource fresh n d m vs s := by
  have ex := fun m => C101_flow_partial (P.meth m).main (P.meth m).blocks (hP m).shape (hP m).inner (hP m).ids (hP m).jumps
  refine ⟨fun m => (ex m).choose, fun m => ⟨(ex m).choose_spec.1, (ex m).choose_spec.2.1, (ex m).choose_spec.2.2.1⟩, fun fresh n d m vs s hns => ?_⟩
  have a := source_le P hP fresh n d m vs s
  have b := cpp_le P hP (fun m => (ex m).choose) (fun m I n s => (ex m).choose_spec.2.2.2 _ _ I n s) fresh n d m vs s
  rcases a with a | ⟨x, s', a, hx⟩
  · rcases b with b | ⟨x, s', b, hx⟩
    · rw [← b, a]
    · rw [hx] at b; exact absurd b (hns s')
  · rw [hx] at a; exact absurd a (hns s')

/-! ## A recursive program -/

/-- `static long Fac(int n) { if (n <= 1) return 1; if (n > limit) throw new ArgumentOutOfRangeException(); count = count + 1; return (long)n * Fac(n - 1); }` (method 0) and
`static long Try(int n) { try { r = Fac(n); } catch (ArgumentOutOfRangeException) { r = -1; } return r; }` (method 1, and all others). The static fields `count` and `limit` are variables 7 and 8. -/
def facProg : Prog where
  static k := k == 7 || k == 8
  meth m := if m = 0 then {
      params := [.int32], retType := .int64, main := 9
      blocks := .bcons 0 (.cons (.ite 1 (.leave 9 0 (some 1)) .nop) (.cons (.ite 2 (.act 2) .nop) (.cons (.act 3) (.cons (.leave 9 0 (some 2)) .nil)))) .bnil
      stmt := fun k => if k = 2 then .throw .argumentOutOfRange else .assign 7 .int32 ⟨none, .bin (.arith .add) false false (.var .int32 7) (.i4 1)⟩
      cond := fun c => if c = 1 then ⟨none, .comp .le false (.var .int32 0) (.i4 1)⟩ else ⟨none, .comp .gt false (.var .int32 0) (.var .int32 8)⟩
      val := fun _ => ⟨none, .i4 0⟩
      ret := fun v => if v = 1 then ⟨none, .i8 1⟩ else
        ⟨some ⟨0, [.bin (.arith .sub) false false (.var .int32 0) (.i4 1)], 1⟩, .bin (.arith .mul) false false (.conv .int64 false false (.var .int32 0)) (.var .int64 1)⟩
      catches := fun _ _ => false }
    else {
      params := [.int32], retType := .int64, main := 9
      blocks := .bcons 0 (.cons (.tryCatch 1 6 (.cons (.act 1) (.cons (.leave 1 6 none) .nil)) .bnil (.hcons 2 7 (.cons (.act 2) (.cons (.leave 2 7 none) .nil)) .bnil .hnil))
        (.cons (.leave 9 0 (some 1)) .nil)) .bnil
      stmt := fun k => if k = 1 then .assign 2 .int64 ⟨some ⟨0, [.var .int32 0], 1⟩, .var .int64 1⟩ else .assign 2 .int64 ⟨none, .i8 (-1)⟩
      cond := fun _ => ⟨none, .comp .gt false (.var .int32 0) (.i4 1)⟩
      val := fun _ => ⟨none, .i4 0⟩
      ret := fun _ => ⟨none, .var .int64 2⟩
      catches := fun _ x => x == .argumentOutOfRange }

/-- What a call returned and the static field `count` after it. -/
def outcome : Ev Env Fault (Option Int) → Option (Option Int × Int)
  | .ok v s => some (v, s 7)
  | .raise _ _ => none

def isUndefined {α : Type} : Ev Env Fault α → Bool
  | .raise .undefined _ => true
  | _ => false

theorem facProg_good : facProg.Good := by
  intro m
  by_cases hm : m = 0
  · subst hm
    refine ⟨?_, fun k c hk => by by_cases h : k = 2 <;> simp [facProg, h] at hk, ?_, ?_, ?_, by simp [facProg, Shape], by simp [facProg, Innermost], by decide, by simp [facProg, branches]⟩
    · intro k x ty p hk
      by_cases h : k = 2
      · simp [facProg, h] at hk
      · simp [facProg, h] at hk
        obtain ⟨rfl, rfl, rfl⟩ := hk
        simp [Prog.GoodCall, Storable, Agree, cty, Sem.tr, constX, CX.ty, common, promote, CT.bits, CT.signed, X.width, tyW, W.bits, sx, ux, I32]
    · intro c
      by_cases h : c = 1 <;>
        simp [facProg, h, Prog.GoodCall, Testable, isIte, Agree, cty, Sem.tr, constX, CX.ty, common, promote, CT.bits, CT.signed, X.width, tyW, W.bits, sx, ux, I32]
    · intro v
      simp [facProg, Prog.GoodCall, Switchable, Agree, cty, Sem.tr, constX, CX.ty, common, promote, CT.bits, CT.signed, X.width, tyW, W.bits, sx, ux, I32]
    · intro v
      by_cases h : v = 1
      · simp [facProg, h, Prog.GoodCall, Storable, Agree, cty, Sem.tr, constX, CX.ty, common, promote, CT.bits, CT.signed, X.width, tyW, W.bits, sx, ux, I32, I64]
      · refine ⟨?_, ?_⟩
        · simp [facProg, h, Storable, Agree, cty, Sem.tr, constX, CX.ty, common, promote, CT.bits, CT.signed, X.width, tyW, W.bits, sx, ux, I32, I64]
        · simp only [facProg, h, if_true, if_false, Prog.GoodCall]
          intro i ty e h1 h2
          rcases i with _ | i
          · simp at h1 h2; subst h1 h2
            simp [Storable, Agree, cty, Sem.tr, constX, CX.ty, common, promote, CT.bits, CT.signed, X.width, tyW, W.bits, sx, ux, I32, I64]
          · simp at h1
  · refine ⟨?_, fun k c hk => by by_cases h : k = 1 <;> simp [facProg, hm, h] at hk, ?_, ?_, ?_, by simp [facProg, hm, Shape], by simp [facProg, hm, Innermost, handlerIds], by simp only [facProg, hm, if_false]; decide, by simp [facProg, hm, branches]⟩
    · intro k x ty p hk
      by_cases h : k = 1
      · simp [facProg, hm, h] at hk
        obtain ⟨rfl, rfl, rfl⟩ := hk
        refine ⟨by simp [Storable, Agree, X.width, tyW], ?_⟩
        simp only [Prog.GoodCall, facProg, if_true]
        intro i ty e h1 h2
        rcases i with _ | i
        · simp at h1 h2; subst h1 h2
          simp [Storable, Agree, X.width, tyW]
        · simp at h1
      · simp [facProg, hm, h] at hk
        obtain ⟨rfl, rfl, rfl⟩ := hk
        simp [Prog.GoodCall, Storable, Agree, cty, Sem.tr, constX, CX.ty, common, promote, CT.bits, CT.signed, X.width, tyW, W.bits, sx, ux, I32, I64]
    · intro c
      simp [facProg, hm, Prog.GoodCall, Testable, isIte, Agree, cty, Sem.tr, constX, CX.ty, common, promote, CT.bits, CT.signed, X.width, tyW, W.bits, sx, ux, I32]
    · intro v
      simp [facProg, hm, Prog.GoodCall, Switchable, Agree, cty, Sem.tr, constX, CX.ty, common, promote, CT.bits, CT.signed, X.width, tyW, W.bits, sx, ux, I32]
    · intro v
      simp [facProg, hm, Prog.GoodCall, Storable, Agree, X.width, tyW]

def start : Env := fun k => if k = 8 then 10 else 0

/-- In C++ `Try(5)` returns 120 after four calls that count, `Try(15)` catches the exception thrown in `Fac` and returns -1. -/
example : ∃ body : Nat → CS, (∀ m, (body m).flat = emitMain (facProg.meth m).main false (facProg.meth m).blocks) ∧
    ∀ fresh : Env, fresh = (fun _ => 77) → outcome (facProg.runCpp body fresh 20 20 1 [5] start) = some (some 120, 4) ∧ outcome (facProg.runCpp body fresh 20 20 1 [15] start) = some (some (-1), 0) := by
  obtain ⟨body, h1, h2⟩ := C157_program_partial facProg facProg_good
  refine ⟨body, fun m => (h1 m).2.1, fun fresh hf => ?_⟩
  subst hf
  rw [h2 _ 20 20 1 [5] start ?_, h2 _ 20 20 1 [15] start ?_]
  · decide +kernel
  · intro s' h
    have : isUndefined (facProg.runStopped (fun _ => 77) 20 20 1 [15] start) = false := by decide +kernel
    rw [h] at this; cases this
  · intro s' h
    have : isUndefined (facProg.runStopped (fun _ => 77) 20 20 1 [5] start) = false := by decide +kernel
    rw [h] at this; cases this

/-! ## Programs that are not translated faithfully -/

/-- `static int Pick(bool a, bool b) { if (a && b) return 1; return 0; }` (method 0) and `static int Ask() { return Pick(true, false); }` (method 1, and all others). -/
def pickProg : Prog where
  static _ := false
  meth m := if m = 0 then {
      params := [.int32, .int32], retType := .int32, main := 9
      blocks := .bcons 0 (.cons (.ite 1 (.leave 9 0 (some 1)) .nop) (.cons (.leave 9 0 (some 2)) .nil)) .bnil
      stmt := fun _ => .throw .argument
      cond := fun _ => ⟨none, .ite (.var .int32 0) (.var .int32 1) (.i4 0)⟩
      val := fun _ => ⟨none, .i4 0⟩
      ret := fun v => ⟨none, .i4 (if v = 1 then 1 else 0)⟩
      catches := fun _ _ => false }
    else {
      params := [], retType := .int32, main := 9
      blocks := .bcons 0 (.cons (.leave 9 0 (some 1)) .nil) .bnil
      stmt := fun _ => .throw .argument
      cond := fun _ => ⟨none, .i4 0⟩
      val := fun _ => ⟨none, .i4 0⟩
      ret := fun _ => ⟨some ⟨0, [.i4 1, .i4 0], 0⟩, .var .int32 0⟩
      catches := fun _ _ => false }

/-- **C157**, the rest refuted: `Ask()` returns 0, and in the translated program 1, whatever the variables hold. -/
theorem C157_refuted (fresh : Env) : outcome (pickProg.runSource fresh 5 5 1 [] (fun _ => 0)) = some (some 0, 0) ∧
    ∀ body : Nat → CS, (∀ m, (body m).WF ∧ (body m).flat = emitMain (pickProg.meth m).main false (pickProg.meth m).blocks) →
      outcome (pickProg.runCpp body fresh 5 5 1 [] (fun _ => 0)) = some (some 1, 0) := by
  refine ⟨rfl, fun body hb => ?_⟩
  have hs : ∀ m, Shape .blocks (pickProg.meth m).blocks := by
    intro m
    by_cases hm : m = 0 <;> simp [pickProg, hm, Shape]
  have key : body = fun m => Stmt.tr 9 (pickProg.meth m).blocks [1] ⟨1, 9⟩ .nil := by
    funext m
    have hm : (pickProg.meth m).main = 9 := by unfold pickProg; simp only []; split <;> rfl
    have hwf := (tr_wf 9 (pickProg.meth m).blocks .blocks (hs m) [1] ⟨1, 9⟩ .nil).1 trivial trivial
    have hfl : (Stmt.tr 9 (pickProg.meth m).blocks [1] ⟨1, 9⟩ .nil).flat = emitMain 9 false (pickProg.meth m).blocks := by rw [tr_flat, emitMain_eq]; simp [CS.flat]
    exact C101_one_reading _ _ (hb m).1 hwf ((hb m).2.trans (by rw [hm]; exact hfl.symm))
  rw [key]
  rfl

end Verif.Program
