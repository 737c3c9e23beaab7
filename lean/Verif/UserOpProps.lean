import Verif.UserOpModel
import Verif.OrderProps
/-!
# C118: compound assignment with an overloaded operator
-/
namespace Verif.Order

/-! ### Specification -/

/-- Operators and methods give one value. -/
def Single (p : Prog) : Prop := (∀ op v, (p.op op v).length = 1) ∧ ∀ f v s, ((p.fn f).run v s).1.length = 1

/-- C# (ECMA-334 11.18.3): the target is evaluated once, its old value is read, then the right operand is evaluated, the operator's method is called and its
result stored. -/
def csharpUser (p : Prog) (f : Nat) (t : Target) (e : Src) (s : State) : Val × State :=
  match t with
  | .loc x =>
    let (v, s1) := csharp p e s
    let (r, s2) := (p.fn f).run (s (2 * x) :: v) s1
    ([hd r], put s2 (2 * x) (hd r))
  | .elem i =>
    let (a, s0) := csharp p i s
    let (v, s1) := csharp p e s0
    let (r, s2) := (p.fn f).run (s0 (cell a) :: v) s1
    ([hd r], put s2 (cell a) (hd r))

/-- Computing the target's address changes nothing. -/
def NoEffect (p : Prog) : Target → Prop
  | .loc _ => True
  | .elem i => ∀ x, ¬ wr p (lower i) x

/-! ### C118 -/

theorem length_one {v : Val} (h : v.length = 1) : ∃ a, v = [a] := by
  cases v with
  | nil => cases h
  | cons a t => cases t with
    | nil => exact ⟨a, rfl⟩
    | cons b t => simp at h

/-- Every instruction gives one value. -/
theorem csharp_single (p : Prog) (hp : Single p) : ∀ (e : Src) (s : State), (csharp p e s).1.length = 1
  | .const v, s => by rw [csharp]; rfl
  | .ldloc x, s => by rw [csharp]; rfl
  | .ldelem i, s => by rw [csharp]; rfl
  | .stloc x e, s => by rw [csharp]; rfl
  | .stelem i e, s => by rw [csharp]; rfl
  | .bin op a b, s => by rw [csharp]; exact hp.1 _ _
  | .comp op x e, s => by rw [csharp]; rfl
  | .cond c a b, s => by
    rw [csharp]
    simp only []
    split
    · exact csharp_single p hp a _
    · exact csharp_single p hp b _
  | .call f args, s => by rw [csharp]; exact hp.2 _ _ _

/-- Left-to-right evaluation of the emitted expression does what C# does when the address has no effect. -/
theorem eval_lowerUser (p : Prog) (hp : Single p) (f : Nat) (t : Target) (e : Src) (ht : NoEffect p t) (s : State) :
    eval p (lowerUser f t e) s = csharpUser p f t e s := by
  cases t with
  | loc x => simp only [lowerUser, eval, csharpUser, eval_lower, List.append_nil, List.singleton_append]
  | elem i =>
    have h1 : (csharp p i s).2 = s := by
      rw [← eval_lower]
      funext x
      exact eval_frame p _ s x (ht x)
    obtain ⟨a, ha⟩ := length_one (csharp_single p hp i s)
    simp only [lowerUser, eval, csharpUser, eval_lower, List.append_nil, List.singleton_append, h1, ha]
    simp [snd, hd, cell]

/-- **C118** (partial: computing the target's address changes nothing, and no operand writes what another operand of the same operator or call uses). The
translated compound assignment is defined, and whatever order of evaluation the C++ compiler chooses, it ends with the value and the storage of the
C# one: the target is read and written once, and the operator's method called once with the old value and the right operand. Missing: a target
with effects (`C118_twice_refuted`). -/
theorem C118_compound_partial (p : Prog) (hp : Single p) (f : Nat) (t : Target) (e : Src) (s : State) (ht : NoEffect p t)
    (h : ¬ Interferes p (lowerUser f t e)) :
    ¬ Race (lowerUser f t e) ∧
    ∀ e' s', Steps p (lowerUser f t e) s e' s' →
      (∀ v, e' = .lit v → (v, s') = csharpUser p f t e s) ∧
      ((∀ e'' s'', ¬ Step p e' s' e'' s'') → ∃ v, e' = .lit v) := by
  refine ⟨fun hr => h (race_interferes p _ hr), fun e' s' hs => ⟨?_, ?_⟩⟩
  · rintro v rfl
    rw [← eval_lowerUser p hp f t e ht s, (steps_eval hs h).1, eval]
  · intro hn
    rcases progress p e' s' with h1 | ⟨e'', s'', h1⟩
    · exact h1
    · exact absurd h1 (hn e'' s'')

/-- A method that adds its two arguments and touches nothing. -/
def addFn : Fn where
  run v s := ([hd v + snd v], s)
  rd _ := False
  wr _ := False
  frame _ _ _ _ := rfl
  value _ _ _ _ := rfl
  effect _ _ _ _ _ h := h.elim
/-- A program whose operators and methods all add. -/
def addProg : Prog := ⟨fun _ v => [hd v + snd v], fun _ => addFn⟩

theorem addProg_single : Single addProg := ⟨fun _ _ => rfl, fun _ _ _ => rfl⟩

/-- `a[i] += 5` where `i` is variable 0. -/
example : Single addProg ∧ NoEffect addProg (.elem (.ldloc 0)) ∧ ¬ Interferes addProg (lowerUser 3 (.elem (.ldloc 0)) (.const 5)) := by
  refine ⟨addProg_single, fun x h => by simp [lower, wr] at h, ?_⟩
  simp [Interferes, lowerUser, lower, Somewhere, wr, rd, addProg, addFn]

/-- A context that lets a part of the expression take steps. -/
theorem steps_in {p : Prog} (C : E → E) (hC : ∀ {e s e' s'}, Step p e s e' s' → Step p (C e) s (C e') s') {e s e' s'} (h : Steps p e s e' s') :
    Steps p (C e) s (C e') s' := by
  induction h with
  | refl => exact .refl _ _
  | step h _ ih => exact .step (hC h) ih

theorem steps_trans {p : Prog} {e s e' s' e'' s''} (h : Steps p e s e' s') (h' : Steps p e' s' e'' s'') : Steps p e s e'' s'' := by
  induction h with
  | refl => exact h'
  | step h _ ih => exact .step h (ih h')

theorem steps_last {p : Prog} {e s e' s' e'' s''} (h : Steps p e s e' s') (h' : Step p e' s' e'' s'') : Steps p e s e'' s'' :=
  steps_trans h (.step h' (.refl _ _))

/-- Left to right is one of the orders the C++ compiler may choose. -/
theorem steps_all (p : Prog) : ∀ (e : E) (s : State), Steps p e s (.lit (eval p e s).1) (eval p e s).2
  | .lit v, s => .refl _ _
  | .load x, s => .step (.load x s) (.refl _ _)
  | .loadAt i, s => steps_last (steps_in .loadAt .loadAtC (steps_all p i s)) (.loadAt _ _)
  | .store x e, s => steps_last (steps_in (.store x) .storeC (steps_all p e s)) (.store _ _ _)
  | .storeAt e, s => steps_last (steps_in .storeAt .storeAtC (steps_all p e s)) (.storeAt _ _)
  | .app a b, s => steps_last (steps_trans (steps_in (fun a => .app a b) .appL (steps_all p a s)) (steps_in (.app (.lit _)) .appR (steps_all p b _))) (.app _ _ _)
  | .prim f e, s => steps_last (steps_in (.prim f) .primC (steps_all p e s)) (.prim _ _ _)
  | .cond c a b, s => by
    refine steps_trans (steps_last (steps_in (fun c => .cond c a b) .condC (steps_all p c s)) (.cond _ _ _ _)) ?_
    rw [eval]
    split
    · exact steps_all p a _
    · exact steps_all p b _
  | .call f e, s => steps_last (steps_in (.call f) .callC (steps_all p e s)) (.call _ _ _)

/-- A program for the refutation: method 0 adds one to static field 7 and returns it, the other methods and the operators add. -/
def nextProg : Prog := ⟨fun _ v => [hd v + snd v], fun n => if n = 0 then demo.fn 0 else addFn⟩

/-- **C118** is false of the code for `a[next()] op= 5`: `next` is called twice. With 10 and 20 in elements 1 and 2 the source makes element 1 15; the translated
statement, evaluated from left to right, stores 25 into element 1, made from element 2. -/
theorem C118_twice_refuted : let t : Target := .elem (.call 0 .nil)
    let s : State := fun x => if x = 3 then 10 else if x = 5 then 20 else 0
    ¬ Race (lowerUser 3 t (.const 5)) ∧
    ((csharpUser nextProg 3 t (.const 5) s).1 = [15] ∧ (csharpUser nextProg 3 t (.const 5) s).2 14 = 1) ∧
    ∃ s', Steps nextProg (lowerUser 3 t (.const 5)) s (.lit [25]) s' ∧ s' 14 = 2 ∧ s' 3 = 25 := by
  intro t s
  refine ⟨?_, by decide +kernel, ?_⟩
  · simp [t, Race, lowerUser, lower, lowerArgs, Somewhere, assigns]
  · have := steps_all nextProg (lowerUser 3 t (.const 5)) s
    have e1 : (eval nextProg (lowerUser 3 t (.const 5)) s).1 = [25] := by decide +kernel
    rw [e1] at this
    exact ⟨_, this, by decide +kernel, by decide +kernel⟩

end Verif.Order
