import Verif.OrderModel
import Mathlib.Tactic.Tauto
import Batteries.Tactic.Init
/-!
# C112: operands with side effects are evaluated in the source's order
-/
namespace Verif.Order

/-! ### Specification: C# and C++11 evaluation -/

/-- A method: what it computes, the cells it may read and write; it depends on nothing else and changes nothing else. -/
structure Fn where
  run : Val → State → Val × State
  rd : Nat → Prop
  wr : Nat → Prop
  frame : ∀ v s x, ¬ wr x → (run v s).2 x = s x
  value : ∀ v s t, (∀ x, rd x ∨ wr x → s x = t x) → (run v s).1 = (run v t).1
  effect : ∀ v s t, (∀ x, rd x ∨ wr x → s x = t x) → ∀ x, wr x → (run v s).2 x = (run v t).2 x

/-- The program: meaning of operators and methods. -/
structure Prog where
  op : Nat → Val → Val
  fn : Nat → Fn

/-- First number of a value. -/
def hd (v : Val) : Int := v.headD 0
/-- Second number of a value. -/
def snd (v : Val) : Int := hd v.tail
/-- Cell of the array element with this address. -/
def cell (v : Val) : Nat := 2 * (hd v).toNat + 1
/-- Change of one cell. -/
def put (s : State) (x : Nat) (v : Int) : State := fun y => if y = x then v else s y

mutual
/-- C#: operands are evaluated from left to right (ECMA-334 11.4.1). -/
def csharp (p : Prog) : Src → State → Val × State
  | .const v, s => ([v], s)
  | .ldloc x, s => ([s (2 * x)], s)
  | .ldelem i, s => let (v, s) := csharp p i s; ([s (cell v)], s)
  | .stloc x e, s => let (v, s) := csharp p e s; ([hd v], put s (2 * x) (hd v))
  | .stelem i e, s => let (a, s) := csharp p i s; let (v, s) := csharp p e s; ([snd (a ++ v)], put s (cell (a ++ v)) (snd (a ++ v)))
  | .bin op a b, s => let (u, s) := csharp p a s; let (v, s) := csharp p b s; (p.op op (u ++ v), s)
  | .comp op x e, s => let old := s (2 * x); let (v, s) := csharp p e s; ([hd (p.op op ([old] ++ v))], put s (2 * x) (hd (p.op op ([old] ++ v))))
  | .cond c a b, s => let (v, s) := csharp p c s; if hd v ≠ 0 then csharp p a s else csharp p b s
  | .call f args, s => let (v, s) := csharpArgs p args s; (p.fn f).run v s
def csharpArgs (p : Prog) : Args → State → Val × State
  | .nil, s => ([], s)
  | .cons a t, s => let (u, s) := csharp p a s; let (v, s) := csharpArgs p t s; (u ++ v, s)
end

/-- C++11 (intro.execution 15, expr.call 8): one step of evaluation. The operands of an operator and the arguments of a call are evaluated in any
order, step by step interleaved; a function body runs without interruption; the store of an assignment happens before its value is used. -/
inductive Step (p : Prog) : E → State → E → State → Prop
  | load (x s) : Step p (.load x) s (.lit [s (2 * x)]) s
  | loadAtC {i s i' s'} : Step p i s i' s' → Step p (.loadAt i) s (.loadAt i') s'
  | loadAt (v s) : Step p (.loadAt (.lit v)) s (.lit [s (cell v)]) s
  | storeC {x e s e' s'} : Step p e s e' s' → Step p (.store x e) s (.store x e') s'
  | store (x v s) : Step p (.store x (.lit v)) s (.lit [hd v]) (put s (2 * x) (hd v))
  | storeAtC {e s e' s'} : Step p e s e' s' → Step p (.storeAt e) s (.storeAt e') s'
  | storeAt (v s) : Step p (.storeAt (.lit v)) s (.lit [snd v]) (put s (cell v) (snd v))
  | appL {a b s a' s'} : Step p a s a' s' → Step p (.app a b) s (.app a' b) s'
  | appR {a b s b' s'} : Step p b s b' s' → Step p (.app a b) s (.app a b') s'
  | app (u v s) : Step p (.app (.lit u) (.lit v)) s (.lit (u ++ v)) s
  | primC {f e s e' s'} : Step p e s e' s' → Step p (.prim f e) s (.prim f e') s'
  | prim (f v s) : Step p (.prim f (.lit v)) s (.lit (p.op f v)) s
  | condC {c a b s c' s'} : Step p c s c' s' → Step p (.cond c a b) s (.cond c' a b) s'
  | cond (v a b s) : Step p (.cond (.lit v) a b) s (if hd v ≠ 0 then a else b) s
  | callC {f e s e' s'} : Step p e s e' s' → Step p (.call f e) s (.call f e') s'
  | call (f v s) : Step p (.call f (.lit v)) s (.lit ((p.fn f).run v s).1) ((p.fn f).run v s).2

/-- Any number of steps. -/
inductive Steps (p : Prog) : E → State → E → State → Prop
  | refl (e s) : Steps p e s e s
  | step {e s e' s' e'' s''} : Step p e s e' s' → Steps p e' s' e'' s'' → Steps p e s e'' s''

/-- Cells an expression may read. -/
def rd (p : Prog) : E → Nat → Prop
  | .lit _, _ => False
  | .load y, x => x = 2 * y
  | .loadAt i, x => x % 2 = 1 ∨ rd p i x
  | .store _ e, x => rd p e x
  | .storeAt e, x => rd p e x
  | .app a b, x => rd p a x ∨ rd p b x
  | .prim _ e, x => rd p e x
  | .cond c a b, x => rd p c x ∨ rd p a x ∨ rd p b x
  | .call f e, x => (p.fn f).rd x ∨ rd p e x
/-- Cells an expression may write. -/
def wr (p : Prog) : E → Nat → Prop
  | .lit _, _ => False
  | .load _, _ => False
  | .loadAt i, x => wr p i x
  | .store y e, x => x = 2 * y ∨ wr p e x
  | .storeAt e, x => x % 2 = 1 ∨ wr p e x
  | .app a b, x => wr p a x ∨ wr p b x
  | .prim _ e, x => wr p e x
  | .cond c a b, x => wr p c x ∨ wr p a x ∨ wr p b x
  | .call f e, x => (p.fn f).wr x ∨ wr p e x

/-- Cells read or written outside called functions. -/
def touches : E → Nat → Prop
  | .lit _, _ => False
  | .load y, x => x = 2 * y
  | .loadAt i, x => x % 2 = 1 ∨ touches i x
  | .store y e, x => x = 2 * y ∨ touches e x
  | .storeAt e, x => x % 2 = 1 ∨ touches e x
  | .app a b, x => touches a x ∨ touches b x
  | .prim _ e, x => touches e x
  | .cond c a b, x => touches c x ∨ touches a x ∨ touches b x
  | .call _ e, x => touches e x
/-- Cells written outside called functions. -/
def assigns : E → Nat → Prop
  | .lit _, _ => False
  | .load _, _ => False
  | .loadAt i, x => assigns i x
  | .store y e, x => x = 2 * y ∨ assigns e x
  | .storeAt e, x => x % 2 = 1 ∨ assigns e x
  | .app a b, x => assigns a x ∨ assigns b x
  | .prim _ e, x => assigns e x
  | .cond c a b, x => assigns c x ∨ assigns a x ∨ assigns b x
  | .call _ e, x => assigns e x

/-- Two operands of one operator or call, at any depth, related by `R`. -/
def Somewhere (R : E → E → Prop) : E → Prop
  | .lit _ => False
  | .load _ => False
  | .loadAt i => Somewhere R i
  | .store _ e => Somewhere R e
  | .storeAt e => Somewhere R e
  | .app a b => R a b ∨ Somewhere R a ∨ Somewhere R b
  | .prim _ e => Somewhere R e
  | .cond c a b => Somewhere R c ∨ Somewhere R a ∨ Somewhere R b
  | .call _ e => Somewhere R e

/-- C++11 (intro.execution 15): a store unsequenced with another access of the same cell makes the program undefined. (Array elements count as one
cell.) -/
def Race : E → Prop := Somewhere fun a b => ∃ x, (assigns a x ∧ touches b x) ∨ (touches a x ∧ assigns b x)

/-- One operand writes, itself or through a method it calls, what a sibling reads or writes. -/
def Interferes (p : Prog) : E → Prop := Somewhere fun a b => ∃ x, (wr p a x ∧ (rd p b x ∨ wr p b x)) ∨ ((rd p a x ∨ wr p a x) ∧ wr p b x)

/-! ### Left-to-right evaluation of the C++ expression -/

/-- Evaluation from left to right. -/
def eval (p : Prog) : E → State → Val × State
  | .lit v, s => (v, s)
  | .load x, s => ([s (2 * x)], s)
  | .loadAt i, s => ([(eval p i s).2 (cell (eval p i s).1)], (eval p i s).2)
  | .store x e, s => ([hd (eval p e s).1], put (eval p e s).2 (2 * x) (hd (eval p e s).1))
  | .storeAt e, s => ([snd (eval p e s).1], put (eval p e s).2 (cell (eval p e s).1) (snd (eval p e s).1))
  | .app a b, s => ((eval p a s).1 ++ (eval p b (eval p a s).2).1, (eval p b (eval p a s).2).2)
  | .prim f e, s => (p.op f (eval p e s).1, (eval p e s).2)
  | .cond c a b, s => if hd (eval p c s).1 ≠ 0 then eval p a (eval p c s).2 else eval p b (eval p c s).2
  | .call f e, s => (p.fn f).run (eval p e s).1 (eval p e s).2

mutual
theorem eval_lower (p : Prog) (e : Src) (s : State) : eval p (lower e) s = csharp p e s := by
  match e with
  | .const v => rw [lower, eval, csharp]
  | .ldloc x => rw [lower, eval, csharp]
  | .ldelem i => rw [lower, eval, csharp, eval_lower p i]
  | .stloc x e => rw [lower, eval, csharp, eval_lower p e]
  | .stelem i e => rw [lower, eval, eval, csharp, eval_lower p i, eval_lower p e]
  | .bin op a b => rw [lower, eval, eval, csharp, eval_lower p a, eval_lower p b]
  | .comp op x e => rw [lower, eval, eval, eval, eval, csharp]; simp only []; rw [eval_lower p e]
  | .cond c a b => rw [lower, eval, csharp, eval_lower p c, eval_lower p a, eval_lower p b]
  | .call f args => rw [lower, eval, csharp, eval_lowerArgs p args]
theorem eval_lowerArgs (p : Prog) (e : Args) (s : State) : eval p (lowerArgs e) s = csharpArgs p e s := by
  match e with
  | .nil => rw [lowerArgs, eval, csharpArgs]
  | .cons a t => rw [lowerArgs, eval, csharpArgs, eval_lower p a, eval_lowerArgs p t]
end

/-! ### Footprints -/

/-- Two states agree on the cells the expression may access. -/
def Agree (p : Prog) (e : E) (s t : State) : Prop := ∀ x, rd p e x ∨ wr p e x → s x = t x

theorem put_same (s : State) (x : Nat) (v : Int) : put s x v x = v := by simp [put]
theorem put_other (s : State) {x y : Nat} (v : Int) (h : y ≠ x) : put s x v y = s y := by simp [put, h]
theorem cell_odd (v : Val) : cell v % 2 = 1 := by unfold cell; omega

theorem eval_frame (p : Prog) : ∀ (e : E) (s : State) (x : Nat), ¬ wr p e x → (eval p e s).2 x = s x
  | .lit _, _, _, _ => rfl
  | .load _, _, _, _ => rfl
  | .loadAt i, s, x, h => eval_frame p i s x h
  | .store y e, s, x, h => by
    simp only [wr, not_or] at h
    simp only [eval]
    rw [put_other _ _ h.1]; exact eval_frame p e s x h.2
  | .storeAt e, s, x, h => by
    simp only [wr, not_or] at h
    simp only [eval]
    rw [put_other _ _ (by intro hx; exact h.1 (hx ▸ cell_odd _))]; exact eval_frame p e s x h.2
  | .app a b, s, x, h => by
    simp only [wr, not_or] at h
    rw [eval, eval_frame p b _ x h.2, eval_frame p a _ x h.1]
  | .prim _ e, s, x, h => eval_frame p e s x h
  | .cond c a b, s, x, h => by
    simp only [wr, not_or] at h
    rw [eval]
    split
    · rw [eval_frame p a _ x h.2.1, eval_frame p c _ x h.1]
    · rw [eval_frame p b _ x h.2.2, eval_frame p c _ x h.1]
  | .call f e, s, x, h => by
    simp only [wr, not_or] at h
    rw [eval, (p.fn f).frame _ _ _ h.1, eval_frame p e s x h.2]

/-- The value and the written cells depend only on the footprint. -/
theorem eval_agree (p : Prog) : ∀ (e : E) (s t : State), Agree p e s t → (eval p e s).1 = (eval p e t).1 ∧ ∀ x, s x = t x ∨ wr p e x → (eval p e s).2 x = (eval p e t).2 x
  | .lit _, s, t, _ => ⟨rfl, fun x h => by rcases h with h | h; exacts [h, h.elim]⟩
  | .load y, s, t, h => ⟨by rw [eval, eval, h _ (Or.inl rfl)], fun x h => by rcases h with h | h; exacts [h, h.elim]⟩
  | .loadAt i, s, t, h => by
    obtain ⟨h1, h2⟩ := eval_agree p i s t (fun x hx => h x (by simp only [rd, wr]; tauto))
    refine ⟨?_, fun x hx => h2 x hx⟩
    rw [eval, eval, h1]
    rw [h2 (cell _) (Or.inl (h _ (Or.inl (Or.inl (cell_odd _)))))]
  | .store y e, s, t, h => by
    obtain ⟨h1, h2⟩ := eval_agree p e s t (fun x hx => h x (by simp only [rd, wr]; tauto))
    refine ⟨by rw [eval, eval, h1], fun x hx => ?_⟩
    rw [eval, eval, h1]
    simp only []
    by_cases e1 : x = 2 * y
    · subst e1; rw [put_same, put_same]
    · rw [put_other _ _ e1, put_other _ _ e1]
      exact h2 x (by simp only [wr] at hx; tauto)
  | .storeAt e, s, t, h => by
    obtain ⟨h1, h2⟩ := eval_agree p e s t (fun x hx => h x (by simp only [rd, wr]; tauto))
    refine ⟨by rw [eval, eval, h1], fun x hx => ?_⟩
    rw [eval, eval, h1]
    simp only []
    by_cases e1 : x = cell (eval p e t).1
    · subst e1; rw [put_same, put_same]
    · rw [put_other _ _ e1, put_other _ _ e1]
      rcases hx with hx | hx | hx
      · exact h2 x (Or.inl hx)
      · exact h2 x (Or.inl (h x (Or.inr (Or.inl hx))))
      · exact h2 x (Or.inr hx)
  | .app a b, s, t, h => by
    obtain ⟨h1, h2⟩ := eval_agree p a s t (fun x hx => h x (by simp only [rd, wr]; tauto))
    obtain ⟨h3, h4⟩ := eval_agree p b (eval p a s).2 (eval p a t).2 (fun x hx => h2 x (Or.inl (h x (by simp only [rd, wr]; tauto))))
    refine ⟨by rw [eval, eval, h1, h3], fun x hx => ?_⟩
    rw [eval, eval]
    rcases hx with hx | hx | hx
    · exact h4 x (Or.inl (h2 x (Or.inl hx)))
    · exact h4 x (Or.inl (h2 x (Or.inr hx)))
    · exact h4 x (Or.inr hx)
  | .prim f e, s, t, h => by
    obtain ⟨h1, h2⟩ := eval_agree p e s t h
    exact ⟨by rw [eval, eval, h1], h2⟩
  | .cond c a b, s, t, h => by
    obtain ⟨h1, h2⟩ := eval_agree p c s t (fun x hx => h x (by simp only [rd, wr]; tauto))
    have h3 := eval_agree p a (eval p c s).2 (eval p c t).2 (fun x hx => h2 x (Or.inl (h x (by simp only [rd, wr]; tauto))))
    have h4 := eval_agree p b (eval p c s).2 (eval p c t).2 (fun x hx => h2 x (Or.inl (h x (by simp only [rd, wr]; tauto))))
    rw [eval, eval, h1]
    split
    · refine ⟨h3.1, fun x hx => h3.2 x ?_⟩
      rcases hx with hx | hx | hx | hx
      · exact Or.inl (h2 x (Or.inl hx))
      · exact Or.inl (h2 x (Or.inr hx))
      · exact Or.inr hx
      · exact Or.inl (h2 x (Or.inl (h x (Or.inr (Or.inr (Or.inr hx))))))
    · refine ⟨h4.1, fun x hx => h4.2 x ?_⟩
      rcases hx with hx | hx | hx | hx
      · exact Or.inl (h2 x (Or.inl hx))
      · exact Or.inl (h2 x (Or.inr hx))
      · exact Or.inl (h2 x (Or.inl (h x (Or.inr (Or.inr (Or.inl hx))))))
      · exact Or.inr hx
  | .call f e, s, t, h => by
    obtain ⟨h1, h2⟩ := eval_agree p e s t (fun x hx => h x (by simp only [rd, wr]; tauto))
    have h3 : ∀ x, (p.fn f).rd x ∨ (p.fn f).wr x → (eval p e s).2 x = (eval p e t).2 x :=
      fun x hx => h2 x (Or.inl (h x (by simp only [rd, wr]; tauto)))
    refine ⟨by rw [eval, eval, h1]; exact (p.fn f).value _ _ _ h3, fun x hx => ?_⟩
    rw [eval, eval, h1]
    by_cases e1 : (p.fn f).wr x
    · exact (p.fn f).effect _ _ _ h3 x e1
    · rw [(p.fn f).frame _ _ _ e1, (p.fn f).frame _ _ _ e1]
      exact h2 x (by simp only [wr] at hx; tauto)

/-! ### Steps -/

theorem step_foot {p : Prog} {e s e' s'} (h : Step p e s e' s') : (∀ x, rd p e' x → rd p e x) ∧ (∀ x, wr p e' x → wr p e x) ∧ (∀ x, ¬ wr p e x → s' x = s x) := by
  induction h with
  | load x s => exact ⟨fun x h => h.elim, fun x h => h.elim, fun _ _ => rfl⟩
  | loadAtC _ ih => exact ⟨fun x h => h.imp_right (ih.1 x), ih.2.1, ih.2.2⟩
  | loadAt v s => exact ⟨fun x h => h.elim, fun x h => h.elim, fun _ _ => rfl⟩
  | storeC _ ih => exact ⟨ih.1, fun x h => h.imp_right (ih.2.1 x), fun x h => ih.2.2 x (fun h1 => h (Or.inr h1))⟩
  | store x v s => exact ⟨fun x h => h.elim, fun x h => h.elim, fun y h => put_other _ _ (fun h1 => h (Or.inl h1))⟩
  | storeAtC _ ih => exact ⟨ih.1, fun x h => h.imp_right (ih.2.1 x), fun x h => ih.2.2 x (fun h1 => h (Or.inr h1))⟩
  | storeAt v s => exact ⟨fun x h => h.elim, fun x h => h.elim, fun y h => put_other _ _ (fun h1 => h (Or.inl (h1 ▸ cell_odd _)))⟩
  | appL _ ih => exact ⟨fun x h => h.imp_left (ih.1 x), fun x h => h.imp_left (ih.2.1 x), fun x h => ih.2.2 x (fun h1 => h (Or.inl h1))⟩
  | appR _ ih => exact ⟨fun x h => h.imp_right (ih.1 x), fun x h => h.imp_right (ih.2.1 x), fun x h => ih.2.2 x (fun h1 => h (Or.inr h1))⟩
  | app u v s => exact ⟨fun x h => h.elim, fun x h => h.elim, fun _ _ => rfl⟩
  | primC _ ih => exact ih
  | prim f v s => exact ⟨fun x h => h.elim, fun x h => h.elim, fun _ _ => rfl⟩
  | condC _ ih => exact ⟨fun x h => h.imp_left (ih.1 x), fun x h => h.imp_left (ih.2.1 x), fun x h => ih.2.2 x (fun h1 => h (Or.inl h1))⟩
  | cond v a b s =>
    split
    · exact ⟨fun x h => Or.inr (Or.inl h), fun x h => Or.inr (Or.inl h), fun _ _ => rfl⟩
    · exact ⟨fun x h => Or.inr (Or.inr h), fun x h => Or.inr (Or.inr h), fun _ _ => rfl⟩
  | callC _ ih => exact ⟨fun x h => h.imp_right (ih.1 x), fun x h => h.imp_right (ih.2.1 x), fun x h => ih.2.2 x (fun h1 => h (Or.inr h1))⟩
  | call f v s => exact ⟨fun x h => h.elim, fun x h => h.elim, fun y h => (p.fn f).frame _ _ _ (fun h1 => h (Or.inl h1))⟩

/-- A step can be taken in any state that agrees on the footprint, with the same effect. -/
theorem step_agree {p : Prog} {e s e' s'} (h : Step p e s e' s') : ∀ t, Agree p e s t → ∃ t', Step p e t e' t' ∧ (∀ x, s x = t x ∨ wr p e x → s' x = t' x) ∧ ∀ x, ¬ wr p e x → t' x = t x := by
  suffices H : ∀ t, Agree p e s t → ∃ t', Step p e t e' t' ∧ ∀ x, s x = t x ∨ wr p e x → s' x = t' x by
    intro t ht
    obtain ⟨t', h1, h2⟩ := H t ht
    exact ⟨t', h1, h2, (step_foot h1).2.2⟩
  induction h with
  | load x s => intro t ht; exact ⟨t, by rw [ht _ (Or.inl rfl)]; exact .load x t, fun x h => by rcases h with h | h; exacts [h, h.elim]⟩
  | loadAtC _ ih =>
    intro t ht
    obtain ⟨t', h1, h2⟩ := ih t (fun x hx => ht x (by simp only [rd, wr]; tauto))
    exact ⟨t', .loadAtC h1, h2⟩
  | loadAt v s => intro t ht; exact ⟨t, by rw [ht _ (Or.inl (Or.inl (cell_odd v)))]; exact .loadAt v t, fun x h => by rcases h with h | h; exacts [h, h.elim]⟩
  | storeC _ ih =>
    intro t ht
    obtain ⟨t', h1, h2⟩ := ih t (fun x hx => ht x (by simp only [rd, wr]; tauto))
    refine ⟨t', .storeC h1, fun x hx => h2 x ?_⟩
    rcases hx with hx | hx | hx
    · exact Or.inl hx
    · exact Or.inl (ht x (Or.inr (Or.inl hx)))
    · exact Or.inr hx
  | store x v s =>
    intro t ht
    refine ⟨_, .store x v t, fun y hy => ?_⟩
    by_cases e1 : y = 2 * x
    · subst e1; rw [put_same, put_same]
    · rw [put_other _ _ e1, put_other _ _ e1]
      rcases hy with hy | hy | hy
      exacts [hy, absurd hy e1, hy.elim]
  | storeAtC _ ih =>
    intro t ht
    obtain ⟨t', h1, h2⟩ := ih t (fun x hx => ht x (by simp only [rd, wr]; tauto))
    refine ⟨t', .storeAtC h1, fun x hx => h2 x ?_⟩
    rcases hx with hx | hx | hx
    · exact Or.inl hx
    · exact Or.inl (ht x (Or.inr (Or.inl hx)))
    · exact Or.inr hx
  | storeAt v s =>
    intro t ht
    refine ⟨_, .storeAt v t, fun y hy => ?_⟩
    by_cases e1 : y = cell v
    · subst e1; rw [put_same, put_same]
    · rw [put_other _ _ e1, put_other _ _ e1]
      rcases hy with hy | hy | hy
      exacts [hy, ht y (Or.inr (Or.inl hy)), hy.elim]
  | appL _ ih =>
    intro t ht
    obtain ⟨t', h1, h2⟩ := ih t (fun x hx => ht x (by simp only [rd, wr]; tauto))
    refine ⟨t', .appL h1, fun x hx => h2 x ?_⟩
    rcases hx with hx | hx | hx
    · exact Or.inl hx
    · exact Or.inr hx
    · exact Or.inl (ht x (Or.inr (Or.inr hx)))
  | appR _ ih =>
    intro t ht
    obtain ⟨t', h1, h2⟩ := ih t (fun x hx => ht x (by simp only [rd, wr]; tauto))
    refine ⟨t', .appR h1, fun x hx => h2 x ?_⟩
    rcases hx with hx | hx | hx
    · exact Or.inl hx
    · exact Or.inl (ht x (Or.inr (Or.inl hx)))
    · exact Or.inr hx
  | app u v s => intro t ht; exact ⟨t, .app u v t, fun x h => by rcases h with h | h | h; exacts [h, h.elim, h.elim]⟩
  | primC _ ih =>
    intro t ht
    obtain ⟨t', h1, h2⟩ := ih t ht
    exact ⟨t', .primC h1, h2⟩
  | prim f v s => intro t ht; exact ⟨t, .prim f v t, fun x h => by rcases h with h | h; exacts [h, h.elim]⟩
  | condC _ ih =>
    intro t ht
    obtain ⟨t', h1, h2⟩ := ih t (fun x hx => ht x (by simp only [rd, wr]; tauto))
    refine ⟨t', .condC h1, fun x hx => h2 x ?_⟩
    rcases hx with hx | hx | hx
    · exact Or.inl hx
    · exact Or.inr hx
    · exact Or.inl (ht x (Or.inr (Or.inr hx)))
  | cond v a b s =>
    intro t ht
    exact ⟨t, .cond v a b t, fun x h => by rcases h with h | h; exacts [h, ht x (Or.inr h)]⟩
  | callC _ ih =>
    intro t ht
    obtain ⟨t', h1, h2⟩ := ih t (fun x hx => ht x (by simp only [rd, wr]; tauto))
    refine ⟨t', .callC h1, fun x hx => h2 x ?_⟩
    rcases hx with hx | hx | hx
    · exact Or.inl hx
    · exact Or.inl (ht x (Or.inr (Or.inl hx)))
    · exact Or.inr hx
  | call f v s =>
    intro t ht
    have h3 : ∀ x, (p.fn f).rd x ∨ (p.fn f).wr x → s x = t x := fun x hx => ht x (by simp only [rd, wr]; tauto)
    refine ⟨((p.fn f).run v t).2, by rw [(p.fn f).value _ _ _ h3]; exact .call f v t, fun x hx => ?_⟩
    by_cases e1 : (p.fn f).wr x
    · exact (p.fn f).effect _ _ _ h3 x e1
    · rw [(p.fn f).frame _ _ _ e1, (p.fn f).frame _ _ _ e1]
      rcases hx with hx | hx | hx
      exacts [hx, absurd hx e1, hx.elim]

/-- Steps keep operands from interfering. -/
theorem step_interferes {p : Prog} {e s e' s'} (h : Step p e s e' s') : Interferes p e' → Interferes p e := by
  unfold Interferes
  induction h with
  | load x s => exact fun h => h.elim
  | loadAtC _ ih => exact ih
  | loadAt v s => exact fun h => h.elim
  | storeC _ ih => exact ih
  | store x v s => exact fun h => h.elim
  | storeAtC _ ih => exact ih
  | storeAt v s => exact fun h => h.elim
  | appL h1 ih =>
    obtain ⟨r, w, _⟩ := step_foot h1
    rintro (⟨x, h⟩ | h | h)
    · refine Or.inl ⟨x, ?_⟩
      have r := r x
      have w := w x
      tauto
    · exact Or.inr (Or.inl (ih h))
    · exact Or.inr (Or.inr h)
  | appR h1 ih =>
    obtain ⟨r, w, _⟩ := step_foot h1
    rintro (⟨x, h⟩ | h | h)
    · refine Or.inl ⟨x, ?_⟩
      have r := r x
      have w := w x
      tauto
    · exact Or.inr (Or.inl h)
    · exact Or.inr (Or.inr (ih h))
  | app u v s => exact fun h => h.elim
  | primC _ ih => exact ih
  | prim f v s => exact fun h => h.elim
  | condC _ ih => exact fun h => h.imp_left ih
  | cond v a b s =>
    split
    · exact fun h => Or.inr (Or.inl h)
    · exact fun h => Or.inr (Or.inr h)
  | callC _ ih => exact ih
  | call f v s => exact fun h => h.elim

/-- A step does not change what left-to-right evaluation gives. -/
theorem step_eval {p : Prog} {e s e' s'} (h : Step p e s e' s') : ¬ Interferes p e → eval p e s = eval p e' s' := by
  unfold Interferes
  induction e generalizing s e' s' with
  | lit v => cases h
  | load x => cases h; intro _; rfl
  | loadAt i ih =>
    intro hn
    cases h with
    | loadAtC h => rw [eval, eval, ih h hn]
    | loadAt v => rfl
  | store x e ih =>
    intro hn
    cases h with
    | storeC h => rw [eval, eval, ih h hn]
    | store => rfl
  | storeAt e ih =>
    intro hn
    cases h with
    | storeAtC h => rw [eval, eval, ih h hn]
    | storeAt => rfl
  | prim f e ih =>
    intro hn
    cases h with
    | primC h => rw [eval, eval, ih h hn]
    | prim => rfl
  | call f e ih =>
    intro hn
    cases h with
    | callC h => rw [eval, eval, ih h hn]
    | call => rfl
  | cond c a b ihc iha ihb =>
    intro hn
    simp only [Somewhere, not_or] at hn
    cases h with
    | condC h => rw [eval, eval, ihc h hn.1]
    | cond v =>
      rw [eval, eval]
      split <;> rfl
  | app a b iha ihb =>
    intro hn
    simp only [Somewhere, not_or] at hn
    obtain ⟨n1, n2, n3⟩ := hn
    cases h with
    | appL h => rw [eval, eval, iha h n2]
    | app => rfl
    | appR h =>
      rename_i b'
      obtain ⟨r, w, f⟩ := step_foot h
      -- evaluation of the left operand leaves the right operand's footprint alone
      have h1 : Agree p b s (eval p a s).2 := by
        intro x hx
        rw [eval_frame p a s x]
        intro hw
        exact n1 ⟨x, Or.inl ⟨hw, hx⟩⟩
      obtain ⟨t', st, e1, e2⟩ := step_agree h _ h1
      have h2 := ihb st n3
      -- and the step of the right operand leaves the left operand's footprint alone
      have h3 : Agree p a s s' := by
        intro x hx
        exact (f x (fun hw => n1 ⟨x, Or.inr ⟨hx, hw⟩⟩)).symm
      obtain ⟨h4, h5⟩ := eval_agree p a s s' h3
      have h6 : (eval p a s').2 = t' := by
        funext x
        by_cases wb : wr p b x
        · have na : ¬ wr p a x := fun hw => n1 ⟨x, Or.inl ⟨hw, Or.inr wb⟩⟩
          rw [eval_frame p a s' x na, e1 x (Or.inr wb)]
        · rw [e2 x wb]
          by_cases wa : wr p a x
          · exact (h5 x (Or.inr wa)).symm
          · rw [eval_frame p a s' x wa, eval_frame p a s x wa, f x wb]
      rw [eval, eval, h4, h6, h2]

/-- Number of steps an expression takes at most. -/
def size : E → Nat
  | .lit _ => 0
  | .load _ => 1
  | .loadAt i => size i + 1
  | .store _ e => size e + 1
  | .storeAt e => size e + 1
  | .app a b => size a + size b + 1
  | .prim _ e => size e + 1
  | .cond c a b => size c + size a + size b + 1
  | .call _ e => size e + 1

theorem step_size {p : Prog} {e s e' s'} (h : Step p e s e' s') : size e' < size e := by
  induction h <;> simp only [size] <;> (try split) <;> omega

theorem progress (p : Prog) : ∀ (e : E) (s : State), (∃ v, e = .lit v) ∨ ∃ e' s', Step p e s e' s'
  | .lit v, _ => Or.inl ⟨v, rfl⟩
  | .load x, s => Or.inr ⟨_, _, .load x s⟩
  | .loadAt i, s => by
    rcases progress p i s with ⟨v, rfl⟩ | ⟨_, _, h⟩
    exacts [Or.inr ⟨_, _, .loadAt v s⟩, Or.inr ⟨_, _, .loadAtC h⟩]
  | .store x e, s => by
    rcases progress p e s with ⟨v, rfl⟩ | ⟨_, _, h⟩
    exacts [Or.inr ⟨_, _, .store x v s⟩, Or.inr ⟨_, _, .storeC h⟩]
  | .storeAt e, s => by
    rcases progress p e s with ⟨v, rfl⟩ | ⟨_, _, h⟩
    exacts [Or.inr ⟨_, _, .storeAt v s⟩, Or.inr ⟨_, _, .storeAtC h⟩]
  | .prim f e, s => by
    rcases progress p e s with ⟨v, rfl⟩ | ⟨_, _, h⟩
    exacts [Or.inr ⟨_, _, .prim f v s⟩, Or.inr ⟨_, _, .primC h⟩]
  | .call f e, s => by
    rcases progress p e s with ⟨v, rfl⟩ | ⟨_, _, h⟩
    exacts [Or.inr ⟨_, _, .call f v s⟩, Or.inr ⟨_, _, .callC h⟩]
  | .cond c a b, s => by
    rcases progress p c s with ⟨v, rfl⟩ | ⟨_, _, h⟩
    exacts [Or.inr ⟨_, _, .cond v a b s⟩, Or.inr ⟨_, _, .condC h⟩]
  | .app a b, s => by
    rcases progress p a s with ⟨u, rfl⟩ | ⟨_, _, h⟩
    · rcases progress p b s with ⟨v, rfl⟩ | ⟨_, _, h⟩
      exacts [Or.inr ⟨_, _, .app u v s⟩, Or.inr ⟨_, _, .appR h⟩]
    · exact Or.inr ⟨_, _, .appL h⟩

theorem steps_eval {p : Prog} {e s e' s'} (h : Steps p e s e' s') : ¬ Interferes p e → eval p e s = eval p e' s' ∧ ¬ Interferes p e' := by
  induction h with
  | refl => exact fun h => ⟨rfl, h⟩
  | step h1 _ ih =>
    intro hn
    have h2 := ih (fun h => hn (step_interferes h1 h))
    exact ⟨by rw [step_eval h1 hn, h2.1], h2.2⟩

theorem assigns_wr (p : Prog) : ∀ (e : E) (x : Nat), assigns e x → wr p e x
  | .lit _, _, h => h
  | .load _, _, h => h
  | .loadAt i, x, h => assigns_wr p i x h
  | .store _ e, x, h => h.imp_right (assigns_wr p e x)
  | .storeAt e, x, h => h.imp_right (assigns_wr p e x)
  | .app a b, x, h => h.imp (assigns_wr p a x) (assigns_wr p b x)
  | .prim _ e, x, h => assigns_wr p e x h
  | .cond c a b, x, h => h.imp (assigns_wr p c x) (fun h => h.imp (assigns_wr p a x) (assigns_wr p b x))
  | .call _ e, x, h => Or.inr (assigns_wr p e x h)

theorem touches_acc (p : Prog) : ∀ (e : E) (x : Nat), touches e x → rd p e x ∨ wr p e x
  | .lit _, _, h => h.elim
  | .load _, _, h => Or.inl h
  | .loadAt i, x, h => by
    rcases h with h | h
    · exact Or.inl (Or.inl h)
    · rcases touches_acc p i x h with h | h
      exacts [Or.inl (Or.inr h), Or.inr h]
  | .store _ e, x, h => by
    rcases h with h | h
    · exact Or.inr (Or.inl h)
    · exact (touches_acc p e x h).imp_right Or.inr
  | .storeAt e, x, h => by
    rcases h with h | h
    · exact Or.inr (Or.inl h)
    · exact (touches_acc p e x h).imp_right Or.inr
  | .app a b, x, h => by
    rcases h with h | h
    · exact (touches_acc p a x h).imp Or.inl Or.inl
    · exact (touches_acc p b x h).imp Or.inr Or.inr
  | .prim _ e, x, h => touches_acc p e x h
  | .cond c a b, x, h => by
    rcases h with h | h | h
    · exact (touches_acc p c x h).imp Or.inl Or.inl
    · exact (touches_acc p a x h).imp (Or.inr ∘ Or.inl) (Or.inr ∘ Or.inl)
    · exact (touches_acc p b x h).imp (Or.inr ∘ Or.inr) (Or.inr ∘ Or.inr)
  | .call _ e, x, h => (touches_acc p e x h).imp Or.inr Or.inr

theorem somewhere_mono {R S : E → E → Prop} (h : ∀ a b, R a b → S a b) : ∀ e, Somewhere R e → Somewhere S e
  | .lit _, h1 => h1
  | .load _, h1 => h1
  | .loadAt i, h1 => somewhere_mono h i h1
  | .store _ e, h1 => somewhere_mono h e h1
  | .storeAt e, h1 => somewhere_mono h e h1
  | .app a b, h1 => h1.imp (h a b) (fun h1 => h1.imp (somewhere_mono h a) (somewhere_mono h b))
  | .prim _ e, h1 => somewhere_mono h e h1
  | .cond c a b, h1 => h1.imp (somewhere_mono h c) (fun h1 => h1.imp (somewhere_mono h a) (somewhere_mono h b))
  | .call _ e, h1 => somewhere_mono h e h1

theorem race_interferes (p : Prog) (e : E) (h : Race e) : Interferes p e := by
  refine somewhere_mono ?_ e h
  rintro a b ⟨x, h | h⟩
  · exact ⟨x, Or.inl ⟨assigns_wr p a x h.1, touches_acc p b x h.2⟩⟩
  · exact ⟨x, Or.inr ⟨touches_acc p a x h.1, assigns_wr p b x h.2⟩⟩

/-! ### C112 -/

/-- **C112** (partial: no operand writes, itself or through a method it calls, what another operand of the same operator or call reads or writes). The
translated expression is defined, and whatever order of evaluation the C++ compiler chooses, it ends, and it ends with the value and the storage that
C#'s left-to-right evaluation gives. Missing: operands that interfere (`C112_race_refuted`, `C112_calls_refuted`). -/
theorem C112_order_partial (p : Prog) (e : Src) (s : State) (h : ¬ Interferes p (lower e)) :
    ¬ Race (lower e) ∧
    ∀ e' s', Steps p (lower e) s e' s' →
      (∀ v, e' = .lit v → (v, s') = csharp p e s) ∧
      ((∀ e'' s'', ¬ Step p e' s' e'' s'') → ∃ v, e' = .lit v) := by
  refine ⟨fun hr => h (race_interferes p _ hr), fun e' s' hs => ⟨?_, ?_⟩⟩
  · rintro v rfl
    rw [← eval_lower, (steps_eval hs h).1, eval]
  · intro hn
    rcases progress p e' s' with h1 | ⟨e'', s'', h1⟩
    · exact h1
    · exact absurd h1 (hn e'' s'')

/-- **C112**: no order of evaluation goes on for ever: at most `size` steps can be taken. -/
theorem C112_terminates (p : Prog) (e : Src) : ∀ (s : State) (c : Nat → E × State), c 0 = (lower e, s) →
    ¬ ∀ n, Step p (c n).1 (c n).2 (c (n + 1)).1 (c (n + 1)).2 := by
  intro s c _ h
  have h1 : ∀ n, size (c n).1 + n ≤ size (c 0).1 := by
    intro n
    induction n with
    | zero => omega
    | succ n ih => have := step_size (h n); omega
  have := h1 (size (c 0).1 + 1)
  omega

/-- A program for the examples: operator 0 subtracts; method 0 adds one to static field 7 and returns it, method 1 returns twice its argument. -/
def demo : Prog where
  op := fun _ v => [hd v - snd v]
  fn := fun n => if n = 0 then
      { run := fun _ s => ([s 14 + 1], put s 14 (s 14 + 1)), rd := fun x => x = 14, wr := fun x => x = 14
        frame := fun _ s x h => put_other _ _ h
        value := fun _ s t h => by rw [h 14 (Or.inl rfl)]
        effect := fun _ s t h x hx => by rw [hx]; simp only []; rw [put_same, put_same, h 14 (Or.inl rfl)] }
    else
      { run := fun v s => ([2 * hd v], s), rd := fun _ => False, wr := fun _ => False
        frame := fun _ _ _ _ => rfl
        value := fun _ _ _ _ => rfl
        effect := fun _ _ _ _ _ h => h.elim }

/-- `(x = 5) - twice(y) - next()`, where `next` changes only static field 7, meets the hypothesis. -/
example : ¬ Interferes demo (lower (.bin 0 (.bin 0 (.stloc 1 (.const 5)) (.call 1 (.cons (.ldloc 2) .nil))) (.call 0 .nil))) := by
  simp only [lower, lowerArgs, Interferes, Somewhere, wr, rd, demo]
  rintro (⟨x, h⟩ | h)
  · simp at h; omega
  · rcases h with (⟨x, h⟩ | h) | h
    · simp at h; omega
    · simp at h
    · exact h.elim

/-- **C112** is false of the code for `x - (x = 1)`: the store is unsequenced with the read, so the translated program is undefined. -/
theorem C112_race_refuted : Race (lower (.bin 0 (.ldloc 3) (.stloc 3 (.const 1)))) :=
  Or.inl ⟨6, Or.inr ⟨rfl, Or.inl rfl⟩⟩

/-- **C112** is false of the code for `next() - next()`: the C++ compiler may call the second one first, and 1 - 2 becomes 2 - 1. -/
theorem C112_calls_refuted : ∃ (p : Prog) (e : Src) (s s' : State) (v : Val), ¬ Race (lower e) ∧ Steps p (lower e) s (.lit v) s' ∧ v ≠ (csharp p e s).1 := by
  refine ⟨demo, .bin 0 (.call 0 .nil) (.call 0 .nil), fun _ => 0, _, _, ?_,
    .step (.primC (.appR (.call 0 [] _))) (.step (.primC (.appL (.call 0 [] _))) (.step (.primC (.app _ _ _)) (.step (.prim _ _ _) (.refl _ _)))), ?_⟩
  · rintro (⟨x, h⟩ | h | h)
    · rcases h with h | h
      · exact h.1
      · exact h.1
    · exact h
    · exact h
  · simp [demo, csharp, csharpArgs, put, hd, snd]

end Verif.Order
