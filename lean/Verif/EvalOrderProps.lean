import Verif.CppProgRead
/-!
# C173: the order in which C++ evaluates the operands does not matter

`RX.run` of CppProgRead makes the call in an expression first. C++ leaves open which operand of an operator is evaluated first ([expr.pre], [intro.execution]; the operators of this fragment and the arguments of
`Math::Divide`). Here all orders are considered.
-/
namespace Verif.Read
open Sem
open Verif.Stmt
open Verif.Method (Env)
open Verif.Program (Calls look)
open Verif.IntVal (Ty)

/-! ## Specification: all orders -/

/-- What has happened so far may be any of these; then `g`. -/
def andThen {α β : Type} (xs : List (Ev Env Program.Fault α)) (g : α → Env → List (Ev Env Program.Fault β)) : List (Ev Env Program.Fault β) :=
  xs.flatMap fun x => match x with
    | .ok a s => g a s
    | .raise x s => [.raise x s]

/-- Two operands: the first and then the second, or the second and then the first; then the operation. -/
def eitherFirst (A B : Env → List (Ev Env Program.Fault Int)) (f : Int → Int → Res Int) (s : Env) : List (Ev Env Program.Fault Int) :=
  andThen (A s) (fun a s => andThen (B s) fun b s => [look s (f a b)]) ++ andThen (B s) (fun b s => andThen (A s) fun a s => [look s (f a b)])

/-- Everything an expression can do, in which `call` is made in the place of number `k`. The memory changes only when the call is made; its value is then kept under that number. -/
def orders (k : Nat) (call : Env → Ev Env Program.Fault Int) : CX → Env → List (Ev Env Program.Fault Int)
  | .var ty j, s => if j = k then [Program.Ev.then (call s) fun v s => .ok (ty.wrap v) (Program.set s k v)] else [.ok (ty.wrap (s j)) s]
  | .lit n, s => [.ok n s]
  | .arith o l r, s => eitherFirst (orders k call l) (orders k call r) (fun a b => arithOp (common l.ty r.ty) o ((common l.ty r.ty).conv a) ((common l.ty r.ty).conv b)) s
  | .shift o l r, s => eitherFirst (orders k call l) (orders k call r) (fun a b => shiftOp l.ty o a b) s
  | .rel o l r, s => eitherFirst (orders k call l) (orders k call r) (fun a b => .ok (if relOp o ((common l.ty r.ty).conv a) ((common l.ty r.ty).conv b) then 1 else 0)) s
  | .compl e, s => andThen (orders k call e s) fun a s => [.ok (complOp e.ty a) s]
  | .cast ty e, s => andThen (orders k call e s) fun a s => [.ok (ty.wrap a) s]
  | .tern c t f, s => andThen (orders k call c s) fun a s =>
      if a ≠ 0 then andThen (orders k call t s) fun x s => [.ok ((common t.ty f.ty).conv x) s] else andThen (orders k call f s) fun x s => [.ok ((common t.ty f.ty).conv x) s]
  | .divide l r, s => eitherFirst (orders k call l) (orders k call r) (fun a b => if wrapI64 b = 0 then .throw .divideByZero else i64 ((wrapI64 a).tdiv (wrapI64 b))) s

/-- Undefined behaviour. -/
def Undef {α : Type} (o : Ev Env Program.Fault α) : Prop := ∃ s, o = .raise .undefined s

/-- The call of the function: its arguments, then the function. (A function that is not there, or does not return a value, is undefined.) -/
def makeCall (funs : List Fun) (calls : Calls) (c : RCall) (s : Env) : Ev Env Program.Fault Int :=
  match funs[c.callee]? with
  | none => .raise .undefined s
  | some f => Program.Ev.then (look s (argValues s f.params c.args)) fun vs s => Program.Ev.then (calls c.callee vs s) fun x s => match x with
    | some v => .ok v s
    | none => .raise .undefined s

/-! ## Proof -/

theorem mem_andThen {α β : Type} {xs : List (Ev Env Program.Fault α)} {g : α → Env → List (Ev Env Program.Fault β)} {o : Ev Env Program.Fault β} :
    o ∈ andThen xs g ↔ (∃ a s, .ok a s ∈ xs ∧ o ∈ g a s) ∨ ∃ x s, .raise x s ∈ xs ∧ o = .raise x s := by
  unfold andThen
  rw [List.mem_flatMap]
  constructor
  · rintro ⟨x, hx, ho⟩
    cases x with
    | ok a s => exact .inl ⟨a, s, hx, ho⟩
    | raise x s => exact .inr ⟨x, s, hx, List.mem_singleton.mp ho⟩
  · rintro (⟨a, s, hx, ho⟩ | ⟨x, s, hx, ho⟩)
    · exact ⟨_, hx, ho⟩
    · exact ⟨_, hx, List.mem_singleton.mpr ho⟩

/-- All outcomes are `r`, with the memory as it was. -/
def Only (A : Env → List (Ev Env Program.Fault Int)) (r : Env → Res Int) : Prop := ∀ s o, o ∈ A s → o = look s (r s)

theorem Only.ok {A : Env → List (Ev Env Program.Fault Int)} {r : Env → Res Int} (h : Only A r) {s s' : Env} {a : Int} (hm : .ok a s' ∈ A s) : s' = s ∧ r s = .ok a := by
  have := h s _ hm
  cases hr : r s <;> rw [hr] at this <;> cases this
  exact ⟨rfl, rfl⟩

theorem Only.raise {A : Env → List (Ev Env Program.Fault Int)} {r : Env → Res Int} (h : Only A r) (hq : ∀ s e, r s ≠ .throw e) {s s' : Env} {x : Program.Fault} (hm : .raise x s' ∈ A s) : s' = s ∧ x = .undefined ∧ r s = .ub := by
  have := h s _ hm
  cases hr : r s <;> rw [hr] at this <;> cases this
  · exact absurd hr (hq s _)
  · exact ⟨rfl, rfl, rfl⟩

theorem only_either {A B : Env → List (Ev Env Program.Fault Int)} {p q : Env → Res Int} (hA : Only A p) (hB : Only B q) (hp : ∀ s e, p s ≠ .throw e) (hq : ∀ s e, q s ≠ .throw e) (f : Int → Int → Res Int) :
    Only (eitherFirst A B f) fun s => both (p s) (q s) f := by
  intro s o ho
  rcases List.mem_append.mp ho with h | h
  · rcases mem_andThen.mp h with ⟨a, s1, h1, h2⟩ | ⟨x, s1, h1, rfl⟩
    · obtain ⟨rfl, ha⟩ := hA.ok h1
      rcases mem_andThen.mp h2 with ⟨b, s2, h3, h4⟩ | ⟨x, s2, h3, rfl⟩
      · obtain ⟨rfl, hb⟩ := hB.ok h3
        rw [List.mem_singleton.mp h4]
        simp only [ha, hb, both]
      · obtain ⟨rfl, rfl, hb⟩ := hB.raise hq h3
        simp only [ha, hb, both]; rfl
    · obtain ⟨rfl, rfl, ha⟩ := hA.raise hp h1
      simp only [ha, both]; rfl
  · rcases mem_andThen.mp h with ⟨b, s1, h1, h2⟩ | ⟨x, s1, h1, rfl⟩
    · obtain ⟨rfl, hb⟩ := hB.ok h1
      rcases mem_andThen.mp h2 with ⟨a, s2, h3, h4⟩ | ⟨x, s2, h3, rfl⟩
      · obtain ⟨rfl, ha⟩ := hA.ok h3
        rw [List.mem_singleton.mp h4]
        simp only [ha, hb, both]
      · obtain ⟨rfl, rfl, ha⟩ := hA.raise hp h3
        simp only [ha, both]; rfl
    · obtain ⟨rfl, rfl, hb⟩ := hB.raise hq h1
      cases hpv : p s1 with
      | ok a => simp only [hpv, hb, both]; rfl
      | throw e => exact absurd hpv (hp s1 e)
      | ub => simp only [hpv, both]; rfl

theorem both_no_throw {p q : Res Int} {f : Int → Int → Res Int} (hp : ∀ e, p ≠ .throw e) (hq : ∀ e, q ≠ .throw e) (hf : ∀ a b e, f a b ≠ .throw e) (e : Exc) : both p q f ≠ .throw e := by
  cases p with
  | ok a => cases q with
    | ok b => exact hf a b e
    | throw e' => exact absurd rfl (hq e')
    | ub => simp [both]
  | throw e' => exact absurd rfl (hp e')
  | ub => simp [both]

theorem deliver_no_throw (c : CT) (x : Int) (e : Exc) : deliver c x ≠ .throw e := by
  unfold deliver
  split
  · split <;> simp
  · simp

theorem arith_no_throw (c : CT) (o : AOp) (a b : Int) (e : Exc) : arithOp c o a b ≠ .throw e := by
  cases o <;> simp only [arithOp] <;> first | exact deliver_no_throw _ _ _ | simp | skip
  split
  · simp
  · split <;> simp

theorem shift_no_throw (c : CT) (o : SOp) (a b : Int) (e : Exc) : shiftOp c o a b ≠ .throw e := by
  unfold shiftOp
  split
  · simp
  · cases o <;> simp only []
    · split <;> simp
    · simp

/-- Without the call there is one outcome, which is no exception and depends only on the variables below `k`. -/
structure Calm (k : Nat) (call : Env → Ev Env Program.Fault Int) (c : CX) : Prop where
  only : Only (orders k call c) c.eval
  no : ∀ s e, c.eval s ≠ .throw e
  same : ∀ s s' : Env, (∀ j, j < k → s j = s' j) → c.eval s = c.eval s'

theorem Res.bind_no_throw {p : Res Int} {f : Int → Res Int} (hp : ∀ e, p ≠ .throw e) (hf : ∀ a e, f a ≠ .throw e) (e : Exc) : p >>= f ≠ .throw e := by
  cases p with
  | ok a => exact hf a e
  | throw e' => exact absurd rfl (hp e')
  | ub => intro h; cases h

/-- One operand. -/
theorem only_map {A : Env → List (Ev Env Program.Fault Int)} {p : Env → Res Int} (hA : Only A p) (f : Int → Int) : Only (fun s => andThen (A s) fun a s => [.ok (f a) s]) fun s => p s >>= fun a => .ok (f a) := by
  intro s o ho
  rcases mem_andThen.mp ho with ⟨a, s1, h1, h2⟩ | ⟨x, s1, h1, rfl⟩
  · obtain ⟨rfl, ha⟩ := hA.ok h1
    rw [List.mem_singleton.mp h2]
    simp only [ha]; rfl
  · have := hA s _ h1
    cases hr : p s <;> rw [hr] at this <;> cases this <;> simp only [hr] <;> rfl

theorem only_without (k : Nat) (call : Env → Ev Env Program.Fault Int) : ∀ c : CX, quiet k c = true → Calm k call c
  | .var ty j, h => by
    have hj : j < k := of_decide_eq_true h
    refine ⟨fun s o ho => ?_, fun s e h => (by cases h), fun s s' hs => ?_⟩
    · simp only [orders, if_neg (Nat.ne_of_lt hj), List.mem_singleton] at ho
      exact ho
    · simp only [CX.eval, hs j hj]
  | .lit n, _ => ⟨fun s o ho => List.mem_singleton.mp ho, fun s e h => (by cases h), fun s s' _ => rfl⟩
  | .arith o l r, h => by
    have h' : quiet k l = true ∧ quiet k r = true := by cases o <;> simp_all [quiet]
    have hl := only_without k call l h'.1
    have hr := only_without k call r h'.2
    refine ⟨only_either hl.only hr.only hl.no hr.no _, fun s e => both_no_throw (hl.no s) (hr.no s) (fun _ _ _ => arith_no_throw _ _ _ _ _) e, fun s s' hs => ?_⟩
    simp only [CX.eval, hl.same s s' hs, hr.same s s' hs]
  | .shift o l r, h => by
    have h' : quiet k l = true ∧ quiet k r = true := by simpa [quiet] using h
    have hl := only_without k call l h'.1
    have hr := only_without k call r h'.2
    refine ⟨only_either hl.only hr.only hl.no hr.no _, fun s e => both_no_throw (hl.no s) (hr.no s) (fun _ _ _ => shift_no_throw _ _ _ _ _) e, fun s s' hs => ?_⟩
    simp only [CX.eval, hl.same s s' hs, hr.same s s' hs]
  | .rel o l r, h => by
    have h' : quiet k l = true ∧ quiet k r = true := by simpa [quiet] using h
    have hl := only_without k call l h'.1
    have hr := only_without k call r h'.2
    refine ⟨only_either hl.only hr.only hl.no hr.no _, fun s e => both_no_throw (hl.no s) (hr.no s) (fun _ _ _ => by simp) e, fun s s' hs => ?_⟩
    simp only [CX.eval, hl.same s s' hs, hr.same s s' hs]
  | .compl e, h => by
    have he := only_without k call e h
    refine ⟨only_map he.only _, fun s x => Res.bind_no_throw (he.no s) (fun _ _ => by simp) x, fun s s' hs => ?_⟩
    simp only [CX.eval, he.same s s' hs]
  | .cast ty e, h => by
    have he := only_without k call e h
    refine ⟨only_map he.only _, fun s x => Res.bind_no_throw (he.no s) (fun _ _ => by simp) x, fun s s' hs => ?_⟩
    simp only [CX.eval, he.same s s' hs]
  | .tern c t f, h => by
    have h' : (quiet k c = true ∧ quiet k t = true) ∧ quiet k f = true := by simpa [quiet] using h
    have hc := only_without k call c h'.1.1
    have ht := only_without k call t h'.1.2
    have hf := only_without k call f h'.2
    refine ⟨fun s o ho => ?_, fun s x => Res.bind_no_throw (hc.no s) (fun a x => ?_) x, fun s s' hs => ?_⟩
    · rcases mem_andThen.mp ho with ⟨a, s1, h1, h2⟩ | ⟨x, s1, h1, rfl⟩
      · obtain ⟨rfl, ha⟩ := hc.only.ok h1
        by_cases h0 : a ≠ 0
        · rw [if_pos h0] at h2
          rw [only_map ht.only _ s1 o h2]
          simp only [CX.eval, ha]
          show _ = look s1 (if a ≠ 0 then _ else _)
          rw [if_pos h0]
        · rw [if_neg h0] at h2
          rw [only_map hf.only _ s1 o h2]
          simp only [CX.eval, ha]
          show _ = look s1 (if a ≠ 0 then _ else _)
          rw [if_neg h0]
      · obtain ⟨rfl, rfl, ha⟩ := hc.only.raise hc.no h1
        simp only [CX.eval, ha]; rfl
    · split
      · exact Res.bind_no_throw (ht.no s) (fun _ _ => by simp) x
      · exact Res.bind_no_throw (hf.no s) (fun _ _ => by simp) x
    · simp only [CX.eval, hc.same s s' hs, ht.same s s' hs, hf.same s s' hs]
  | .divide _ _, h => by cases h

/-- Without number `k` the call is not made: the outcome is that of the expression, unless it is undefined. The exception is always the one of a division by zero. -/
structure Still (k : Nat) (call : Env → Ev Env Program.Fault Int) (c : CX) : Prop where
  out : ∀ s o, o ∈ orders k call c s → o = look s (c.eval s) ∨ c.eval s = .ub
  exc : ∀ s e, c.eval s = .throw e → e = .divideByZero

theorem Still.ok {k : Nat} {call : Env → Ev Env Program.Fault Int} {c : CX} (h : Still k call c) {s s' : Env} {a : Int} (hm : .ok a s' ∈ orders k call c s) : (s' = s ∧ c.eval s = .ok a) ∨ c.eval s = .ub := by
  rcases h.out s _ hm with h | h
  · cases hr : c.eval s <;> rw [hr] at h <;> cases h
    exact .inl ⟨rfl, rfl⟩
  · exact .inr h

theorem Still.raise {k : Nat} {call : Env → Ev Env Program.Fault Int} {c : CX} (h : Still k call c) {s s' : Env} {x : Program.Fault} (hm : .raise x s' ∈ orders k call c s) :
    (s' = s ∧ x = .exc .divideByZero ∧ c.eval s = .throw .divideByZero) ∨ c.eval s = .ub := by
  rcases h.out s _ hm with h' | h'
  · cases hr : c.eval s with
    | ok a => rw [hr] at h'; cases h'
    | ub => exact .inr rfl
    | throw e =>
      have := h.exc s e hr
      subst this
      rw [hr] at h'
      cases h'
      exact .inl ⟨rfl, rfl, rfl⟩
  · exact .inr h'

theorem both_ub_left (q : Res Int) (f : Int → Int → Res Int) : both .ub q f = .ub := by cases q <;> rfl
theorem both_ub_right (p : Res Int) (f : Int → Int → Res Int) : both p .ub f = .ub := by cases p <;> rfl

theorem still_either {k : Nat} {call : Env → Ev Env Program.Fault Int} {l r c : CX} (hl : Still k call l) (hr : Still k call r) (f : Int → Int → Res Int) (hf : ∀ a b e, f a b = .throw e → e = .divideByZero)
    (ho : orders k call c = eitherFirst (orders k call l) (orders k call r) f) (he : ∀ s, c.eval s = both (l.eval s) (r.eval s) f) : Still k call c where
  out s o h := by
    rw [ho] at h
    rw [he]
    rcases List.mem_append.mp h with h | h
    · rcases mem_andThen.mp h with ⟨a, s1, h1, h2⟩ | ⟨x, s1, h1, rfl⟩
      · rcases hl.ok h1 with ⟨rfl, ha⟩ | ha
        · rcases mem_andThen.mp h2 with ⟨b, s2, h3, h4⟩ | ⟨x, s2, h3, rfl⟩
          · rcases hr.ok h3 with ⟨rfl, hb⟩ | hb
            · rw [List.mem_singleton.mp h4, ha, hb]; exact .inl rfl
            · rw [hb, both_ub_right]; exact .inr rfl
          · rcases hr.raise h3 with ⟨rfl, rfl, hb⟩ | hb
            · rw [ha, hb]; exact .inl rfl
            · rw [hb, both_ub_right]; exact .inr rfl
        · rw [ha, both_ub_left]; exact .inr rfl
      · rcases hl.raise h1 with ⟨rfl, rfl, ha⟩ | ha
        · rw [ha]
          cases r.eval s1
          · exact .inl rfl
          · exact .inl rfl
          · exact .inr rfl
        · rw [ha, both_ub_left]; exact .inr rfl
    · rcases mem_andThen.mp h with ⟨b, s1, h1, h2⟩ | ⟨x, s1, h1, rfl⟩
      · rcases hr.ok h1 with ⟨rfl, hb⟩ | hb
        · rcases mem_andThen.mp h2 with ⟨a, s2, h3, h4⟩ | ⟨x, s2, h3, rfl⟩
          · rcases hl.ok h3 with ⟨rfl, ha⟩ | ha
            · rw [List.mem_singleton.mp h4, ha, hb]; exact .inl rfl
            · rw [ha, both_ub_left]; exact .inr rfl
          · rcases hl.raise h3 with ⟨rfl, rfl, ha⟩ | ha
            · rw [ha, hb]; exact .inl rfl
            · rw [ha, both_ub_left]; exact .inr rfl
        · rw [hb, both_ub_right]; exact .inr rfl
      · rcases hr.raise h1 with ⟨rfl, rfl, hb⟩ | hb
        · rw [hb]
          cases ha : l.eval s1
          · exact .inl rfl
          · rw [hl.exc _ _ ha]; exact .inl rfl
          · exact .inr rfl
        · rw [hb, both_ub_right]; exact .inr rfl
  exc s e h := by
    rw [he] at h
    cases ha : l.eval s with
    | ub => rw [ha, both_ub_left] at h; cases h
    | throw e' =>
      rw [ha] at h
      cases hb : r.eval s <;> rw [hb] at h <;> cases h <;> exact hl.exc s _ ha
    | ok a =>
      rw [ha] at h
      cases hb : r.eval s with
      | ub => rw [hb] at h; cases h
      | throw e' => rw [hb] at h; cases h; exact hr.exc s _ hb
      | ok b => rw [hb] at h; exact hf a b e h

theorem still_map {k : Nat} {call : Env → Ev Env Program.Fault Int} {e c : CX} (h : Still k call e) (f : Int → Int) {s : Env} {o : Ev Env Program.Fault Int} (ho : o ∈ andThen (orders k call e s) fun a s => [.ok (f a) s]) :
    o = look s (e.eval s >>= fun a => .ok (f a)) ∨ (e.eval s >>= fun a => .ok (f a)) = .ub := by
  rcases mem_andThen.mp ho with ⟨a, s1, h1, h2⟩ | ⟨x, s1, h1, rfl⟩
  · rcases h.ok h1 with ⟨rfl, ha⟩ | ha
    · rw [List.mem_singleton.mp h2, ha]; exact .inl rfl
    · rw [ha]; exact .inr rfl
  · rcases h.raise h1 with ⟨rfl, rfl, ha⟩ | ha
    · rw [ha]; exact .inl rfl
    · rw [ha]; exact .inr rfl

theorem bind_exc {p : Res Int} {f : Int → Res Int} (hp : ∀ e, p = .throw e → e = .divideByZero) (hf : ∀ a e, f a = .throw e → e = .divideByZero) (e : Exc) (h : p >>= f = .throw e) : e = .divideByZero := by
  cases hv : p with
  | ok a => rw [hv] at h; exact hf a e h
  | throw e' => rw [hv] at h; cases h; exact hp _ hv
  | ub => rw [hv] at h; cases h

theorem still_without (k : Nat) (call : Env → Ev Env Program.Fault Int) : ∀ c : CX, without k c = true → Still k call c
  | .var ty j, h => by
    have hj : j ≠ k := by simpa [without] using h
    refine ⟨fun s o ho => ?_, fun s e h => (by cases h)⟩
    simp only [orders, if_neg hj, List.mem_singleton] at ho
    exact .inl ho
  | .lit n, _ => ⟨fun s o ho => .inl (List.mem_singleton.mp ho), fun s e h => (by cases h)⟩
  | .arith o l r, h => by
    have h' : without k l = true ∧ without k r = true := by simpa [without] using h
    exact still_either (still_without k call l h'.1) (still_without k call r h'.2) _ (fun _ _ _ h => absurd h (arith_no_throw _ _ _ _ _)) rfl (fun _ => rfl)
  | .shift o l r, h => by
    have h' : without k l = true ∧ without k r = true := by simpa [without] using h
    exact still_either (still_without k call l h'.1) (still_without k call r h'.2) _ (fun _ _ _ h => absurd h (shift_no_throw _ _ _ _ _)) rfl (fun _ => rfl)
  | .rel o l r, h => by
    have h' : without k l = true ∧ without k r = true := by simpa [without] using h
    exact still_either (still_without k call l h'.1) (still_without k call r h'.2) _ (fun _ _ _ h => (by cases h)) rfl (fun _ => rfl)
  | .divide l r, h => by
    have h' : without k l = true ∧ without k r = true := by simpa [without] using h
    refine still_either (still_without k call l h'.1) (still_without k call r h'.2) _ (fun a b e h => ?_) rfl (fun _ => rfl)
    split at h
    · cases h; rfl
    · unfold i64 at h; split at h <;> cases h
  | .compl e, h => by
    have he := still_without k call e h
    exact ⟨fun s o ho => still_map (c := e) he _ ho, fun s x hx => bind_exc (he.exc s) (fun _ _ h => by cases h) x hx⟩
  | .cast ty e, h => by
    have he := still_without k call e h
    exact ⟨fun s o ho => still_map (c := e) he _ ho, fun s x hx => bind_exc (he.exc s) (fun _ _ h => by cases h) x hx⟩
  | .tern c t f, h => by
    have h' : (without k c = true ∧ without k t = true) ∧ without k f = true := by simpa [without] using h
    have hc := still_without k call c h'.1.1
    have ht := still_without k call t h'.1.2
    have hf := still_without k call f h'.2
    refine ⟨fun s o ho => ?_, fun s x hx => bind_exc (hc.exc s) (fun a e h => ?_) x hx⟩
    · have ev : CX.eval s (.tern c t f) = (c.eval s >>= fun a => if a ≠ 0 then t.eval s >>= fun x => .ok ((common t.ty f.ty).conv x) else f.eval s >>= fun x => .ok ((common t.ty f.ty).conv x)) := rfl
      rw [ev]
      rcases mem_andThen.mp ho with ⟨a, s1, h1, h2⟩ | ⟨x, s1, h1, rfl⟩
      · rcases hc.ok h1 with ⟨rfl, ha⟩ | ha
        · rw [ha, Res.bind_ok]
          by_cases h0 : a ≠ 0
          · rw [if_pos h0] at h2 ⊢
            exact still_map (c := t) ht _ h2
          · rw [if_neg h0] at h2 ⊢
            exact still_map (c := f) hf _ h2
        · rw [ha]; exact .inr rfl
      · rcases hc.raise h1 with ⟨rfl, rfl, ha⟩ | ha
        · rw [ha]; exact .inl rfl
        · rw [ha]; exact .inr rfl
    · split at h
      · exact bind_exc (ht.exc s) (fun _ _ h => by cases h) e h
      · exact bind_exc (hf.exc s) (fun _ _ h => by cases h) e h

/-- The call first, then everything else. -/
def callFirst (k : Nat) (call : Env → Ev Env Program.Fault Int) (p : Env → Res Int) (s : Env) : Ev Env Program.Fault Int :=
  Program.Ev.then (call s) fun v s => look (Program.set s k v) (p (Program.set s k v))

/-- All outcomes are the one with the call first, unless something is undefined. -/
def Same (k : Nat) (call : Env → Ev Env Program.Fault Int) (A : Env → List (Ev Env Program.Fault Int)) (p : Env → Res Int) : Prop :=
  ∀ s o, o ∈ A s → o = callFirst k call p s ∨ Undef o ∨ Undef (callFirst k call p s)

/-- The call does not change variables below `k`. -/
def Frame (k : Nat) (call : Env → Ev Env Program.Fault Int) : Prop := ∀ s v s', call s = .ok v s' → ∀ j, j < k → s' j = s j

theorem callFirst_ok {k : Nat} {call : Env → Ev Env Program.Fault Int} (p : Env → Res Int) {s s1 : Env} {v : Int} (h : call s = .ok v s1) : callFirst k call p s = look (Program.set s1 k v) (p (Program.set s1 k v)) := by
  unfold callFirst; rw [h]; rfl
theorem callFirst_raise {k : Nat} {call : Env → Ev Env Program.Fault Int} (p : Env → Res Int) {s s1 : Env} {x : Program.Fault} (h : call s = .raise x s1) : callFirst k call p s = .raise x s1 := by
  unfold callFirst; rw [h]; rfl

theorem undef_look {s : Env} {p : Res Int} (h : Undef (look s p)) : p = .ub := by
  obtain ⟨s', h⟩ := h
  cases p <;> cases h
  rfl

theorem undef_ub (s : Env) : Undef (look s (.ub : Res Int)) := ⟨s, rfl⟩

theorem same_either {k : Nat} {call : Env → Ev Env Program.Fault Int} (hframe : Frame k call) {A B : Env → List (Ev Env Program.Fault Int)} {p q : Env → Res Int} (hA : Same k call A p) (hB : Only B q)
    (hq : ∀ s e, q s ≠ .throw e) (hs : ∀ s s' : Env, (∀ j, j < k → s j = s' j) → q s = q s') (f : Int → Int → Res Int) : Same k call (eitherFirst A B f) fun s => both (p s) (q s) f := by
  -- what is undefined in the first operand is undefined
  have lift : ∀ s, Undef (callFirst k call p s) → Undef (callFirst k call (fun s => both (p s) (q s) f) s) := by
    intro s h
    cases hc : call s with
    | raise x s1 => rw [callFirst_raise _ hc] at h ⊢; exact h
    | ok v s1 =>
      rw [callFirst_ok _ hc] at h ⊢
      rw [undef_look h, both_ub_left]
      exact undef_ub _
  intro s o ho
  rcases List.mem_append.mp ho with h | h
  · rcases mem_andThen.mp h with ⟨a, s1, h1, h2⟩ | ⟨x, s1, h1, rfl⟩
    · rcases hA s _ h1 with e | ⟨s', e⟩ | e
      · cases hc : call s with
        | raise x s2 => rw [callFirst_raise _ hc] at e; cases e
        | ok v s2 =>
          rw [callFirst_ok _ hc] at e ⊢
          cases hp : p (Program.set s2 k v) with
          | throw e' => rw [hp] at e; cases e
          | ub => rw [hp] at e; cases e
          | ok a' =>
            rw [hp] at e
            cases e
            rcases mem_andThen.mp h2 with ⟨b, s3, h3, h4⟩ | ⟨x, s3, h3, rfl⟩
            · obtain ⟨rfl, hb⟩ := hB.ok h3
              rw [List.mem_singleton.mp h4, hb]; exact .inl rfl
            · obtain ⟨rfl, rfl, hb⟩ := hB.raise hq h3
              exact .inr (.inl ⟨_, rfl⟩)
      · cases e
      · exact .inr (.inr (lift s e))
    · rcases hA s _ h1 with e | e | e
      · cases hc : call s with
        | raise x' s2 => rw [callFirst_raise _ hc] at e ⊢; exact .inl e
        | ok v s2 =>
          rw [callFirst_ok _ hc] at e ⊢
          cases hp : p (Program.set s2 k v) with
          | ok a => rw [hp] at e; cases e
          | ub => rw [both_ub_left]; exact .inr (.inr (undef_ub _))
          | throw e' =>
            rw [hp] at e
            rw [e]
            cases q (Program.set s2 k v)
            · exact .inl rfl
            · exact .inl rfl
            · exact .inr (.inr ⟨_, rfl⟩)
      · exact .inr (.inl e)
      · exact .inr (.inr (lift s e))
  · rcases mem_andThen.mp h with ⟨b, s1, h1, h2⟩ | ⟨x, s1, h1, rfl⟩
    · obtain ⟨rfl, hb⟩ := hB.ok h1
      rcases mem_andThen.mp h2 with ⟨a, s2, h3, h4⟩ | ⟨x, s2, h3, rfl⟩
      · rcases hA s1 _ h3 with e | ⟨s', e⟩ | e
        · cases hc : call s1 with
          | raise x s3 => rw [callFirst_raise _ hc] at e; cases e
          | ok v s3 =>
            rw [callFirst_ok _ hc] at e ⊢
            have hqs : q (Program.set s3 k v) = .ok b := by
              rw [← hb]
              refine hs _ _ fun j hj => ?_
              unfold Program.set
              rw [if_neg (by omega)]
              exact hframe s1 v s3 hc j hj
            cases hp : p (Program.set s3 k v) with
            | throw e' => rw [hp] at e; cases e
            | ub => rw [hp] at e; cases e
            | ok a' =>
              rw [hp] at e
              cases e
              rw [List.mem_singleton.mp h4, hqs]; exact .inl rfl
        · cases e
        · exact .inr (.inr (lift s1 e))
      · rcases hA s1 _ h3 with e | e | e
        · cases hc : call s1 with
          | raise x' s3 => rw [callFirst_raise _ hc] at e ⊢; exact .inl e
          | ok v s3 =>
            rw [callFirst_ok _ hc] at e ⊢
            cases hp : p (Program.set s3 k v) with
            | ok a => rw [hp] at e; cases e
            | ub => rw [both_ub_left]; exact .inr (.inr (undef_ub _))
            | throw e' =>
              rw [hp] at e
              rw [e]
              cases q (Program.set s3 k v)
              · exact .inl rfl
              · exact .inl rfl
              · exact .inr (.inr ⟨_, rfl⟩)
        · exact .inr (.inl e)
        · exact .inr (.inr (lift s1 e))
    · obtain ⟨rfl, rfl, _⟩ := hB.raise hq h1
      exact .inr (.inl ⟨_, rfl⟩)

theorem either_comm (A B : Env → List (Ev Env Program.Fault Int)) (f : Int → Int → Res Int) (s : Env) (o : Ev Env Program.Fault Int) : o ∈ eitherFirst A B f s ↔ o ∈ eitherFirst B A (fun b a => f a b) s := by
  unfold eitherFirst
  rw [List.mem_append, List.mem_append]
  exact Or.comm

theorem both_comm {p q : Res Int} (hp : ∀ e, p ≠ .throw e) (f : Int → Int → Res Int) : both p q f = both q p (fun b a => f a b) := by
  cases p with
  | ok a => cases q <;> rfl
  | throw e => exact absurd rfl (hp e)
  | ub => rw [both_ub_left, both_ub_right]

/-- A place for the call: one of the operands has it, the other is quiet. -/
theorem same_place {k : Nat} {call : Env → Ev Env Program.Fault Int} (hframe : Frame k call) {l r : CX} (hl : once k l = true → Same k call (orders k call l) l.eval) (hr : once k r = true → Same k call (orders k call r) r.eval)
    (h : ((once k l && quiet k r) || (quiet k l && once k r)) = true) (f : Int → Int → Res Int) : Same k call (eitherFirst (orders k call l) (orders k call r) f) fun s => both (l.eval s) (r.eval s) f := by
  rw [Bool.or_eq_true, Bool.and_eq_true, Bool.and_eq_true] at h
  rcases h with ⟨h1, h2⟩ | ⟨h1, h2⟩
  · have hq := only_without k call r h2
    exact same_either hframe (hl h1) hq.only hq.no hq.same f
  · have hq := only_without k call l h1
    have := same_either hframe (hr h2) hq.only hq.no hq.same (fun b a => f a b)
    intro s o ho
    have e : callFirst k call (fun s => both (l.eval s) (r.eval s) f) s = callFirst k call (fun s => both (r.eval s) (l.eval s) (fun b a => f a b)) s := by
      unfold callFirst
      congr 1
      funext v s
      show look _ (both _ _ f) = look _ (both _ _ _)
      rw [both_comm (hq.no _)]
    rw [e]
    exact this s o ((either_comm _ _ _ _ _).mp ho)

theorem same_map {k : Nat} {call : Env → Ev Env Program.Fault Int} {A : Env → List (Ev Env Program.Fault Int)} {p : Env → Res Int} (hA : Same k call A p) (g : Int → Env → List (Ev Env Program.Fault Int)) (f : Env → Int → Res Int)
    (hg : ∀ a s o, o ∈ g a s → o = look s (f s a) ∨ f s a = .ub) : Same k call (fun s => andThen (A s) g) fun s => p s >>= f s := by
  have lift : ∀ s, Undef (callFirst k call p s) → Undef (callFirst k call (fun s => p s >>= f s) s) := by
    intro s h
    cases hc : call s with
    | raise x s1 => rw [callFirst_raise _ hc] at h ⊢; exact h
    | ok v s1 =>
      rw [callFirst_ok _ hc] at h ⊢
      rw [undef_look h]
      exact undef_ub _
  intro s o ho
  rcases mem_andThen.mp ho with ⟨a, s1, h1, h2⟩ | ⟨x, s1, h1, rfl⟩
  · rcases hA s _ h1 with e | ⟨s', e⟩ | e
    · cases hc : call s with
      | raise x s2 => rw [callFirst_raise _ hc] at e; cases e
      | ok v s2 =>
        rw [callFirst_ok _ hc] at e ⊢
        cases hp : p (Program.set s2 k v) with
        | throw e' => rw [hp] at e; cases e
        | ub => rw [hp] at e; cases e
        | ok a' =>
          rw [hp] at e
          cases e
          rw [Res.bind_ok]
          rcases hg _ _ _ h2 with h | h
          · exact .inl h
          · rw [h]; exact .inr (.inr (undef_ub _))
    · cases e
    · exact .inr (.inr (lift s e))
  · rcases hA s _ h1 with e | e | e
    · cases hc : call s with
      | raise x' s2 => rw [callFirst_raise _ hc] at e ⊢; exact .inl e
      | ok v s2 =>
        rw [callFirst_ok _ hc] at e ⊢
        cases hp : p (Program.set s2 k v) with
        | ok a => rw [hp] at e; cases e
        | ub => exact .inr (.inr (undef_ub _))
        | throw e' => rw [hp] at e; rw [e]; exact .inl rfl
    · exact .inr (.inl e)
    · exact .inr (.inr (lift s e))

theorem same_once {k : Nat} {call : Env → Ev Env Program.Fault Int} (hframe : Frame k call) : ∀ c : CX, once k c = true → Same k call (orders k call c) c.eval
  | .var ty j, h => by
    have hj : j = k := by simpa [once] using h
    subst hj
    intro s o ho
    simp only [orders, if_true, List.mem_singleton] at ho
    left
    rw [ho]
    unfold callFirst
    congr 1
    funext v s
    simp only [CX.eval, look, Program.set, if_true]
  | .lit n, h => by cases h
  | .arith o l r, h => same_place hframe (same_once hframe l) (same_once hframe r) h _
  | .shift o l r, h => same_place hframe (same_once hframe l) (same_once hframe r) h _
  | .rel o l r, h => same_place hframe (same_once hframe l) (same_once hframe r) h _
  | .divide l r, h => same_place hframe (same_once hframe l) (same_once hframe r) h _
  | .compl e, h => same_map (same_once hframe e h) _ (fun _ a => .ok (complOp e.ty a)) fun a s o ho => .inl (List.mem_singleton.mp ho)
  | .cast ty e, h => same_map (same_once hframe e h) _ (fun _ a => .ok (ty.wrap a)) fun a s o ho => .inl (List.mem_singleton.mp ho)
  | .tern c t f, h => by
    have h' : (once k c = true ∧ without k t = true) ∧ without k f = true := by simpa [once] using h
    refine same_map (same_once hframe c h'.1.1) _ (fun s a => if a ≠ 0 then t.eval s >>= fun x => .ok ((common t.ty f.ty).conv x) else f.eval s >>= fun x => .ok ((common t.ty f.ty).conv x)) fun a s o ho => ?_
    by_cases h0 : a ≠ 0
    · rw [if_pos h0] at ho ⊢
      exact still_map (c := t) (still_without k call t h'.1.2) _ ho
    · rw [if_neg h0] at ho ⊢
      exact still_map (c := f) (still_without k call f h'.2) _ ho

/-- An undefined call makes every order undefined. -/
theorem undef_once {k : Nat} {call : Env → Ev Env Program.Fault Int} {s : Env} (hcall : Undef (call s)) : ∀ c : CX, once k c = true → ∀ o, o ∈ orders k call c s → Undef o := by
  have after : ∀ {A : List (Ev Env Program.Fault Int)} {g : Int → Env → List (Ev Env Program.Fault Int)}, (∀ o ∈ A, Undef o) → ∀ o ∈ andThen A g, Undef o := by
    intro A g h o ho
    rcases mem_andThen.mp ho with ⟨a, s1, h1, _⟩ | ⟨x, s1, h1, rfl⟩
    · obtain ⟨_, e⟩ := h _ h1; cases e
    · exact h _ h1
  have two : ∀ {A : Env → List (Ev Env Program.Fault Int)} {r : CX} (f : Int → Int → Res Int), quiet k r = true → (∀ o ∈ A s, Undef o) → ∀ o ∈ eitherFirst A (orders k call r) f s, Undef o := by
    intro A r f hr h o ho
    have hq := only_without k call r hr
    rcases List.mem_append.mp ho with h1 | h1
    · exact after h o h1
    · rcases mem_andThen.mp h1 with ⟨b, s1, h2, h3⟩ | ⟨x, s1, h2, rfl⟩
      · obtain ⟨rfl, _⟩ := hq.only.ok h2
        exact after h o h3
      · obtain ⟨_, rfl, _⟩ := hq.only.raise hq.no h2
        exact ⟨_, rfl⟩
  have place : ∀ {l r : CX} (f : Int → Int → Res Int), (once k l = true → ∀ o ∈ orders k call l s, Undef o) → (once k r = true → ∀ o ∈ orders k call r s, Undef o) →
      ((once k l && quiet k r) || (quiet k l && once k r)) = true → ∀ o ∈ eitherFirst (orders k call l) (orders k call r) f s, Undef o := by
    intro l r f hl hr h o ho
    rw [Bool.or_eq_true, Bool.and_eq_true, Bool.and_eq_true] at h
    rcases h with ⟨h1, h2⟩ | ⟨h1, h2⟩
    · exact two f h2 (hl h1) o ho
    · exact two _ h1 (hr h2) o ((either_comm _ _ _ _ _).mp ho)
  intro c
  induction c with
  | var ty j =>
    intro h o ho
    have hj : j = k := by simpa [once] using h
    subst hj
    simp only [orders, if_true, List.mem_singleton] at ho
    obtain ⟨s', e⟩ := hcall
    rw [ho, e]
    exact ⟨s', rfl⟩
  | lit n => intro h; cases h
  | arith o l r hl hr => exact fun h => place _ hl hr h
  | shift o l r hl hr => exact fun h => place _ hl hr h
  | rel o l r hl hr => exact fun h => place _ hl hr h
  | divide l r hl hr => exact fun h => place _ hl hr h
  | compl e he => exact fun h => after (he h)
  | cast ty e he => exact fun h => after (he h)
  | tern c t f hc _ _ =>
    intro h
    have h' : (once k c = true ∧ without k t = true) ∧ without k f = true := by simpa [once] using h
    exact after (hc h'.1.1)

/-- A function changes only static fields. -/
theorem callDef_frame (classes : WStr → Exc → Bool) (exn : WStr → Option Exc) (defs : List Def) (fields : List Fun) (fresh : Env) (n d f : Nat) (vs : List Int) (s s' : Env) (v : Option Int)
    (h : callDef classes exn defs fields fresh n d f vs s = .ok v s') (k : Nat) (hk : isField fields k = false) : s' k = s k := by
  cases d with
  | zero => cases h
  | succ d =>
    unfold callDef at h
    cases hd : defs[f]? with
    | none => rw [hd] at h; cases h
    | some D =>
      rw [hd] at h
      simp only [] at h
      generalize runC _ _ _ _ = o at h
      cases o with
      | ret v' s1 =>
        cases h
        simp only [hk]
        rfl
      | uncaught x s1 => cases h
      | timeout s1 => cases h
      | stuck => cases h

/-- An expression with a call that has been read has the call in such a place. -/
theorem readX_once {ents : List (WStr × Entity)} {t : Cpp.T} {r : RX} {c : RCall} (h : readX ents t = some r) (hc : r.call = some c) : once c.result r.expr = true ∧ c.result = slotOf ents := by
  unfold readX at h
  split at h
  · cases ht : typed ents t <;> rw [ht] at h <;> cases h
    cases hc
  · cases ha : argsOf ents _ _ with
    | none => rw [ha] at h; cases h
    | some cs =>
      rw [ha] at h
      cases ht : typed ents t with
      | none => rw [ht] at h; cases h
      | some e =>
        rw [ht] at h
        simp only [Option.bind_some] at h
        split at h
        · cases h; cases hc; exact ⟨by assumption, rfl⟩
        · cases h
  · cases h

/-- **C173**, the order of evaluation: whichever operands a compiler evaluates first, an expression that has been read does what it does when the call is made first; unless there is undefined behaviour, in that order
or with the call first. -/
theorem C173_order (classes : WStr → Exc → Bool) (exn : WStr → Option Exc) (defs : List Def) (fields : List Fun) (fresh : Env) (n d : Nat) (ents : List (WStr × Entity)) (t : Cpp.T) (r : RX) (c : RCall) (funs : List Fun)
    (hr : readX ents t = some r) (hc : r.call = some c) (hf : ∀ k, isField fields k = true → slotOf ents < k) (s : Env) (o : Ev Env Program.Fault Int)
    (ho : o ∈ orders c.result (makeCall funs (callDef classes exn defs fields fresh n d) c) r.expr s) :
    o = r.run funs (callDef classes exn defs fields fresh n d) id s ∨ Undef o ∨ Undef (r.run funs (callDef classes exn defs fields fresh n d) id s) := by
  obtain ⟨h1, h2⟩ := readX_once hr hc
  have hframe : Frame c.result (makeCall funs (callDef classes exn defs fields fresh n d) c) := by
    intro s v s' h j hj
    have hn : isField fields j = false := by
      cases hb : isField fields j with
      | false => rfl
      | true => have := hf j hb; omega
    unfold makeCall at h
    cases hg : funs[c.callee]? with
    | none => rw [hg] at h; cases h
    | some f =>
      rw [hg] at h
      simp only [] at h
      cases ha : argValues s f.params c.args with
      | throw e => rw [ha] at h; cases h
      | ub => rw [ha] at h; cases h
      | ok vs =>
        rw [ha] at h
        simp only [look, Program.Ev.then] at h
        cases hd : callDef classes exn defs fields fresh n d c.callee vs s with
        | raise x s1 => rw [hd] at h; cases h
        | ok x s1 =>
          rw [hd] at h
          cases x with
          | none => cases h
          | some w => cases h; exact callDef_frame _ _ _ _ _ _ _ _ _ _ _ _ hd j hn
  have main := same_once hframe r.expr h1 s o ho
  -- the call first is what `run` does, where a value is returned
  have hrun : callFirst c.result (makeCall funs (callDef classes exn defs fields fresh n d) c) r.expr.eval s = r.run funs (callDef classes exn defs fields fresh n d) id s ∨
      (∃ s', callFirst c.result (makeCall funs (callDef classes exn defs fields fresh n d) c) r.expr.eval s = .raise .undefined s' ∧ makeCall funs (callDef classes exn defs fields fresh n d) c s = .raise .undefined s') := by
    unfold callFirst makeCall RX.run
    rw [hc]
    simp only []
    cases hg : funs[c.callee]? with
    | none => exact .inl rfl
    | some f =>
      simp only []
      cases ha : argValues s f.params c.args with
      | throw e => exact .inl rfl
      | ub => exact .inl rfl
      | ok vs =>
        simp only [look, Program.Ev.then]
        cases hd : callDef classes exn defs fields fresh n d c.callee vs s with
        | raise x s1 => exact .inl rfl
        | ok x s1 =>
          cases x with
          | none => exact .inr ⟨_, rfl, rfl⟩
          | some w =>
            left
            simp only []
            generalize r.expr.eval _ = res
            cases res <;> rfl
  rcases hrun with e | ⟨s', _, e⟩
  · rw [e] at main; exact main
  · exact .inr (.inl (undef_once ⟨s', e⟩ r.expr h1 o ho))

/-- There is always an order. -/
theorem orders_some (k : Nat) (call : Env → Ev Env Program.Fault Int) : ∀ (c : CX) (s : Env), orders k call c s ≠ [] := by
  have next : ∀ {α β : Type} {A : List (Ev Env Program.Fault α)} {g : α → Env → List (Ev Env Program.Fault β)}, A ≠ [] → (∀ a s, g a s ≠ []) → andThen A g ≠ [] := by
    intro α β A g hA hg h
    cases A with
    | nil => exact hA rfl
    | cons x A =>
      unfold andThen at h
      rw [List.flatMap_cons, List.append_eq_nil_iff] at h
      cases x with
      | ok a s => exact hg a s h.1
      | raise x s => cases h.1
  have two : ∀ {A B : Env → List (Ev Env Program.Fault Int)} (f : Int → Int → Res Int), (∀ s, A s ≠ []) → (∀ s, B s ≠ []) → ∀ s, eitherFirst A B f s ≠ [] := by
    intro A B f hA hB s h
    exact next (hA s) (fun a s1 => next (hB s1) (fun b s2 => by simp)) (List.append_eq_nil_iff.mp h).1
  intro c
  induction c with
  | var ty j => intro s; simp only [orders]; split <;> simp
  | lit n => intro s; simp [orders]
  | arith o l r hl hr => exact two _ hl hr
  | shift o l r hl hr => exact two _ hl hr
  | rel o l r hl hr => exact two _ hl hr
  | divide l r hl hr => exact two _ hl hr
  | compl e he => exact fun s => next (he s) fun _ _ => by simp
  | cast ty e he => exact fun s => next (he s) fun _ _ => by simp
  | tern c t f hc ht hf =>
    intro s
    refine next (hc s) fun a s => ?_
    split
    · exact next (ht s) fun _ _ => by simp
    · exact next (hf s) fun _ _ => by simp

/-- `x + F(x)`, where `F` changes a static field (number 9): two orders, the same outcome. `ticks + F(x)` is not read as an expression because there the orders differ. -/
example : orders 1 (fun s => .ok (s 0 * 2) (Program.set s 9 5)) (.arith .add (.var .int32 0) (.var .int32 1)) (fun _ => 3) =
      [.ok 9 (Program.set (Program.set (fun _ => 3) 9 5) 1 6), .ok 9 (Program.set (Program.set (fun _ => 3) 9 5) 1 6)] ∧
    once 1 (.arith .add (.var .int32 0) (.var .int32 1)) = true ∧
    (orders 1 (fun s => .ok (s 0 * 2) (Program.set s 9 5)) (.arith .add (.var .int32 9) (.var .int32 1)) (fun _ => 3)).map (fun | .ok v _ => v | _ => 0) = [9, 11] ∧
    once 1 (.arith .add (.var .int32 9) (.var .int32 1)) = false := by
  exact ⟨rfl, rfl, rfl, rfl⟩

/-- An operand that may raise an exception before the call is not read either: `F(x)` may raise another exception first. -/
example : (orders 1 (fun s => .raise (.exc .argument) s) (.arith .add (.divide (.var .int64 0) (.lit 0)) (.var .int64 1)) (fun _ => 3)).map (fun | .raise x _ => some x | _ => none) =
      [some (.exc .divideByZero), some (.exc .divideByZero), some (.exc .argument)] ∧
    once 1 (.arith .add (.divide (.var .int64 0) (.lit 0)) (.var .int64 1)) = false ∧ once 1 (.lit 0) = false := by
  exact ⟨rfl, rfl, rfl⟩

end Verif.Read
