import Verif.FlowProps
import Verif.SemProps
/-!
# C149: methods over integer variables

The control flow (C101) and the integer expressions (C94, C104) put together: the simple statements of a method are assignments of integer expressions to variables, its conditions and switch values are integer
expressions.
-/
namespace Verif.Method
open Verif.Stmt Verif.Sem
open Verif.IntVal (Ty)

/-! ## Specification -/

/-- What ends a statement early: an exception, or undefined behaviour of C++. -/
inductive Fault where
  | exc (x : Exc)
  | undefined
deriving DecidableEq

/-- The contents of the variables. -/
abbrev Env := Nat → Int

/-- The pieces of a method: simple statement `k` assigns an expression to a variable of a type; condition `c` and switch value `v` are expressions; returned value `v` is an expression, converted to the method's type; handler `h` is for some of the exceptions. -/
structure Pieces where
  target : Nat → Nat
  type : Nat → Ty
  value : Nat → X
  cond : Nat → X
  val : Nat → X
  retType : Ty
  ret : Nat → X
  catches : Nat → Exc → Bool

/-- The state after the assignment, or the fault. -/
def assign (s : Env) (x : Nat) : Res Int → Ev Env Fault Unit
  | .ok v => .ok () (fun y => if y = x then v else s y)
  | .throw e => .raise (.exc e) s
  | .ub => .raise .undefined s

/-- A value, or the fault. -/
def look {α : Type} (s : Env) : Res α → Ev Env Fault α
  | .ok v => .ok v s
  | .throw e => .raise (.exc e) s
  | .ub => .raise .undefined s

/-- Handlers are for exceptions; nothing catches undefined behaviour. -/
def Pieces.handles (P : Pieces) (h : Nat) : Fault → Bool
  | .exc x => P.catches h x
  | .undefined => false

/-- The source. -/
def Pieces.source (P : Pieces) : Interp Env Fault where
  act k s := assign s (P.target k) (ilStore s (P.type k) (P.value k))
  cond c s := look s (ilTest s (P.cond c))
  val v s := look s ((P.val v).eval s)
  ret v s := look s (ilStore s (P.retType) (P.ret v))
  catches := P.handles
  bind _ _ s := s

/-- The C++ (`switch (e)` takes the value of `e`). -/
def Pieces.cpp (P : Pieces) : Interp Env Fault where
  act k s := assign s (P.target k) (cppStore s (P.type k) (P.value k))
  cond c s := look s (cppTest s (P.cond c))
  val v s := look s ((trK (P.val v) none).eval s)
  ret v s := look s (cppStore s (P.retType) (P.ret v))
  catches := P.handles
  bind _ _ s := s

/-- Stop if the C++ is undefined or the source raises OverflowException. -/
def guarded {α : Type} (cpp : Res α) (source : Res α) : Res α :=
  match cpp, source with
  | .ub, _ => .ub
  | _, .throw .overflow => .ub
  | _, r => r

/-- The source, stopped at the first statement, condition or switch value whose C++ is undefined or in which the source raises OverflowException. -/
def Pieces.stopped (P : Pieces) : Interp Env Fault where
  act k s := assign s (P.target k) (guarded (cppStore s (P.type k) (P.value k)) (ilStore s (P.type k) (P.value k)))
  cond c s := look s (guarded (cppTest s (P.cond c)) (ilTest s (P.cond c)))
  val v s := look s (guarded ((trK (P.val v) none).eval s) ((P.val v).eval s))
  ret v s := look s (guarded (cppStore s (P.retType) (P.ret v)) (ilStore s (P.retType) (P.ret v)))
  catches := P.handles
  bind _ _ s := s

/-- The pieces are ones C94 and C104 are about: C++'s operand types agree with the IL's sign flags, a 32-bit value is not stored in a 64-bit variable (IL does not do that), no condition is itself a conditional,
and a switch value is signed. -/
structure Pieces.Good (P : Pieces) : Prop where
  value : ∀ k, Agree (P.value k) ∧ ¬ ((P.value k).width = .w32 ∧ tyW (P.type k) = .w64)
  cond : ∀ c, Agree (P.cond c) ∧ isIte (P.cond c) = false ∧ (sx (P.cond c) = true ∨ ux (P.cond c) = true)
  val : ∀ v, Agree (P.val v) ∧ sx (P.val v) = true
  ret : ∀ v, Agree (P.ret v) ∧ ¬ ((P.ret v).width = .w32 ∧ tyW (P.retType) = .w64)

/-! ## Interpretations that differ only where one of them stops -/

section
variable {σ ε : Type}

structure Refines (bad : ε → Prop) (I I' : Interp σ ε) : Prop where
  act : ∀ k s, I.act k s = I'.act k s ∨ ∃ x s', I.act k s = .raise x s' ∧ bad x
  cond : ∀ k s, I.cond k s = I'.cond k s ∨ ∃ x s', I.cond k s = .raise x s' ∧ bad x
  val : ∀ k s, I.val k s = I'.val k s ∨ ∃ x s', I.val k s = .raise x s' ∧ bad x
  ret : ∀ k s, I.ret k s = I'.ret k s ∨ ∃ x s', I.ret k s = .raise x s' ∧ bad x
  catches : ∀ h x, I.catches h x = I'.catches h x
  bad : ∀ h x, bad x → I.catches h x = false
  bind : ∀ h x s, I.bind h x s = I'.bind h x s

variable {bad : ε → Prop}

/-- The first run stops, or they are the same. -/
def BLe (bad : ε → Prop) (a b : Out σ ε) : Prop := (∃ x s, bad x ∧ a = .uncaught x s) ∨ a = b
def KB (bad : ε → Prop) (k k' : Cont σ ε) : Prop := ∀ s, BLe bad (k s) (k' s)
def HB (bad : ε → Prop) (h h' : HCont σ ε) : Prop := ∀ x s, BLe bad (h x s) (h' x s) ∧ (bad x → ∃ x' s', bad x' ∧ h x s = .uncaught x' s')
def OB (bad : ε → Prop) : Option (Cont σ ε) → Option (Cont σ ε) → Prop
  | none, none => True
  | some k, some k' => KB bad k k'
  | _, _ => False

theorem OB.or {a b a' b' : Option (Cont σ ε)} (h : OB bad a a') (h' : OB bad b b') : OB bad (a.or b) (a'.or b') := by
  cases a <;> cases a' <;> first | exact h' | exact h | exact h.elim

theorem KB.refl (k : Cont σ ε) : KB bad k k := fun _ => .inr rfl

/-- One piece: the same value, the same exception, or a stop. -/
theorem step_ref {α : Type} {a b : Ev σ ε α} (h : a = b ∨ ∃ x s', a = .raise x s' ∧ bad x) :
    (∃ v s, a = .ok v s ∧ b = .ok v s) ∨ (∃ x s, a = .raise x s ∧ b = .raise x s) ∨ ∃ x s, a = .raise x s ∧ bad x := by
  rcases h with h | h
  · subst h
    cases a with
    | ok v s => exact .inl ⟨v, s, rfl, rfl⟩
    | raise x s => exact .inr (.inl ⟨x, s, rfl, rfl⟩)
  · exact .inr (.inr h)

theorem leave_ref {I I' : Interp σ ε} (R : Refines bad I I') (v : Option Nat) {h h' : HCont σ ε} (hh : HB bad h h') : KB bad (I.leave v h) (I'.leave v h') := by
  intro s
  unfold Interp.leave
  cases v with
  | none => exact .inr rfl
  | some v =>
    rcases step_ref (R.ret v s) with ⟨v, t, e1, e2⟩ | ⟨x, t, e1, e2⟩ | ⟨x, t, e1, hb⟩
    · simp only [e1, e2]; exact .inr rfl
    · simp only [e1, e2]; exact (hh x t).1
    · simp only [e1]; exact .inl ((hh x t).2 hb)

theorem execC_ref {I I' : Interp σ ε} (R : Refines bad I I') {J J' : Item → Cont σ ε} (hJ : ∀ i, KB bad (J i) (J' i)) (c : CS) :
    (∀ h h' k k', HB bad h h' → KB bad k k' → KB bad (execC I J c h k) (execC I' J' c h' k')) ∧
    (∀ i h h' k k', HB bad h h' → KB bad k k' → OB bad (atCase I J i c h k) (atCase I' J' i c h' k')) ∧
    (∀ h h' k k', HB bad h h' → KB bad k k' → HB bad (handleC I J c h k) (handleC I' J' c h' k')) := by
  induction c with
  | nil => exact ⟨fun h h' k k' hh hk s => hk s, fun i h h' k k' hh hk => trivial, fun h h' k k' hh hk => hh⟩
  | text a r ih =>
    refine ⟨fun h h' k k' hh hk s => ?_, fun i h h' k k' hh hk => ih.2.1 i h h' k k' hh hk, fun h h' k k' hh hk => hh⟩
    rw [execC, execC]
    rcases step_ref (R.act a s) with ⟨v, t, e1, e2⟩ | ⟨x, t, e1, e2⟩ | ⟨x, t, e1, hb⟩
    · simp only [e1, e2]; exact ih.1 h h' k k' hh hk t
    · simp only [e1, e2]; exact (hh x t).1
    · simp only [e1]; exact .inl ((hh x t).2 hb)
  | semi r ih => exact ⟨fun h h' k k' hh hk s => ih.1 h h' k k' hh hk s, fun i h h' k k' hh hk => ih.2.1 i h h' k k' hh hk, fun h h' k k' hh hk => hh⟩
  | label i r ih => exact ⟨fun h h' k k' hh hk s => ih.1 h h' k k' hh hk s, fun i h h' k k' hh hk => ih.2.1 i h h' k k' hh hk, fun h h' k k' hh hk => hh⟩
  | jump i r ih => exact ⟨fun h h' k k' hh hk s => hJ i s, fun i h h' k k' hh hk => ih.2.1 i h h' k k' hh hk, fun h h' k k' hh hk => hh⟩
  | ret t v r ih => exact ⟨fun h h' k k' hh hk s => by rw [execC, execC]; exact leave_ref R v hh s, fun i h h' k k' hh hk => ih.2.1 i h h' k k' hh hk, fun h h' k k' hh hk => hh⟩
  | ite c t r iht ihr =>
    refine ⟨fun h h' k k' hh hk s => ?_, fun i h h' k k' hh hk => ?_, fun h h' k k' hh hk => hh⟩
    · rw [execC, execC]
      rcases step_ref (R.cond c s) with ⟨v, q, e1, e2⟩ | ⟨x, q, e1, e2⟩ | ⟨x, q, e1, hb⟩
      · simp only [e1, e2]
        cases v
        · exact ihr.1 h h' k k' hh hk q
        · exact iht.1 h h' _ _ hh (fun s => ihr.1 h h' k k' hh hk s) q
      · simp only [e1, e2]; exact (hh x q).1
      · simp only [e1]; exact .inl ((hh x q).2 hb)
    · exact OB.or (iht.2.1 i h h' _ _ hh (fun s => ihr.1 h h' k k' hh hk s)) (ihr.2.1 i h h' k k' hh hk)
  | iteElse c t f r iht ihf ihr =>
    refine ⟨fun h h' k k' hh hk s => ?_, fun i h h' k k' hh hk => ?_, fun h h' k k' hh hk => hh⟩
    · rw [execC, execC]
      rcases step_ref (R.cond c s) with ⟨v, q, e1, e2⟩ | ⟨x, q, e1, e2⟩ | ⟨x, q, e1, hb⟩
      · simp only [e1, e2]
        cases v
        · exact ihf.1 h h' _ _ hh (fun s => ihr.1 h h' k k' hh hk s) q
        · exact iht.1 h h' _ _ hh (fun s => ihr.1 h h' k k' hh hk s) q
      · simp only [e1, e2]; exact (hh x q).1
      · simp only [e1]; exact .inl ((hh x q).2 hb)
    · exact OB.or (iht.2.1 i h h' _ _ hh (fun s => ihr.1 h h' k k' hh hk s)) (OB.or (ihf.2.1 i h h' _ _ hh (fun s => ihr.1 h h' k k' hh hk s)) (ihr.2.1 i h h' k k' hh hk))
  | group b r ihb ihr =>
    exact ⟨fun h h' k k' hh hk s => ihb.1 h h' _ _ hh (fun s => ihr.1 h h' k k' hh hk s) s,
      fun i h h' k k' hh hk => OB.or (ihb.2.1 i h h' _ _ hh (fun s => ihr.1 h h' k k' hh hk s)) (ihr.2.1 i h h' k k' hh hk), fun h h' k k' hh hk => hh⟩
  | switch v b r ihb ihr =>
    refine ⟨fun h h' k k' hh hk s => ?_, fun i h h' k k' hh hk => ihr.2.1 i h h' k k' hh hk, fun h h' k k' hh hk => hh⟩
    rw [execC, execC]
    have hr : KB bad (fun s => execC I J r h k s) (fun s => execC I' J' r h' k' s) := fun s => ihr.1 h h' k k' hh hk s
    rcases step_ref (R.val v s) with ⟨x, q, e1, e2⟩ | ⟨x, q, e1, e2⟩ | ⟨x, q, e1, hb⟩
    rotate_left
    · simp only [e1, e2]; exact (hh x q).1
    · simp only [e1]; exact .inl ((hh x q).2 hb)
    simp only [e1, e2]
    have := OB.or (ihb.2.1 (.caseHead x) h h' _ _ hh hr) (ihb.2.1 .defaultHead h h' _ _ hh hr)
    revert this
    generalize (atCase I J (.caseHead x) b h (fun s => execC I J r h k s)).or (atCase I J .defaultHead b h (fun s => execC I J r h k s)) = o
    generalize (atCase I' J' (.caseHead x) b h' (fun s => execC I' J' r h' k' s)).or (atCase I' J' .defaultHead b h' (fun s => execC I' J' r h' k' s)) = o'
    cases o <;> cases o' <;> intro h1
    · exact hr q
    · exact h1.elim
    · exact h1.elim
    · exact h1 q
  | case i r ih =>
    refine ⟨fun h h' k k' hh hk s => ih.1 h h' k k' hh hk s, fun j h h' k k' hh hk => ?_, fun h h' k k' hh hk => hh⟩
    rw [atCase, atCase]
    by_cases e : i = j
    · rw [if_pos e, if_pos e]; exact fun s => ih.1 h h' k k' hh hk s
    · rw [if_neg e, if_neg e]; exact ih.2.1 j h h' k k' hh hk
  | tryc b hs r ihb ihs ihr =>
    refine ⟨fun h h' k k' hh hk s => ?_, fun i h h' k k' hh hk => OB.or (ihb.2.1 i h h' _ _ hh (fun s => ihr.1 h h' k k' hh hk s)) (ihr.2.1 i h h' k k' hh hk), fun h h' k k' hh hk => hh⟩
    have hr : KB bad (fun s => execC I J r h k s) (fun s => execC I' J' r h' k' s) := fun s => ihr.1 h h' k k' hh hk s
    exact ihb.1 _ _ _ _ (ihs.2.2 h h' _ _ hh hr) hr s
  | «catch» hid b n ihb ihn =>
    refine ⟨fun h h' k k' hh hk s => .inr rfl, fun i h h' k k' hh hk => ihn.2.1 i h h' k k' hh hk, fun h h' k k' hh hk => ?_⟩
    intro x s
    rw [handleC, handleC, ← R.catches, ← R.bind]
    by_cases e : I.catches hid x = true
    · rw [if_pos e, if_pos e]
      refine ⟨ihb.1 h h' k k' hh hk _, fun hb => ?_⟩
      rw [R.bad hid x hb] at e; cases e
    · rw [if_neg e, if_neg e]
      exact ihn.2.2 h h' k k' hh hk x s

theorem enterC_ref {I I' : Interp σ ε} (R : Refines bad I I') {J J' : Item → Cont σ ε} (hJ : ∀ i, KB bad (J i) (J' i)) (p : Item → Bool) (c : CS) :
    ∀ h h' k k', HB bad h h' → KB bad k k' → OB bad (enterC I J p c h k) (enterC I' J' p c h' k') := by
  have ex := fun c => (execC_ref R hJ c).1
  induction c with
  | nil => intro h h' k k' hh hk; exact trivial
  | text a r ih | semi r ih | jump i r ih | ret t v r ih | case i r ih => intro h h' k k' hh hk; exact ih h h' k k' hh hk
  | label i r ih =>
    intro h h' k k' hh hk
    rw [enterC, enterC]
    by_cases e : p i = true
    · rw [if_pos e, if_pos e]; exact ex r h h' k k' hh hk
    · rw [if_neg e, if_neg e]; exact ih h h' k k' hh hk
  | ite c t r iht ihr => intro h h' k k' hh hk; exact OB.or (iht h h' _ _ hh (ex r h h' k k' hh hk)) (ihr h h' k k' hh hk)
  | iteElse c t f r iht ihf ihr =>
    intro h h' k k' hh hk
    exact OB.or (iht h h' _ _ hh (ex r h h' k k' hh hk)) (OB.or (ihf h h' _ _ hh (ex r h h' k k' hh hk)) (ihr h h' k k' hh hk))
  | group b r ihb ihr | switch v b r ihb ihr => intro h h' k k' hh hk; exact OB.or (ihb h h' _ _ hh (ex r h h' k k' hh hk)) (ihr h h' k k' hh hk)
  | tryc b hs r ihb ihs ihr =>
    intro h h' k k' hh hk
    have hr := ex r h h' k k' hh hk
    exact OB.or (ihb _ _ _ _ ((execC_ref R hJ hs).2.2 h h' _ _ hh hr) hr) (OB.or (ihs h h' _ _ hh hr) (ihr h h' k k' hh hk))
  | «catch» hid b n ihb ihn => intro h h' k k' hh hk; exact OB.or (ihb h h' k k' hh hk) (ihn h h' k k' hh hk)

theorem uncaught_HB : HB bad (σ := σ) (ε := ε) Out.uncaught Out.uncaught := fun x s => ⟨.inr rfl, fun h => ⟨x, s, h, rfl⟩⟩

theorem runC_ref {I I' : Interp σ ε} (R : Refines bad I I') (body : CS) (n : Nat) : KB bad (runC I body n) (runC I' body n) := by
  have hj : ∀ n i, KB bad (jumpC I body n i) (jumpC I' body n i) := by
    intro n
    induction n with
    | zero => intro i s; exact .inr rfl
    | succ n ih =>
      intro i s
      rw [jumpC, jumpC]
      have := enterC_ref R ih (goesTo i) body Out.uncaught Out.uncaught stuckK stuckK uncaught_HB (KB.refl _)
      revert this
      generalize enterC I (jumpC I body n) (goesTo i) body Out.uncaught stuckK = o
      generalize enterC I' (jumpC I' body n) (goesTo i) body Out.uncaught stuckK = o'
      cases o <;> cases o' <;> intro h1
      · exact .inr rfl
      · exact h1.elim
      · exact h1.elim
      · exact h1 s
  exact (execC_ref R (hj n) body).1 _ _ _ _ uncaught_HB (KB.refl _)

theorem exec_ref {I I' : Interp σ ε} (R : Refines bad I I') (main : Nat) {J J' : Tgt → Cont σ ε} (hJ : ∀ i, KB bad (J i) (J' i)) (il : IL) :
    (∀ h h' k k', HB bad h h' → KB bad k k' → KB bad (exec I main J il h k) (exec I' main J' il h' k')) ∧
    (∀ x h h' k k', HB bad h h' → KB bad k k' → KB bad (select I main J il x h k) (select I' main J' il x h' k')) ∧
    (∀ h h', HB bad h h' → HB bad (handle I main J il h) (handle I' main J' il h')) := by
  induction il with
  | nop | nil => exact ⟨fun h h' k k' hh hk s => hk s, fun x h h' k k' hh hk s => .inr rfl, fun h h' hh => hh⟩
  | silent b _ | bnil | hnil | snil => exact ⟨fun h h' k k' hh hk s => .inr rfl, fun x h h' k k' hh hk s => .inr rfl, fun h h' hh => hh⟩
  | act a =>
    refine ⟨fun h h' k k' hh hk s => ?_, fun x h h' k k' hh hk s => .inr rfl, fun h h' hh => hh⟩
    rw [exec, exec]
    rcases step_ref (R.act a s) with ⟨v, t, e1, e2⟩ | ⟨x, t, e1, e2⟩ | ⟨x, t, e1, hb⟩
    · simp only [e1, e2]; exact hk t
    · simp only [e1, e2]; exact (hh x t).1
    · simp only [e1]; exact .inl ((hh x t).2 hb)
  | leave t e v =>
    refine ⟨fun h h' k k' hh hk s => ?_, fun x h h' k k' hh hk s => .inr rfl, fun h h' hh => hh⟩
    rw [exec, exec]
    by_cases e : t = main
    · rw [if_pos e, if_pos e]; exact leave_ref R v hh s
    · rw [if_neg e, if_neg e]; exact hJ _ s
  | branch l => exact ⟨fun h h' k k' hh hk s => hJ _ s, fun x h h' k k' hh hk s => .inr rfl, fun h h' hh => hh⟩
  | ite c t f iht ihf =>
    refine ⟨fun h h' k k' hh hk s => ?_, fun x h h' k k' hh hk s => .inr rfl, fun h h' hh => hh⟩
    rw [exec, exec]
    rcases step_ref (R.cond c s) with ⟨v, q, e1, e2⟩ | ⟨x, q, e1, e2⟩ | ⟨x, q, e1, hb⟩
    · simp only [e1, e2]
      cases v
      · exact ihf.1 h h' k k' hh hk q
      · exact iht.1 h h' k k' hh hk q
    · simp only [e1, e2]; exact (hh x q).1
    · simp only [e1]; exact .inl ((hh x q).2 hb)
  | block b ih => exact ⟨fun h h' k k' hh hk s => ih.1 h h' k k' hh hk s, fun x h h' k k' hh hk s => .inr rfl, fun h h' hh => hh⟩
  | container id bs ih => exact ⟨fun h h' k k' hh hk s => ih.1 h h' _ _ hh (KB.refl _) s, fun x h h' k k' hh hk s => .inr rfl, fun h h' hh => hh⟩
  | tryCatch tid lbl f r hs ihf _ ihs =>
    exact ⟨fun h h' k k' hh hk s => ihf.1 _ _ _ _ (ihs.2.2 h h' hh) (KB.refl _) s, fun x h h' k k' hh hk s => .inr rfl, fun h h' hh => hh⟩
  | switch v ss ih =>
    refine ⟨fun h h' k k' hh hk s => ?_, fun x h h' k k' hh hk s => .inr rfl, fun h h' hh => hh⟩
    rw [exec, exec]
    rcases step_ref (R.val v s) with ⟨v, q, e1, e2⟩ | ⟨x, q, e1, e2⟩ | ⟨x, q, e1, hb⟩
    · simp only [e1, e2]; exact ih.2.1 v h h' k k' hh hk q
    · simp only [e1, e2]; exact (hh x q).1
    · simp only [e1]; exact .inl ((hh x q).2 hb)
  | cons a r iha ihr =>
    exact ⟨fun h h' k k' hh hk s => iha.1 h h' _ _ hh (fun s => ihr.1 h h' k k' hh hk s) s, fun x h h' k k' hh hk s => .inr rfl, fun h h' hh => hh⟩
  | bcons lbl b r ihb ihr => exact ⟨fun h h' k k' hh hk s => ihb.1 h h' _ _ hh (KB.refl _) s, fun x h h' k k' hh hk s => .inr rfl, fun h h' hh => hh⟩
  | hcons hid lbl f r n ihf _ ihn =>
    refine ⟨fun h h' k k' hh hk s => .inr rfl, fun x h h' k k' hh hk s => .inr rfl, fun h h' hh => ?_⟩
    intro x s
    rw [handle, handle, ← R.catches, ← R.bind]
    by_cases e : I.catches hid x = true
    · rw [if_pos e, if_pos e]
      refine ⟨ihf.1 h h' _ _ hh (KB.refl _) _, fun hb => ?_⟩
      rw [R.bad hid x hb] at e; cases e
    · rw [if_neg e, if_neg e]
      exact ihn.2.2 h h' hh x s
  | scons ls b r ihb ihr =>
    refine ⟨fun h h' k k' hh hk s => .inr rfl, fun x h h' k k' hh hk s => ?_, fun h h' hh => hh⟩
    rw [select, select]
    by_cases e : ls.has x
    · rw [if_pos e, if_pos e]; exact ihb.1 h h' k k' hh hk s
    · rw [if_neg e, if_neg e]; exact ihr.2.1 x h h' k k' hh hk s

theorem OB.ite {c : Prop} [Decidable c] {k k' : Cont σ ε} (h : KB bad k k') : OB bad (if c then some k else none) (if c then some k' else none) := by
  by_cases e : c
  · rw [if_pos e, if_pos e]; exact h
  · rw [if_neg e, if_neg e]; exact trivial

theorem enter_ref {I I' : Interp σ ε} (R : Refines bad I I') (main : Nat) {J J' : Tgt → Cont σ ε} (hJ : ∀ i, KB bad (J i) (J' i)) (g : Tgt) (il : IL) :
    ∀ h h' k k', HB bad h h' → KB bad k k' → OB bad (enter I main J g il h k) (enter I' main J' g il h' k') := by
  have ex := fun c => (exec_ref R main hJ c).1
  have kk : KB bad (stuckK (σ := σ) (ε := ε)) stuckK := KB.refl _
  induction il with
  | nop | nil | silent b _ | bnil | hnil | snil | act a | leave t e v | branch l => intro h h' k k' hh hk; exact trivial
  | ite c t f iht ihf => intro h h' k k' hh hk; exact OB.or (iht h h' k k' hh hk) (ihf h h' k k' hh hk)
  | block b ih => intro h h' k k' hh hk; exact ih h h' k k' hh hk
  | container id bs ih => intro h h' k k' hh hk; exact OB.or (ih h h' _ _ hh kk) (OB.ite hk)
  | tryCatch tid lbl f r hs ihf ihr ihs =>
    intro h h' k k' hh hk
    have h2 := (exec_ref R main hJ hs).2.2 h h' hh
    exact OB.or (OB.ite (ex f _ _ _ _ h2 kk)) (OB.or (ihf _ _ _ _ h2 kk) (OB.or (ihr _ _ _ _ h2 kk) (OB.or (ihs h h' k k' hh hk) (OB.ite hk))))
  | switch v ss ih => intro h h' k k' hh hk; exact ih h h' k k' hh hk
  | cons a r iha ihr => intro h h' k k' hh hk; exact OB.or (iha h h' _ _ hh (ex r h h' k k' hh hk)) (ihr h h' k k' hh hk)
  | bcons lbl b r ihb ihr => intro h h' k k' hh hk; exact OB.or (OB.ite (ex b _ _ _ _ hh kk)) (OB.or (ihb h h' _ _ hh kk) (ihr h h' k k' hh hk))
  | hcons hid lbl f r n ihf ihr ihn =>
    intro h h' k k' hh hk
    exact OB.or (OB.ite (ex f _ _ _ _ hh kk)) (OB.or (ihf h h' _ _ hh kk) (OB.or (ihr h h' _ _ hh kk) (ihn h h' k k' hh hk)))
  | scons ls b r ihb ihr => intro h h' k k' hh hk; exact OB.or (ihb h h' k k' hh hk) (ihr h h' k k' hh hk)

theorem runIL_ref {I I' : Interp σ ε} (R : Refines bad I I') (main : Nat) (blocks : IL) (n : Nat) : KB bad (runIL I main blocks n) (runIL I' main blocks n) := by
  have hj : ∀ n i, KB bad (jumpIL I main blocks n i) (jumpIL I' main blocks n i) := by
    intro n
    induction n with
    | zero => intro i s; exact .inr rfl
    | succ n ih =>
      intro i s
      rw [jumpIL, jumpIL]
      have := enter_ref R main ih i blocks Out.uncaught Out.uncaught stuckK stuckK uncaught_HB (KB.refl _)
      revert this
      generalize enter I main (jumpIL I main blocks n) i blocks Out.uncaught stuckK = o
      generalize enter I' main (jumpIL I' main blocks n) i blocks Out.uncaught stuckK = o'
      cases o <;> cases o' <;> intro h1
      · exact .inr rfl
      · exact h1.elim
      · exact h1.elim
      · exact h1 s
  exact (exec_ref R main (hj n) blocks).1 _ _ _ _ uncaught_HB (KB.refl _)

end

/-! ## The pieces -/

/-- The fault at which the stopped source stops. -/
def Stop (x : Fault) : Prop := x = .undefined

theorem guarded_cases {α : Type} (c r : Res α) : guarded c r = .ub ∨ (c ≠ .ub ∧ r ≠ .throw .overflow ∧ guarded c r = r) := by
  cases c with
  | ub => exact .inl rfl
  | ok v =>
    cases r with
    | ub => exact .inl rfl
    | ok v => exact .inr ⟨by simp, by simp, rfl⟩
    | throw e =>
      by_cases h : e = .overflow
      · subst h; exact .inl rfl
      · exact .inr ⟨by simp, by simpa using h, by cases e <;> first | rfl | exact absurd rfl h⟩
  | throw x =>
    cases r with
    | ub => exact .inl rfl
    | ok v => exact .inr ⟨by simp, by simp, rfl⟩
    | throw e =>
      by_cases h : e = .overflow
      · subst h; exact .inl rfl
      · exact .inr ⟨by simp, by simpa using h, by cases e <;> first | rfl | exact absurd rfl h⟩

theorem val_same (s : Env) (e : X) (h : Agree e) (hx : sx e = true) (hub : (trK e none).eval s ≠ .ub) (hov : e.eval s ≠ .throw .overflow) : (trK e none).eval s = e.eval s := by
  have e1 : trK e none = Sem.tr e := trK_eq e h none (fun _ => rfl)
  rw [e1] at hub ⊢
  have R := agree_rel s e h hov
  cases hq : (Sem.tr e).eval s with
  | ub => exact absurd hq hub
  | throw x => rw [hq] at R; have R' : e.eval s = .throw x := R; rw [R']
  | ok v => rw [hq] at R; rw [R.1, R.2.2.1 hx]

theorem source_ref (P : Pieces) : Refines Stop P.stopped P.source where
  act k s := by
    show assign s _ (guarded _ _) = assign s _ _ ∨ ∃ x s', assign s _ (guarded _ _) = _ ∧ _
    rcases guarded_cases (cppStore s (P.type k) (P.value k)) (ilStore s (P.type k) (P.value k)) with h | ⟨_, _, h⟩
    · exact .inr ⟨.undefined, s, by rw [h]; rfl, rfl⟩
    · exact .inl (by rw [h])
  cond k s := by
    show look s (guarded _ _) = look s _ ∨ ∃ x s', look s (guarded _ _) = _ ∧ _
    rcases guarded_cases (cppTest s (P.cond k)) (ilTest s (P.cond k)) with h | ⟨_, _, h⟩
    · exact .inr ⟨.undefined, s, by rw [h]; rfl, rfl⟩
    · exact .inl (by rw [h])
  val k s := by
    show look s (guarded _ _) = look s _ ∨ ∃ x s', look s (guarded _ _) = _ ∧ _
    rcases guarded_cases ((trK (P.val k) none).eval s) ((P.val k).eval s) with h | ⟨_, _, h⟩
    · exact .inr ⟨.undefined, s, by rw [h]; rfl, rfl⟩
    · exact .inl (by rw [h])
  ret k s := by
    show look s (guarded _ _) = look s _ ∨ ∃ x s', look s (guarded _ _) = _ ∧ _
    rcases guarded_cases (cppStore s P.retType (P.ret k)) (ilStore s P.retType (P.ret k)) with h | ⟨_, _, h⟩
    · exact .inr ⟨.undefined, s, by rw [h]; rfl, rfl⟩
    · exact .inl (by rw [h])
  catches h x := rfl
  bad h x hx := by rw [hx]; rfl
  bind h x s := rfl

theorem cpp_ref (P : Pieces) (hP : P.Good) : Refines Stop P.stopped P.cpp where
  act k s := by
    show assign s _ (guarded _ _) = assign s _ _ ∨ ∃ x s', assign s _ (guarded _ _) = _ ∧ _
    rcases guarded_cases (cppStore s (P.type k) (P.value k)) (ilStore s (P.type k) (P.value k)) with h | ⟨h1, h2, h⟩
    · exact .inr ⟨.undefined, s, by rw [h]; rfl, rfl⟩
    · exact .inl (by rw [h, C94_value_partial s _ _ (hP.value k).1 (hP.value k).2 h1 h2])
  cond k s := by
    show look s (guarded _ _) = look s _ ∨ ∃ x s', look s (guarded _ _) = _ ∧ _
    rcases guarded_cases (cppTest s (P.cond k)) (ilTest s (P.cond k)) with h | ⟨h1, h2, h⟩
    · exact .inr ⟨.undefined, s, by rw [h]; rfl, rfl⟩
    · exact .inl (by rw [h, C104_branch_partial s _ (hP.cond k).2.1 (hP.cond k).1 (hP.cond k).2.2 h1 h2])
  val k s := by
    show look s (guarded _ _) = look s _ ∨ ∃ x s', look s (guarded _ _) = _ ∧ _
    rcases guarded_cases ((trK (P.val k) none).eval s) ((P.val k).eval s) with h | ⟨h1, h2, h⟩
    · exact .inr ⟨.undefined, s, by rw [h]; rfl, rfl⟩
    · exact .inl (by rw [h, val_same s _ (hP.val k).1 (hP.val k).2 h1 h2])
  ret k s := by
    show look s (guarded _ _) = look s _ ∨ ∃ x s', look s (guarded _ _) = _ ∧ _
    rcases guarded_cases (cppStore s P.retType (P.ret k)) (ilStore s P.retType (P.ret k)) with h | ⟨h1, h2, h⟩
    · exact .inr ⟨.undefined, s, by rw [h]; rfl, rfl⟩
    · exact .inl (by rw [h, C94_value_partial s _ _ (hP.ret k).1 (hP.ret k).2 h1 h2])
  catches h x := rfl
  bad h x hx := by rw [hx]; rfl
  bind h x s := rfl

/-! ## The property -/

/-- **C149** (partial: the methods and pieces of C94, C101 and C104): the C++ function written for a method whose statements assign integer expressions to variables ends as the method does, by returning the same value or
with the same uncaught exception, and leaves the same values in the variables, for every contents of the variables at the start and however often it jumps; unless on the way it comes to a statement whose C++
is undefined or in which the source raises OverflowException. -/
theorem C149_method_partial (P : Pieces) (hP : P.Good) (main : Nat) (blocks : IL) (hs : Shape .blocks blocks) (hin : Innermost main [] blocks) (hid : (main :: ids blocks).Nodup)
    (hb : ∀ l ∈ branches blocks, ∀ b, (l, b) ∈ visited blocks → ¬ LoneLeave b) :
    ∃ body : CS, body.WF ∧ body.flat = emitMain main false blocks ∧ (∀ b : CS, b.WF → b.flat = emitMain main false blocks → b = body) ∧
      ∀ (n : Nat) (s : Env), runIL P.source main blocks n s ≠ .stuck → (∀ s', runIL P.stopped main blocks n s ≠ .uncaught .undefined s') →
        runC P.cpp body n s = runIL P.source main blocks n s := by
  obtain ⟨body, h1, h2, h3, h4⟩ := C101_flow_partial main blocks hs hin hid hb
  refine ⟨body, h1, h2, h3, fun n s hns hnb => ?_⟩
  have a1 : runIL P.stopped main blocks n s = runIL P.source main blocks n s := by
    rcases runIL_ref (source_ref P) main blocks n s with ⟨x, s', hx, e⟩ | e
    · rw [hx] at e; exact absurd e (hnb s')
    · exact e
  have a2 : runC P.stopped body n s = runIL P.stopped main blocks n s := by
    rcases h4 _ _ P.stopped n s with e | e
    · rw [a1] at e; exact absurd e hns
    · exact e
  rcases runC_ref (cpp_ref P hP) body n s with ⟨x, s', hx, e⟩ | e
  · rw [a2, hx] at e; exact absurd e (hnb s')
  · rw [← e, a2, a1]

/-- `while (i > 1) { acc = acc * i; i = i - 1; } return acc;`, the variables `long acc` (0) and `int i` (1), the product with `(long)i`. -/
def facMethod : IL :=
  .bcons 0 (.cons (.container 1 (.bcons 5 (.cons (.ite 7 (.block (.cons (.act 3) (.cons (.act 4) .nil))) (.leave 1 5 none)) (.cons (.branch 5) .nil)) .bnil))
    (.cons (.leave 9 0 (some 1)) .nil)) .bnil

def facPieces : Pieces where
  target k := if k = 3 then 0 else 1
  type k := if k = 3 then .int64 else .int32
  value k := if k = 3 then .bin (.arith .mul) false false (.var .int64 0) (.conv .int64 false false (.var .int32 1)) else .bin (.arith .sub) false false (.var .int32 1) (.i4 1)
  cond _ := .comp .gt false (.var .int32 1) (.i4 1)
  val _ := .i4 0
  retType := .int64
  ret _ := .var .int64 0
  catches _ _ := false

theorem fac_good : facPieces.Good where
  value k := by
    by_cases h : k = 3 <;> simp [facPieces, h, Agree, cty, Sem.tr, constX, CX.ty, common, promote, CT.bits, CT.signed, X.width, tyW, W.bits, sx, ux, I32]
  cond k := by simp [facPieces, isIte, Agree, cty, Sem.tr, constX, CX.ty, common, promote, CT.bits, CT.signed, X.width, tyW, W.bits, sx, ux, I32]
  val k := by simp [facPieces, Agree, sx, cty, Sem.tr, constX, CX.ty, I32, promote, CT.signed, CT.bits, X.width, W.bits]
  ret k := by simp [facPieces, Agree, X.width, tyW]

theorem fac_flow : Shape .blocks facMethod ∧ Innermost 9 [] facMethod ∧ (9 :: ids facMethod).Nodup ∧
    ∀ l ∈ branches facMethod, ∀ b, (l, b) ∈ visited facMethod → ¬ LoneLeave b := by
  refine ⟨by simp [facMethod, Shape], by simp [facMethod, Innermost], by decide, ?_⟩
  intro l hl b hb
  simp [facMethod, branches] at hl
  subst hl
  simp [facMethod, visited] at hb
  rw [hb]
  rintro ⟨_, _, _, e⟩
  simp at e

/-- The value returned and the contents of variable 1 at the end of a run that returns a value. -/
def result : Out Env Fault → Option (Int × Int)
  | .ret (some v) s => some (v, s 1)
  | _ => none

def facStart : Env := fun k => if k = 0 then 1 else 15

def undef : Out Env Fault → Bool
  | .uncaught .undefined _ => true
  | _ => false

def isStuck : Out Env Fault → Bool
  | .stuck => true
  | _ => false

/-- 15! in C++. -/
example : ∃ body : CS, body.flat = emitMain 9 false facMethod ∧ result (runC facPieces.cpp body 20 facStart) = some (1307674368000, 1) := by
  obtain ⟨body, _, h2, _, h4⟩ := C149_method_partial facPieces fac_good 9 facMethod fac_flow.1 fac_flow.2.1 fac_flow.2.2.1 fac_flow.2.2.2
  refine ⟨body, h2, ?_⟩
  rw [h4 20 facStart ?_ ?_]
  · decide +kernel
  · intro h
    have : isStuck (runIL facPieces.source 9 facMethod 20 facStart) = false := by decide +kernel
    rw [h] at this; cases this
  · intro s' h
    have : undef (runIL facPieces.stopped 9 facMethod 20 facStart) = false := by decide +kernel
    rw [h] at this; cases this

/-- `if (a && b) x = 1; return x;` -/
def andMethod : IL := .bcons 0 (.cons (.ite 7 (.act 3) .nop) (.cons (.leave 9 0 (some 1)) .nil)) .bnil

def andPieces : Pieces where
  target _ := 0
  type _ := .int32
  value _ := .i4 1
  cond _ := .ite (.var .int32 1) (.var .int32 2) (.i4 0)
  val _ := .i4 0
  retType := .int32
  ret _ := .var .int32 0
  catches _ _ := false

/-- **C149**, the rest refuted: `if (a && b)` with `a` true and `b` false; the C++ does the assignment. -/
theorem C149_refuted : result (runIL andPieces.source 9 andMethod 5 (fun k => if k = 1 then 1 else 0)) = some (0, 1) ∧
    ∀ b : CS, b.WF → b.flat = emitMain 9 false andMethod → result (runC andPieces.cpp b 5 (fun k => if k = 1 then 1 else 0)) = some (1, 1) := by
  refine ⟨by decide +kernel, fun b hb he => ?_⟩
  have hwf : (Stmt.tr 9 andMethod [1] ⟨1, 9⟩ .nil).WF := (tr_wf 9 andMethod .blocks (by simp [andMethod, Shape]) [1] ⟨1, 9⟩ .nil).1 trivial trivial
  have hfl : (Stmt.tr 9 andMethod [1] ⟨1, 9⟩ .nil).flat = emitMain 9 false andMethod := by rw [tr_flat, emitMain_eq]; simp [CS.flat]
  rw [C101_one_reading b _ hb hwf (he.trans hfl.symm)]
  decide +kernel

end Verif.Method
