import Verif.CtorOrderModel
/-!
# C160: the order in which a new object is made
-/
namespace Verif.CtorOrder

/-! ### Specification

A class with its bases is a list, most derived first. -/

variable {α : Type}

/-- C#: the instructions are executed in order; the call of the base constructor executes the base class's. -/
def csharp : List (Cls α) → List α
  | [] => []
  | c :: rest => c.il.flatMap fun i => match i with | .act a => [a] | .baseCall => csharp rest

/-- C++ (C++11 12.6.2): the base is made first, then the body is executed. -/
def cpp : List (Cls α) → List α
  | [] => []
  | c :: rest => cpp rest ++ body c

/-- Nothing is done for the class. -/
def Idle (c : Cls α) : Prop := c.inits = [] ∧ c.body = []

/-! ### Lemmas -/

theorem csharp_cons (c : Cls α) (rest : List (Cls α)) : csharp (c :: rest) = c.inits ++ csharp rest ++ c.body := by
  simp [csharp, Cls.il, List.flatMap_append, List.flatMap_map]

theorem body_eq (c : Cls α) : body c = c.inits ++ c.body := by
  simp only [body, Cls.il, List.filterMap_append, List.filterMap_cons, written, List.filterMap_map]
  have : ∀ l : List α, l.filterMap (written ∘ Ins.act) = l := fun l => by
    rw [show (written ∘ Ins.act : α → Option α) = some from rfl]; exact List.filterMap_some
  rw [this, this]

theorem cpp_cons (c : Cls α) (rest : List (Cls α)) : cpp (c :: rest) = cpp rest ++ (c.inits ++ c.body) := by rw [cpp, body_eq]

theorem cpp_nil_iff (l : List (Cls α)) : cpp l = [] ↔ ∀ d ∈ l, Idle d := by
  induction l with
  | nil => simp [cpp]
  | cons c rest ih => rw [cpp_cons]; simp [ih, Idle]; exact ⟨fun ⟨a, b, c⟩ => ⟨⟨b, c⟩, a⟩, fun ⟨⟨b, c⟩, a⟩ => ⟨a, b, c⟩⟩

theorem csharp_nil (l : List (Cls α)) (h : ∀ d ∈ l, Idle d) : csharp l = [] := by
  induction l with
  | nil => rfl
  | cons c rest ih =>
    have hc := h c (by simp)
    rw [csharp_cons, hc.1, hc.2, ih fun d hd => h d (by simp [hd])]; rfl

/-! ### C160 -/

/-- **C160**, every class hierarchy: all that the source does to make an object is done in C++ once, and nothing else. -/
theorem C160_once (chain : List (Cls α)) : (cpp chain).Perm (csharp chain) := by
  induction chain with
  | nil => exact List.Perm.refl _
  | cons c rest ih =>
    rw [cpp_cons, csharp_cons, ← List.append_assoc]
    exact ((List.perm_append_comm).trans ((List.Perm.refl _).append ih)).append (List.Perm.refl _)

/-- **C160** (partial, but exact): the initialisers and the statements of the constructors are executed in the same order exactly when no class with initialisers has a base class for which something is done. Missing: the
others (`C160_order_refuted`). -/
theorem C160_order_partial (chain : List (Cls α)) (hn : (csharp chain).Nodup) :
    cpp chain = csharp chain ↔ ∀ pre c rest, chain = pre ++ c :: rest → c.inits = [] ∨ ∀ d ∈ rest, Idle d := by
  induction chain with
  | nil => simp [cpp, csharp]
  | cons c rest ih =>
    have hn' : (csharp rest).Nodup := by
      rw [csharp_cons] at hn
      exact (List.nodup_append.1 (List.nodup_append.1 hn).1).2.1
    have ih := ih hn'
    have split : (∀ pre d r, c :: rest = pre ++ d :: r → d.inits = [] ∨ ∀ x ∈ r, Idle x) ↔
        (c.inits = [] ∨ ∀ x ∈ rest, Idle x) ∧ ∀ pre d r, rest = pre ++ d :: r → d.inits = [] ∨ ∀ x ∈ r, Idle x := by
      constructor
      · intro h
        exact ⟨h [] c rest rfl, fun pre d r e => h (c :: pre) d r (by rw [e]; rfl)⟩
      · rintro ⟨h1, h2⟩ pre d r e
        cases pre with
        | nil => simp at e; obtain ⟨rfl, rfl⟩ := e; exact h1
        | cons x pre => simp at e; exact h2 pre d r e.2
    rw [split, ← ih, cpp_cons, csharp_cons, ← List.append_assoc, List.append_cancel_right_eq]
    constructor
    · intro h
      cases hi : c.inits with
      | nil => rw [hi] at h; simp at h; exact ⟨.inl rfl, h⟩
      | cons a t =>
        have hx : cpp rest = [] := by
          cases e : cpp rest with
          | nil => rfl
          | cons b u =>
            exfalso
            rw [hi, e] at h
            simp at h
            have hb : b ∈ csharp rest := (C160_once rest).mem_iff.1 (by rw [e]; simp)
            rw [csharp_cons, hi] at hn
            have := (List.nodup_append.1 (List.nodup_append.1 hn).1).2.2 a (by simp) b hb
            exact this h.1.symm
        have hr := (cpp_nil_iff rest).1 hx
        exact ⟨.inr hr, by rw [hx, csharp_nil rest hr]⟩
    · rintro ⟨h1, h2⟩
      rcases h1 with h1 | h1
      · rw [h1, h2]; simp
      · rw [(cpp_nil_iff rest).2 h1, csharp_nil rest h1]; simp

/-- `class A { int x = 1; A() { x = 2; } }  class B : A { B() { x = 3; } }`: initialisers in the root only. -/
example : let chain : List (Cls Nat) := [⟨[], [3]⟩, ⟨[1], [2]⟩]
    (csharp chain).Nodup ∧ csharp chain = [1, 2, 3] ∧ cpp chain = [1, 2, 3] := by
  refine ⟨?_, ?_, ?_⟩ <;> decide

/-- **C160** is false of the code: `class A { A() { Log("A"); } }  class B : A { int x = Log("x"); B() { Log("B"); } }`: `new B()` logs x, A, B in the source and A, x, B in C++. -/
theorem C160_order_refuted : let chain : List (Cls Nat) := [⟨[1], [3]⟩, ⟨[], [2]⟩]
    csharp chain = [1, 2, 3] ∧ cpp chain = [2, 1, 3] := by
  refine ⟨?_, ?_⟩ <;> decide

end Verif.CtorOrder
