import Verif.InitModel
/-!
# C121: fields start with the values of their initialisers
# C122: static fields are initialised before they are used
-/
namespace Verif.Init

/-! ### Specification -/

/-- One assignment. -/
def step (s : State) (st : Store) : State := fun x => if x = st.field then st.value s else s x
/-- Assignments in order. -/
def run (s : State) (l : List Store) : State := l.foldl step s
/-- New memory (C52). -/
def zero : State := fun _ => 0

/-- C# (ECMA-334 14.5.6, 14.11.3): a new object has zero in every field, then the initialisers are executed in order, then the body of the constructor chosen (`k` counts those declared; a class that
declares none has the implicit one, `k = 0`). -/
def csharp (c : Cls) (k : Nat) : State := run (run zero c.inits) (c.ctors.getD k [])

/-- C++ (C++11 12.6.2): the member initialisers, then the body of the constructor; a class without constructors has the implicit one. -/
def cpp (c : CppCls) (k : Nat) : State := run (run zero c.inits) (c.ctors.getD k [])

/-- The number of a constructor of the class. -/
def IsCtor (c : Cls) (k : Nat) : Prop := k < c.ctors.length ∨ (c.ctors = [] ∧ k = 0)

/-! ### C121 -/

theorem run_append (s : State) (a b : List Store) : run s (a ++ b) = run (run s a) b := by unfold run; rw [List.foldl_append]

/-- The class has no constructor in the syntax tree. -/
def Trivial (c : Cls) : Prop := c.ctors = [] ∨ c.ctors = [[]]

theorem translate_trivial (c : Cls) (h : Trivial c) : (translate c).ctors = [] := by
  unfold translate
  rcases h with h | h <;> simp [h]

theorem translate_other (c : Cls) (h : ¬ Trivial c) : (translate c).ctors = c.ctors.map (c.inits ++ ·) := by
  unfold Trivial at h
  obtain ⟨h1, h2⟩ := not_or.1 h
  unfold translate
  simp only []
  unfold Cls.il
  rw [if_neg]
  cases e : c.ctors with
  | nil => exact absurd e h1
  | cons a t => simp

/-- **C121** (partial, but exact): a new object of the translated class has the fields of the source's object exactly when the class declares a constructor other than a single empty
one, or its initialisers leave every field zero. Missing: classes with initialisers and no such constructor (`C121_lost_refuted`). -/
theorem C121_initial_partial (c : Cls) (k : Nat) (hk : IsCtor c k) :
    cpp (translate c) k = csharp c k ↔ ¬ (Trivial c ∧ run zero c.inits ≠ zero) := by
  have hi : (translate c).inits = [] := rfl
  unfold cpp csharp
  rw [hi]
  by_cases ht : Trivial c
  · rw [translate_trivial c ht]
    have e1 : c.ctors.getD k [] = [] := by
      rcases ht with h | h
      · rw [h]; rfl
      · rw [h]
        cases k with
        | zero => rfl
        | succ n => rfl
    rw [e1]
    simp only [ht, true_and]
    show zero = run zero c.inits ↔ _
    exact ⟨fun h hn => hn h.symm, fun h => (Classical.not_not.1 h).symm⟩
  · rw [translate_other c ht]
    have h1 : k < c.ctors.length := by
      rcases hk with h | ⟨h, _⟩
      · exact h
      · exact absurd (Or.inl h) ht
    rw [List.getD_eq_getElem?_getD, List.getElem?_map, List.getElem?_eq_getElem h1, List.getD_eq_getElem?_getD, List.getElem?_eq_getElem h1]
    simp only [Option.map_some, Option.getD_some, ht, false_and, not_false_eq_true, iff_true]
    show run zero (c.inits ++ _) = _
    rw [run_append]

/-- `class P { int x = 5; int y = x + 1; P(bool b) { x = 7; } P() { } }` -/
example : let c : Cls := ⟨[⟨0, fun _ => 5⟩, ⟨1, fun s => s 0 + 1⟩], [[⟨0, fun _ => 7⟩], []]⟩
    IsCtor c 1 ∧ ¬ Trivial c ∧ csharp c 0 0 = 7 ∧ csharp c 0 1 = 6 ∧ csharp c 1 0 = 5 := by
  refine ⟨by simp [IsCtor], by simp [Trivial], ?_, ?_, ?_⟩ <;> decide +kernel

/-- **C121** is false of the code: `class P { int x = 5; }`: in the translated program `new P().x` is 0. -/
theorem C121_lost_refuted : let c : Cls := ⟨[⟨0, fun _ => 5⟩], []⟩
    IsCtor c 0 ∧ csharp c 0 0 = 5 ∧ cpp (translate c) 0 0 = 0 := by
  refine ⟨Or.inr ⟨rfl, rfl⟩, by decide +kernel, by decide +kernel⟩

/-! #### Static fields -/

/-- The static fields of a class after its static initialisation: initialisers, then the static constructor, in C# (ECMA-334 14.5.6.2) as in C++. -/
def statics (c : SCls) : State := run (run zero c.inits) (c.ctor.getD [])

/-- **C121** (partial, but exact), static fields: the translated class's static initialisation gives the values of the source's exactly when the class declares a static constructor or its initialisers leave
every static field zero. -/
theorem C121_static_partial (c : SCls) : statics (translateStatic c) = statics c ↔ ¬ (c.ctor = none ∧ run zero c.inits ≠ zero) := by
  unfold statics translateStatic
  simp only []
  cases h : c.ctor with
  | none =>
    simp only [Option.map_none, Option.getD_none, true_and]
    show zero = run zero c.inits ↔ _
    exact ⟨fun h hn => hn h.symm, fun h => (Classical.not_not.1 h).symm⟩
  | some b =>
    simp only [Option.map_some, Option.getD_some, reduceCtorEq, false_and, not_false_eq_true, iff_true]
    show run zero (c.inits ++ b) = _
    rw [run_append]

/-- `class P { static int x = 5; static int y = 2; static P() { y = x + 1; } }` -/
example : let c : SCls := ⟨[⟨0, fun _ => 5⟩, ⟨1, fun _ => 2⟩], some [⟨1, fun s => s 0 + 1⟩]⟩
    ¬ (c.ctor = none) ∧ statics c 0 = 5 ∧ statics c 1 = 6 := by
  refine ⟨by simp, ?_, ?_⟩ <;> decide +kernel

/-- **C121** is false of the code: `class P { static int x = 5; }`: in the translated program `P::x` is 0. -/
theorem C121_static_lost_refuted : let c : SCls := ⟨[⟨0, fun _ => 5⟩], none⟩
    statics c 0 = 5 ∧ statics (translateStatic c) 0 = 0 := by
  refine ⟨?_, ?_⟩ <;> decide +kernel

/-! ### C122: static constructors

The classes of a program are numbered in the order in which they are written. The static constructor of class `i` is given by what it makes of the static fields of all classes; it changes only its own. -/

/-- C++ (C++11 3.6.2): before `main`, the initialisers of the code file's variables are executed in the order of their definitions. -/
def dynamicInit (s : Statics) (l : List Def) : Statics := l.foldl (fun s d j => if j = d.cls then d.call.result s else s j) s
/-- The static fields when `main` begins. -/
def cppStatics (p : Prog) : Statics := dynamicInit (fun _ => zero) (codeFile 0 p)

/-- The same, class by class. -/
def cppFrom (i : Nat) (s : Statics) : Prog → Statics
  | [] => s
  | none :: rest => cppFrom (i + 1) s rest
  | some c :: rest => cppFrom (i + 1) (fun j => if j = i then c.result s else s j) rest

theorem cppFrom_eq (p : Prog) : ∀ (i : Nat) (s : Statics), dynamicInit s (codeFile i p) = cppFrom i s p := by
  induction p with
  | nil => intro i s; rfl
  | cons c rest ih =>
    intro i s
    cases c with
    | none => rw [codeFile, cppFrom, ih]
    | some c => rw [codeFile, cppFrom, ← ih]; rfl

/-- C# (ECMA-334 14.12): the static fields of a class as seen by the first access to it: its static constructor is executed then, which does the same for the classes it uses; a class
whose constructor is being executed is seen as it is. `n` bounds the depth. -/
def csharpStatics (p : Prog) : Nat → List Nat → Nat → State
  | 0, _, _ => zero
  | n + 1, busy, i =>
    match p[i]? with
    | some (some c) => if i ∈ busy then zero else c.result (csharpStatics p n (i :: busy))
    | _ => zero

/-- Every static constructor uses only classes written before its own. -/
def InOrder (p : Prog) : Prop := ∀ (i : Nat) (c : SCtor), p[i]? = some (some c) → ∀ d, c.deps d → d < i

theorem cppFrom_below (p : Prog) : ∀ (i : Nat) (s : Statics) (j : Nat), j < i → cppFrom i s p j = s j := by
  induction p with
  | nil => intro i s j h; rfl
  | cons c rest ih =>
    intro i s j h
    cases c with
    | none => rw [cppFrom, ih _ _ _ (by omega)]
    | some c =>
      rw [cppFrom, ih _ _ _ (by omega), if_neg (by omega)]

theorem cppFrom_above (p : Prog) : ∀ (i : Nat) (s : Statics) (j : Nat), i + p.length ≤ j → cppFrom i s p j = s j := by
  induction p with
  | nil => intro i s j h; rfl
  | cons c rest ih =>
    intro i s j h
    rw [List.length_cons] at h
    cases c with
    | none => rw [cppFrom, ih _ _ _ (by omega)]
    | some c =>
      rw [cppFrom, ih _ _ _ (by omega), if_neg (by omega)]

/-- After all have been executed, the fields of class `i` are what its constructor makes of the final fields. -/
theorem cppFrom_at (p : Prog) : ∀ (i : Nat) (s : Statics) (k : Nat), (∀ j, i ≤ j → s j = zero) →
    (∀ (k : Nat) (c : SCtor), p[k]? = some (some c) → ∀ d, c.deps d → d < i + k) →
    cppFrom i s p (i + k) = match p[k]? with | some (some c) => c.result (cppFrom i s p) | _ => zero := by
  induction p with
  | nil => intro i s k h _; exact h (i + k) (by omega)
  | cons c rest ih =>
    intro i s k h ho
    cases k with
    | zero =>
      rw [Nat.add_zero]
      cases c with
      | none =>
        rw [cppFrom, cppFrom_below _ _ _ _ (by omega)]
        simpa using h i (by omega)
      | some c =>
        simp only [List.getElem?_cons_zero]
        rw [cppFrom, cppFrom_below _ _ _ _ (by omega)]
        simp only [if_true]
        refine c.frame _ _ fun d hd => ?_
        have := ho 0 c (by simp) d hd
        rw [cppFrom_below _ _ _ _ (by omega), if_neg (by omega)]
    | succ k =>
      have ho' : ∀ (k : Nat) (c : SCtor), rest[k]? = some (some c) → ∀ d, c.deps d → d < i + 1 + k := by
        intro k c hc d hd
        have := ho (k + 1) c (by simpa using hc) d hd
        omega
      rw [List.getElem?_cons_succ, show i + (k + 1) = i + 1 + k by omega]
      cases c with
      | none => rw [cppFrom]; exact ih (i + 1) s k (fun j hj => h j (by omega)) ho'
      | some c =>
        rw [cppFrom]
        refine ih (i + 1) _ k (fun j hj => ?_) ho'
        rw [if_neg (by omega)]
        exact h j (by omega)

theorem csharp_eq (p : Prog) (ho : InOrder p) : ∀ (n i : Nat) (busy : List Nat), i < n → (∀ b ∈ busy, i < b) → csharpStatics p n busy i = cppStatics p i := by
  intro n
  induction n with
  | zero => intro i _ h; omega
  | succ n ih =>
    intro i busy h hb
    have key := cppFrom_at p 0 (fun _ => zero) i (fun _ _ => rfl) (fun k c hc d hd => by have := ho k c hc d hd; omega)
    rw [Nat.zero_add] at key
    rw [csharpStatics]
    unfold cppStatics
    rw [cppFrom_eq, key]
    cases e : p[i]? with
    | none => rfl
    | some o =>
      cases o with
      | none => rfl
      | some c =>
        simp only []
        rw [if_neg (fun hm => by have := hb i hm; omega)]
        refine c.frame _ _ fun d hd => ?_
        have hd' := ho i c e d hd
        rw [← cppFrom_eq]
        refine ih d (i :: busy) (by omega) ?_
        intro b hbm
        rcases List.mem_cons.1 hbm with rfl | hbm
        · exact hd'
        · have := hb b hbm; omega

/-- **C122** (partial: static constructors change only their own class and use only classes written before it; classes are written in the order of the assembly). When the translated
`main` begins, the static fields of every class have the values that C#'s execution of the static constructor at the first access gives them. Missing: constructors that use later classes
(`C122_order_refuted`); effects other than on static fields, which happen although the class may never be used. -/
theorem C122_statics_partial (p : Prog) (ho : InOrder p) (i : Nat) : ∃ n, ∀ m ≥ n, csharpStatics p m [] i = cppStatics p i :=
  ⟨i + 1, fun m hm => csharp_eq p ho m i [] (by omega) (by simp)⟩

/-- A static constructor that sets field 0 to a constant, and one that sets it to one more than field 0 of class `d`. -/
def five : SCtor := ⟨fun _ x => if x = 0 then 5 else 0, fun _ => False, fun _ _ _ => rfl⟩
def next (d : Nat) : SCtor := ⟨fun s x => if x = 0 then s d 0 + 1 else 0, fun j => j = d, fun s t h => by rw [h d rfl]⟩

example : InOrder [some five, none, some (next 0)] ∧ cppStatics [some five, none, some (next 0)] 2 0 = 6 := by
  refine ⟨?_, by decide +kernel⟩
  intro i c hc d hd
  match i with
  | 0 => simp at hc; subst hc; exact hd.elim
  | 1 => simp at hc
  | 2 => simp at hc; subst hc; have : d = 0 := hd; omega
  | i + 3 => simp at hc

/-- **C122** is false of the code: `class A { static int x; static A() { x = B.x + 1; } }  class B { static int x; static B() { x = 5; } }`: `A.x` is 6 in the source, 1 in the translated program. -/
theorem C122_order_refuted : let p : Prog := [some (next 1), some five]
    (∀ n ≥ 2, csharpStatics p n [] 0 0 = 6) ∧ cppStatics p 0 0 = 1 := by
  refine ⟨fun n hn => ?_, by decide +kernel⟩
  obtain ⟨m, rfl⟩ : ∃ m, n = m + 2 := ⟨n - 2, by omega⟩
  simp [csharpStatics, next, five]

end Verif.Init
