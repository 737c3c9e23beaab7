import Verif.DispatchModel
/-!
# C120: a call reaches the method the source says
-/
namespace Verif.Dispatch

/-! ### Specification

A class with its bases is a list, most derived first; a class of it is known by the number of classes from it to the root. The object's class with its bases is
`front ++ back`, where `back` begins with the class that declares the called method. -/

/-- The method with this name and these parameters that the class declares. -/
def find (c : Cls) (name params : Nat) : Option Meth := c.find? (fun m => m.name = name ∧ m.params = params)

/-- C# (ECMA-334 14.6.4; ECMA-335 II.10.3): the class whose method a `callvirt` executes, and whether the slot can still be overridden: an `override` replaces the method, a
declaration that is not one (`new`) begins another slot. -/
def slot (name params : Nat) (back : List Cls) : List Cls → Nat × Bool
  | [] => (back.length, true)
  | c :: rest =>
    match find c name params with
    | none => slot name params back rest
    | some m => if m.kind = .override ∧ (slot name params back rest).2 then (rest.length + back.length + 1, true) else ((slot name params back rest).1, false)

/-- C#: the class whose method a call executes: the object's for `callvirt` of a virtual method, otherwise the declared one. -/
def csharp (c : Call) (front back : List Cls) : Option Nat :=
  match back with
  | [] => none
  | d :: _ => (find d c.name c.params).map fun m => if c.virt = true ∧ m.kind ≠ .plain then (slot c.name c.params back front).1 else back.length

/-- C++ (C++11 10.2): name lookup: the nearest class, from the static type on, that has a member of this name; it hides those of its bases. -/
def lookup (name : Nat) : List (List CppFn) → List (List CppFn)
  | [] => []
  | c :: rest => if c.any (fun f => f.name = name) then c :: rest else lookup name rest

/-- The class declares this function. -/
def has (c : List CppFn) (name params : Nat) : Bool := c.any (fun f => f.name = name ∧ f.params = params)

/-- C++ (C++11 10.3): a function is virtual if it is declared so in the class or a base of it. -/
def isVirtual (name params : Nat) (cs : List (List CppFn)) : Bool := cs.any (fun c => c.any (fun f => f.name = name ∧ f.params = params ∧ f.keyword))

/-- C++ (C++11 10.3): the most derived class of the object that declares the function. -/
def finalOverrider (name params : Nat) : List (List CppFn) → Nat
  | [] => 0
  | c :: rest => if has c name params then rest.length + 1 else finalOverrider name params rest

/-- C++: the class whose function the call executes, when the operand's static type begins `stat` and the object has also the derived classes `dyn`. (No conversions
of arguments: the function found must have these parameters.) -/
def cpp (call : Nat × Nat) (dyn stat : List (List CppFn)) : Option Nat :=
  match lookup call.1 stat with
  | [] => none
  | c :: rest =>
    if has c call.1 call.2 then
      some (if isVirtual call.1 call.2 (c :: rest) then finalOverrider call.1 call.2 (dyn ++ stat) else rest.length + 1)
    else none

/-- No hiding: among the classes (most derived first) every declaration of the method that has one among its bases is an `override`, and the first one is not an
`override`; when the first is not virtual there is no other. -/
def NoHiding (name params : Nat) : List Cls → Prop
  | [] => True
  | c :: rest =>
    NoHiding name params rest ∧
    ∀ m, find c name params = some m → (m.kind = .override ↔ ∃ d ∈ rest, ∃ k, find d name params = some k) ∧
      (m.kind = .override → ∀ d ∈ rest, ∀ k, find d name params = some k → k.kind ≠ .plain)

/-- The classes of which each that has a method of this name has the one with these parameters. -/
def NoOverloadHiding (name params : Nat) (cs : List Cls) : Prop := ∀ c ∈ cs, (∃ m ∈ c, m.name = name) → ∃ k, find c name params = some k

/-! ### Lemmas -/

theorem find_some {c : Cls} {n p : Nat} {m : Meth} (h : find c n p = some m) : m ∈ c ∧ m.name = n ∧ m.params = p := by
  unfold find at h
  have h1 := List.mem_of_find?_eq_some h
  have h2 := List.find?_some h
  simp at h2
  exact ⟨h1, h2⟩

theorem has_translate (c : Cls) (n p : Nat) : has (translate c) n p = true ↔ ∃ m, find c n p = some m := by
  unfold has translate
  rw [List.any_map, List.any_eq_true]
  constructor
  · rintro ⟨m, hm, h⟩
    simp [declare] at h
    have := List.find?_isSome (p := fun m : Meth => decide (m.name = n ∧ m.params = p)) (xs := c)
    have h2 := this.2 ⟨m, hm, by simpa using h⟩
    exact Option.isSome_iff_exists.1 h2
  · rintro ⟨m, hm⟩
    obtain ⟨h1, h2, h3⟩ := find_some hm
    exact ⟨m, h1, by simp [declare, h2, h3]⟩

theorem any_name (c : Cls) (n : Nat) : (translate c).any (fun f => f.name = n) = true ↔ ∃ m ∈ c, m.name = n := by
  unfold translate
  rw [List.any_map, List.any_eq_true]
  simp [declare]

theorem declare_keyword (m : Meth) : (declare m).keyword = true ↔ m.kind = .virt := by
  obtain ⟨n, p, k⟩ := m
  cases k with
  | plain => show (Member.modifierTexts Kind.plain.mods).contains (w "virtual ") = true ↔ Kind.plain = .virt; decide +kernel
  | virt => show (Member.modifierTexts Kind.virt.mods).contains (w "virtual ") = true ↔ Kind.virt = .virt; decide +kernel
  | override => show (Member.modifierTexts Kind.override.mods).contains (w "virtual ") = true ↔ Kind.override = .virt; decide +kernel

/-- A class declares a method once. -/
def Once (c : Cls) : Prop := ∀ m ∈ c, ∀ k ∈ c, m.name = k.name → m.params = k.params → m = k

theorem isVirtual_translate (n p : Nat) (cs : List Cls) (ho : ∀ c ∈ cs, Once c) :
    isVirtual n p (cs.map translate) = true ↔ ∃ c ∈ cs, ∃ m, find c n p = some m ∧ m.kind = .virt := by
  unfold isVirtual
  rw [List.any_map, List.any_eq_true]
  constructor
  · rintro ⟨c, hc, h⟩
    simp only [Function.comp, translate, List.any_map, List.any_eq_true] at h
    obtain ⟨m, hm, h⟩ := h
    simp only [decide_eq_true_eq] at h
    obtain ⟨h1, h2, h3⟩ := h
    have hk := (declare_keyword m).1 h3
    obtain ⟨k, hk2⟩ := (has_translate c n p).1 (by
      unfold has translate
      rw [List.any_map, List.any_eq_true]
      exact ⟨m, hm, by simp only [Function.comp, decide_eq_true_eq]; exact ⟨h1, h2⟩⟩)
    obtain ⟨h4, h5, h6⟩ := find_some hk2
    have : m = k := ho c hc m hm k h4 (by rw [h5]; exact h1) (by rw [h6]; exact h2)
    exact ⟨c, hc, k, hk2, this ▸ hk⟩
  · rintro ⟨c, hc, m, hm, hk⟩
    refine ⟨c, hc, ?_⟩
    obtain ⟨h1, h2, h3⟩ := find_some hm
    simp only [Function.comp, translate, List.any_map, List.any_eq_true]
    exact ⟨m, h1, by simp only [decide_eq_true_eq]; exact ⟨h2, h3, (declare_keyword m).2 hk⟩⟩

/-- Without hiding, where the method is declared in a base it is declared virtual somewhere, or only once. -/
theorem noHiding_virt (n p : Nat) : ∀ (cs : List Cls), NoHiding n p cs → ∀ d ∈ cs, ∀ m, find d n p = some m → m.kind ≠ .plain → ∃ c ∈ cs, ∃ k, find c n p = some k ∧ k.kind = .virt
  | [], _, d, hd, _, _, _ => by simp at hd
  | c :: rest, h, d, hd, m, hm, hk => by
    rw [NoHiding] at h
    rcases List.mem_cons.1 hd with rfl | hd
    · cases e : m.kind with
      | plain => exact absurd e hk
      | virt => exact ⟨d, by simp, m, hm, e⟩
      | override =>
        obtain ⟨h1, h2⟩ := h.2 m hm
        obtain ⟨x, hx, k, hk2⟩ := h1.1 e
        obtain ⟨y, hy, z, hz⟩ := noHiding_virt n p rest h.1 x hx k hk2 (h2 e x hx k hk2)
        exact ⟨y, List.mem_cons_of_mem _ hy, z, hz⟩
    · obtain ⟨y, hy, z, hz⟩ := noHiding_virt n p rest h.1 d hd m hm hk
      exact ⟨y, List.mem_cons_of_mem _ hy, z, hz⟩

/-- Without hiding, all declarations are virtual or there is one. -/
theorem noHiding_plain (n p : Nat) : ∀ (cs : List Cls), NoHiding n p cs → ∀ c ∈ cs, ∀ k, find c n p = some k → k.kind = .virt → ∀ d ∈ cs, ∀ m, find d n p = some m → m.kind ≠ .plain
  | [], _, c, hc, _, _, _, _, _, _, _ => by simp at hc
  | x :: rest, h, c, hc, k, hk, ek, d, hd, m, hm => by
    rw [NoHiding] at h
    rcases List.mem_cons.1 hc with e1 | hc' <;> rcases List.mem_cons.1 hd with e2 | hd'
    · subst e1; subst e2; rw [hk] at hm; cases hm; rw [ek]; decide
    · subst e1
      have := (h.2 k hk).1.2 ⟨d, hd', m, hm⟩
      rw [ek] at this; cases this
    · subst e2
      have h1 := (h.2 m hm).1.2 ⟨c, hc', k, hk⟩
      rw [h1]; decide
    · exact noHiding_plain n p rest h.1 c hc' k hk ek d hd' m hm

theorem finalOverrider_append (n p : Nat) (front back : List Cls) :
    finalOverrider n p ((front ++ back).map translate) =
      match front with
      | [] => finalOverrider n p (back.map translate)
      | c :: rest => if (find c n p).isSome then rest.length + back.length + 1 else finalOverrider n p ((rest ++ back).map translate) := by
  cases front with
  | nil => rfl
  | cons c rest =>
    rw [List.cons_append, List.map_cons, finalOverrider]
    by_cases h : has (translate c) n p = true
    · obtain ⟨m, hm⟩ := (has_translate c n p).1 h
      rw [if_pos h]
      simp [hm]
    · have : find c n p = none := by
        cases e : find c n p with
        | none => rfl
        | some m => exact absurd ((has_translate c n p).2 ⟨m, e⟩) h
      rw [if_neg h]
      simp [this]

/-- Without hiding the slot of the method is overridden by every declaration. -/
theorem slot_final (n p : Nat) (d : Cls) (b : List Cls) (m : Meth) (hm : find d n p = some m) :
    ∀ front, NoHiding n p (front ++ d :: b) → slot n p (d :: b) front = (finalOverrider n p ((front ++ d :: b).map translate), true)
  | [], _ => by
    rw [slot, List.nil_append, List.map_cons, finalOverrider, if_pos ((has_translate d n p).2 ⟨m, hm⟩)]
    simp
  | c :: rest, h => by
    rw [List.cons_append, NoHiding] at h
    have ih := slot_final n p d b m hm rest h.1
    rw [slot, finalOverrider_append]
    cases e : find c n p with
    | none => simp only [e]; rw [ih]; rfl
    | some k =>
      have hk := (h.2 k e).1.2 ⟨d, by simp, m, hm⟩
      simp [e, hk, ih]

/-- The class the name is found in, when every class with the name has the method. -/
theorem lookup_map (n p : Nat) : ∀ (stat back : List Cls), NoOverloadHiding n p stat → (∃ d b m, back = d :: b ∧ find d n p = some m) →
    ∃ s1 e s2 m, stat ++ back = s1 ++ e :: s2 ∧ lookup n ((stat ++ back).map translate) = (e :: s2).map translate ∧ find e n p = some m ∧
      (∀ c ∈ s1, find c n p = none) ∧ back.length ≤ s2.length + 1
  | [], back, _, h => by
    obtain ⟨d, b, m, rfl, hm⟩ := h
    refine ⟨[], d, b, m, rfl, ?_, hm, by simp, by simp⟩
    rw [List.nil_append, List.map_cons, lookup, if_pos]
    obtain ⟨h1, h2, _⟩ := find_some hm
    exact (any_name d n).2 ⟨m, h1, h2⟩
  | c :: stat, back, ho, h => by
    by_cases hn : ∃ m ∈ c, m.name = n
    · obtain ⟨k, hk⟩ := ho c (by simp) hn
      refine ⟨[], c, stat ++ back, k, rfl, ?_, hk, by simp, by simp; omega⟩
      rw [List.cons_append, List.map_cons, lookup, if_pos ((any_name c n).2 hn)]
    · obtain ⟨s1, e, s2, m, h1, h2, h3, h4, h5⟩ := lookup_map n p stat back (fun c hc => ho c (List.mem_cons_of_mem _ hc)) h
      refine ⟨c :: s1, e, s2, m, by rw [List.cons_append, h1]; rfl, ?_, h3, ?_, h5⟩
      · rw [List.cons_append, List.map_cons, lookup, if_neg (fun hx => hn ((any_name c n).1 hx)), h2]
      · intro x hx
        rcases List.mem_cons.1 hx with rfl | hx
        · cases e : find x n p with
          | none => rfl
          | some k => obtain ⟨g1, g2, _⟩ := find_some e; exact absurd ⟨k, g1, g2⟩ hn
        · exact h4 x hx

theorem noHiding_suffix (n p : Nat) : ∀ (a b : List Cls), NoHiding n p (a ++ b) → NoHiding n p b
  | [], _, h => h
  | _ :: a, b, h => by rw [List.cons_append, NoHiding] at h; exact noHiding_suffix n p a b h.1

/-! ### C120 -/

/-- **C120** (partial: no method hides another, and the call is a `callvirt` or the method is not virtual). The translated call executes the method the source's call executes, for
every class hierarchy, every static type of the operand between the object's class and the declaring class, and every object. Missing: `base.Method()`
(`C120_base_iff`, `C120_base_refuted`), `new` methods (`C120_new_refuted`), overloads in different classes (`C120_overload_refuted`). -/
theorem C120_dispatch_partial (c : Call) (dyn stat : List Cls) (d : Cls) (b : List Cls) (m : Meth) (hm : find d c.name c.params = some m)
    (honce : ∀ x ∈ dyn ++ stat ++ d :: b, Once x) (hh : NoHiding c.name c.params (dyn ++ stat ++ d :: b)) (hov : NoOverloadHiding c.name c.params stat)
    (hv : c.virt = true ∨ m.kind = .plain) :
    cpp (emit c) (dyn.map translate) ((stat ++ d :: b).map translate) = csharp c (dyn ++ stat) (d :: b) := by
  obtain ⟨s1, e, s2, k, h1, h2, h3, h4, h5⟩ := lookup_map c.name c.params stat (d :: b) hov ⟨d, b, m, rfl, hm⟩
  unfold cpp emit
  simp only []
  rw [h2, List.map_cons]
  simp only []
  rw [if_pos ((has_translate e c.name c.params).2 ⟨k, h3⟩), ← List.map_cons, ← List.map_append]
  have hlist : dyn ++ stat ++ d :: b = dyn ++ (s1 ++ e :: s2) := by rw [List.append_assoc, h1]
  have hsub : NoHiding c.name c.params (s1 ++ e :: s2) := by rw [hlist] at hh; exact noHiding_suffix _ _ dyn _ hh
  have hsub2 : NoHiding c.name c.params (e :: s2) := noHiding_suffix _ _ s1 _ hsub
  have hoe : ∀ x ∈ e :: s2, Once x := fun x hx => honce x (by rw [hlist]; simp only [List.mem_append]; exact Or.inr (Or.inr hx))
  have hd : d ∈ dyn ++ stat ++ d :: b := by simp
  have he : e ∈ dyn ++ stat ++ d :: b := by rw [hlist]; simp
  rw [show csharp c (dyn ++ stat) (d :: b) = some (if c.virt = true ∧ m.kind ≠ .plain then (slot c.name c.params (d :: b) (dyn ++ stat)).1 else (d :: b).length) by
    unfold csharp; simp only [hm]; rfl]
  rw [slot_final c.name c.params d b m hm _ hh]
  by_cases hp : m.kind = .plain
  · -- the only declaration
    have hne : ∀ x ∈ e :: s2, ∀ q, find x c.name c.params = some q → q.kind ≠ .virt := by
      intro x hx q hq eq
      have hx2 : x ∈ dyn ++ stat ++ d :: b := by rw [hlist]; simp only [List.mem_append]; exact Or.inr (Or.inr hx)
      exact noHiding_plain _ _ _ hh x hx2 q hq eq d hd m hm hp
    have hnv : ¬ isVirtual c.name c.params ((e :: s2).map translate) = true := by
      rw [isVirtual_translate _ _ _ hoe]
      rintro ⟨x, hx, q, hq, eq⟩
      exact hne x hx q hq eq
    rw [if_neg hnv, if_neg (by simp [hp])]
    -- the class found is the declaring one: were it more derived, it would override a method that is not virtual
    have : e :: s2 = d :: b := by
      have hl : (d :: b).length ≤ (e :: s2).length := by simpa using h5
      have hsuf : d :: b <:+ e :: s2 := by
        have g1 : d :: b <:+ s1 ++ e :: s2 := ⟨stat, h1⟩
        have g2 : e :: s2 <:+ s1 ++ e :: s2 := ⟨s1, rfl⟩
        exact List.suffix_of_suffix_length_le g1 g2 hl
      obtain ⟨t, ht⟩ := hsuf
      cases t with
      | nil => exact ht.symm
      | cons y t =>
        exfalso
        rw [List.cons_append] at ht
        injection ht with h6 h7
        subst h6
        rw [NoHiding] at hsub2
        have hd2 : d ∈ s2 := by rw [← h7]; simp
        obtain ⟨g1, g2⟩ := hsub2.2 k h3
        exact g2 (g1.2 ⟨d, hd2, m, hm⟩) d hd2 m hm hp
    rw [← this, List.length_map]; rfl
  · rcases hv with hv | hv
    · have hkp : k.kind ≠ .plain := by
        obtain ⟨x, hx, q, hq, eq⟩ := noHiding_virt _ _ _ hh d hd m hm hp
        exact noHiding_plain _ _ _ hh x hx q hq eq e he k h3
      have hvirt : isVirtual c.name c.params ((e :: s2).map translate) = true := by
        rw [isVirtual_translate _ _ _ hoe]
        exact noHiding_virt _ _ _ hsub2 e (by simp) k h3 hkp
      rw [if_pos hvirt, if_pos ⟨hv, hp⟩, List.append_assoc]
    · exact absurd hv hp

theorem finalOverrider_back (n p : Nat) (d : Cls) (b : List Cls) (m : Meth) (hm : find d n p = some m) : ∀ front : List Cls,
    (finalOverrider n p ((front ++ d :: b).map translate) = (d :: b).length ↔ ∀ x ∈ front, find x n p = none)
  | [] => by
    rw [List.nil_append, List.map_cons, finalOverrider, if_pos ((has_translate d n p).2 ⟨m, hm⟩)]
    simp
  | c :: rest => by
    have ih := finalOverrider_back n p d b m hm rest
    rw [finalOverrider_append]
    simp only []
    cases e : find c n p with
    | none => simp only [Option.isSome_none, Bool.false_eq_true, if_false, List.mem_cons, forall_eq_or_imp, e, true_and]; exact ih
    | some k =>
      simp only [Option.isSome_some, if_true, List.mem_cons, forall_eq_or_imp, e, List.length_cons, reduceCtorEq, false_and, iff_false]
      omega

/-- **C120**: what a `base.Method()` (a `call` of a virtual method) becomes: the translated call executes the base class's method exactly when no class of the object from the calling class
down declares the method, so in particular never in an `override` that calls the method it overrides. -/
theorem C120_base_iff (c : Call) (dyn stat : List Cls) (d : Cls) (b : List Cls) (m : Meth) (hm : find d c.name c.params = some m)
    (honce : ∀ x ∈ dyn ++ stat ++ d :: b, Once x) (hh : NoHiding c.name c.params (dyn ++ stat ++ d :: b)) (hov : NoOverloadHiding c.name c.params stat)
    (hc : c.virt = false) (hk : m.kind ≠ .plain) :
    cpp (emit c) (dyn.map translate) ((stat ++ d :: b).map translate) = csharp c (dyn ++ stat) (d :: b) ↔
      ∀ x ∈ dyn ++ stat, find x c.name c.params = none := by
  have h := C120_dispatch_partial { c with virt := true } dyn stat d b m hm honce hh hov (Or.inl rfl)
  rw [show emit c = emit { c with virt := true } from rfl, h]
  have e1 : csharp { c with virt := true } (dyn ++ stat) (d :: b) = some (slot c.name c.params (d :: b) (dyn ++ stat)).1 := by
    unfold csharp; simp only [hm]; simp [hk]
  have e2 : csharp c (dyn ++ stat) (d :: b) = some (d :: b).length := by
    unfold csharp; simp only [hm]; simp [hc]
  rw [e1, e2, slot_final c.name c.params d b m hm _ hh, Option.some.injEq]
  exact finalOverrider_back c.name c.params d b m hm (dyn ++ stat)

/-- `class A { virtual M() }  class B : A { }  class C : B { override M() }`, an object of class `C` used as a `B`. -/
example : let A : Cls := [⟨0, 0, .virt⟩]; let B : Cls := []; let C : Cls := [⟨0, 0, .override⟩, ⟨1, 0, .plain⟩]
    find A 0 0 = some ⟨0, 0, .virt⟩ ∧ (∀ x ∈ [C] ++ [B] ++ [A], Once x) ∧ NoHiding 0 0 ([C] ++ [B] ++ [A]) ∧ NoOverloadHiding 0 0 [B] ∧
    csharp ⟨true, 0, 0⟩ [C, B] [A] = some 3 := by
  refine ⟨by decide, ?_, ?_, ?_, by decide⟩
  · intro x hx
    simp at hx
    rcases hx with rfl | rfl | rfl <;> simp [Once]
  · simp [NoHiding, find]
  · intro c hc; simp at hc; subst hc; simp

/-- **C120** is false of the code: `class A { virtual M() }  class B : A { override M() { base.M(); } }`: in the translated program the call in `B.M` executes `B.M` again. -/
theorem C120_base_refuted : let A : Cls := [⟨0, 0, .virt⟩]; let B : Cls := [⟨0, 0, .override⟩]
    csharp ⟨false, 0, 0⟩ [B] [A] = some 1 ∧ cpp (emit ⟨false, 0, 0⟩) [] [translate B, translate A] = some 2 := by decide +kernel

/-- **C120** is false of the code: `class A { virtual M() }  class B : A { new M() }`: a `B` used as an `A` executes `A.M` in the source and `B.M` in the translated program. -/
theorem C120_new_refuted : let A : Cls := [⟨0, 0, .virt⟩]; let B : Cls := [⟨0, 0, .plain⟩]
    csharp ⟨true, 0, 0⟩ [B] [A] = some 1 ∧ cpp (emit ⟨true, 0, 0⟩) [translate B] [translate A] = some 2 := by decide +kernel

/-- **C120** is false of the code: `class A { M(int) }  class B : A { M(string) }`: `M(int)` called on a `B` is not found in the translated program. -/
theorem C120_overload_refuted : let A : Cls := [⟨0, 0, .plain⟩]; let B : Cls := [⟨0, 1, .plain⟩]
    csharp ⟨true, 0, 0⟩ [B] [A] = some 1 ∧ cpp (emit ⟨true, 0, 0⟩) [] [translate B, translate A] = none := by decide +kernel

end Verif.Dispatch
