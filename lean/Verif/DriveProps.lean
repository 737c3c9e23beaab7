import Verif.DriveModel
/-!
# C151, C152: which types and members are translated
-/
namespace Verif.Drive

/-! ## Specification -/

/-- The name of a type. -/
def Decl.name : Decl → WStr
  | .ty _ _ n _ => n
  | _ => []

/-- A top-level declaration is a type. -/
def IsType : Decl → Prop
  | .ty _ _ _ _ => True
  | _ => False

/-- A class, struct or enum written by the user: the compiler's own types have names beginning with `<`, and the translator's support code is in a namespace with `CppTranslatorSupport` in its name. -/
def Ordinary : Decl → Prop
  | .ty k ns n _ => k ≠ .interface ∧ k ≠ .delegate ∧ n.head? ≠ some 60 ∧ ¬ ∃ a b, ns = a ++ w "CppTranslatorSupport" ++ b
  | _ => False

/-- The members of a list of members. -/
def Decl.list : Decl → List Decl
  | .cons d r => d :: r.list
  | _ => []

/-- A member is not a list. -/
def IsMember : Decl → Prop
  | .nil | .cons _ _ => False
  | _ => True

/-- A list of members is a list. -/
def Decl.WF : Decl → Prop
  | .nil => True
  | .cons d r => IsMember d ∧ r.WF
  | _ => False

/-- A type whose members are a list. -/
def TypeWF : Decl → Prop
  | .ty _ _ _ ms => ms.WF
  | _ => False

/-- The translator has a visitor for the member and no nested class, struct, interface or delegate is in the way. -/
def Supported : Decl → Prop
  | .plain _ => True
  | .ty .enum _ _ _ => True
  | _ => False

/-- The fields, methods, constructors, properties and operators of a type. -/
def plainOf (d : Decl) : List Nat := d.list.filterMap (fun m => match m with | .plain n => some n | _ => none)

/-- The types a program consists of, with those nested in them. -/
def Decl.types : Decl → List WStr
  | .ty _ _ n ms => n :: ms.types
  | .cons d r => d.types ++ r.types
  | _ => []

/-! ## C151: types -/

theorem startsWith_lt (n : WStr) : startsWith (w "<") n = true ↔ n.head? = some 60 := by
  have : w "<" = [60] := by decide +kernel
  rw [this]
  unfold startsWith
  cases n with
  | nil => simp [List.isPrefixOf]
  | cons c n => simp [List.isPrefixOf]; exact ⟨fun h => h.symm, fun h => h.symm⟩

theorem contains_iff (p s : WStr) : contains p s = true ↔ ∃ a b, s = a ++ p ++ b := by
  induction s with
  | nil =>
    unfold contains startsWith
    rw [List.isPrefixOf_iff_prefix]
    constructor
    · rintro ⟨b, h⟩; exact ⟨[], b, by simpa using h.symm⟩
    · rintro ⟨a, b, h⟩
      simp at h
      exact ⟨[], by simp [h.2.1]⟩
  | cons c s ih =>
    unfold contains startsWith
    rw [Bool.or_eq_true, ih, List.isPrefixOf_iff_prefix]
    constructor
    · rintro (⟨b, h⟩ | ⟨a, b, h⟩)
      · exact ⟨[], b, by simpa using h.symm⟩
      · exact ⟨c :: a, b, by simp [h]⟩
    · rintro ⟨a, b, h⟩
      cases a with
      | nil => exact .inl ⟨b, by simpa using h.symm⟩
      | cons x a => simp at h; exact .inr ⟨a, b, by simp [h.2]⟩

theorem selected_iff (t : Decl) : selected t = true ↔ Ordinary t := by
  cases t with
  | ty k ns n ms =>
    simp only [selected, Ordinary]
    have h1 := startsWith_lt n
    have h2 := contains_iff (w "CppTranslatorSupport") ns
    rw [ne_eq, ne_eq, ne_eq, ← h1, ← h2]
    cases k <;> simp
  | _ => simp [selected, Ordinary]

/-- **C151** (partial: no interfaces): every class, struct and enum of the program is declared, once and in order, and nothing else is. -/
theorem C151_types_partial (types : List Decl) (ht : ∀ t ∈ types, IsType t) :
    ∃ sel : List Decl, sel.Sublist types ∧ (∀ t ∈ types, t ∈ sel ↔ Ordinary t) ∧ (run types).protos = sel.map Decl.name := by
  refine ⟨types.filter selected, List.filter_sublist, ?_, ?_⟩
  · intro t h
    rw [List.mem_filter, selected_iff]
    exact ⟨fun h => h.2, fun h2 => ⟨h, h2⟩⟩
  · have : (run types).protos = ((types.filter selected).map proto).flatten := by
      unfold run
      simp only []
      split
      · rfl
      · split <;> rfl
    rw [this]
    have key : ∀ l : List Decl, (∀ t ∈ l, IsType t) → (l.map proto).flatten = l.map Decl.name := by
      intro l
      induction l with
      | nil => intro _; rfl
      | cons t l ih =>
        intro h
        have h1 := h t (List.mem_cons_self ..)
        cases t <;> first | exact h1.elim | skip
        simp only [List.map_cons, List.flatten_cons, proto, Decl.name, List.singleton_append]
        rw [ih (fun t ht => h t (List.mem_cons_of_mem _ ht))]
    exact key _ (fun t h => ht t (List.mem_filter.1 h).1)

/-- `enum E`, `interface I`, `class C`. -/
def exTypes : List Decl := [.ty .enum [] (w "E") .nil, .ty .interface [] (w "I") .nil, .ty .class (w "App") (w "C") (.cons (.plain 1) (.cons (.ty .enum (w "App") (w "Color") .nil) (.cons (.plain 2) .nil)))]
example : (run exTypes).protos = [w "E", w "C"] := by decide +kernel

/-- **C151**, the rest refuted: no interface is ever declared, nor a type in a namespace such as `MyCppTranslatorSupportTools`, nor a nested type. -/
theorem C151_refuted : (∀ ns n ms, (run [.ty .interface ns n ms]).protos = []) ∧ (run [.ty .class (w "MyCppTranslatorSupportTools") (w "C") .nil]).protos = [] ∧
    (w "Color" ∈ (exTypes.map Decl.types).flatten ∧ w "Color" ∉ (run exTypes).protos) := by
  refine ⟨?_, by decide +kernel, by decide +kernel⟩
  intro ns n ms
  rfl

/-! ## C152: members -/

theorem headerMembers_ok (ms : Decl) (h : ms.WF) : (∃ l, headerMembers ms = .ok l) ↔ ∀ m ∈ ms.list, Supported m := by
  induction ms with
  | nil => simp [headerMembers, Decl.list]
  | cons d r _ ih =>
    have ih := ih h.2
    have hd := h.1
    simp only [Decl.list, List.mem_cons, forall_eq_or_imp]
    rw [← ih, headerMembers]
    cases d with
    | plain n =>
      simp only [Supported, true_and]
      constructor
      · rintro ⟨l, e⟩
        cases hr : headerMembers r with
        | error x => rw [hr] at e; cases e
        | ok l => exact ⟨l, rfl⟩
      · rintro ⟨l, e⟩; rw [e]; exact ⟨_, rfl⟩
    | other n => simp only [Supported, false_and, iff_false]; rintro ⟨l, e⟩; cases e
    | ty k ns nm ms =>
      cases k with
      | enum =>
        simp only [Supported, true_and]
        constructor
        · rintro ⟨l, e⟩
          cases hr : headerMembers r with
          | error x => rw [hr] at e; cases e
          | ok l => exact ⟨l, rfl⟩
        · rintro ⟨l, e⟩; rw [e]; exact ⟨_, rfl⟩
      | _ => simp only [Supported, false_and, iff_false]; rintro ⟨l, e⟩; cases e
    | nil => exact hd.elim
    | cons _ _ => exact hd.elim
  | _ => exact h.elim

theorem headerMembers_eq (ms : Decl) (h : ms.WF) : ∀ l, headerMembers ms = .ok l → l = plainOf ms := by
  induction ms with
  | nil => intro l e; cases e; rfl
  | cons d r _ ih =>
    intro l e
    rw [headerMembers] at e
    cases hr : headerMembers r with
    | error x =>
      rw [hr] at e
      cases d with
      | ty k _ _ _ => cases k <;> cases e
      | _ => cases e
    | ok l2 =>
      rw [hr] at e
      have := ih h.2 l2 hr
      cases d with
      | plain n =>
        cases e
        rw [this]; rfl
      | ty k _ _ _ =>
        cases k with
        | enum => cases e; rw [this]; rfl
        | _ => cases e
      | _ => cases e
  | _ => exact h.elim

theorem source_members (ms : Decl) (h : ms.WF) (hs : ∀ m ∈ ms.list, Supported m) (cur : WStr) : source ms cur = .ok ((plainOf ms).map (fun n => (cur, n)), cur) := by
  induction ms with
  | nil => rfl
  | cons d r _ ih =>
    have hr := ih h.2 (fun m hm => hs m (by simp [Decl.list, hm]))
    have hd := hs d (by simp [Decl.list])
    rw [source]
    cases d with
    | plain n => rw [show source (.plain n) cur = .ok ([(cur, n)], cur) from rfl]; show Except.bind (source r cur) _ = _; rw [hr]; rfl
    | ty k ns nm ms =>
      cases k with
      | enum => rw [show source (.ty .enum ns nm ms) cur = .ok ([], cur) from rfl]; show Except.bind (source r cur) _ = _; rw [hr]; rfl
      | _ => exact hd.elim
    | _ => exact hd.elim
  | _ => exact h.elim

/-- The class types of a list, with their own members. -/
def classes (types : List Decl) : List (WStr × List Nat) :=
  types.filterMap (fun t => match t with | .ty k _ n ms => if k = .class ∨ k = .struct then some (n, plainOf ms) else none | _ => none)

/-- Every member of every class and struct among the types is one of those the translator supports. -/
def AllSupported (types : List Decl) : Prop := ∀ t ∈ types, ∀ k ns n ms, t = .ty k ns n ms → (k = .class ∨ k = .struct) → ∀ m ∈ ms.list, Supported m

theorem pass_header (types : List Decl) (hw : ∀ t ∈ types, TypeWF t) : (AllSupported types → pass header types = .ok (classes types)) ∧ (¬ AllSupported types → ∃ x, pass header types = .error x) := by
  induction types with
  | nil => exact ⟨fun _ => rfl, fun h => absurd (fun t ht => by cases ht) h⟩
  | cons t r ih =>
    have ih := ih (fun t ht => hw t (List.mem_cons_of_mem _ ht))
    have h1 := hw t (List.mem_cons_self ..)
    cases t with
    | ty k ns n ms =>
      have split : AllSupported (.ty k ns n ms :: r) ↔ ((k = .class ∨ k = .struct) → ∀ m ∈ ms.list, Supported m) ∧ AllSupported r := by
        unfold AllSupported
        constructor
        · intro h
          exact ⟨fun hk => h _ (List.mem_cons_self ..) k ns n ms rfl hk, fun t ht => h t (List.mem_cons_of_mem _ ht)⟩
        · rintro ⟨a, b⟩ t ht k' ns' n' ms' e hk
          rcases List.mem_cons.1 ht with h | h
          · rw [h] at e; cases e; exact a hk
          · exact b t h k' ns' n' ms' e hk
      rw [split, pass, header]
      by_cases hk : k = .class ∨ k = .struct
      · rw [if_pos hk]
        have e1 := headerMembers_ok ms h1
        have e2 := headerMembers_eq ms h1
        constructor
        · rintro ⟨a, b⟩
          obtain ⟨l, hl⟩ := e1.2 (a hk)
          rw [hl]
          show Except.bind (pass header r) _ = _
          rw [ih.1 b, e2 l hl]
          have : classes (.ty k ns n ms :: r) = (n, plainOf ms) :: classes r := by unfold classes; simp [hk]
          rw [this]; rfl
        · intro h
          cases hl : headerMembers ms with
          | error x => exact ⟨x, rfl⟩
          | ok l =>
            have a := e1.1 ⟨l, hl⟩
            have b : ¬ AllSupported r := fun b => h ⟨fun _ => a, b⟩
            obtain ⟨x, hx⟩ := ih.2 b
            refine ⟨x, ?_⟩
            show Except.bind (pass header r) _ = _
            rw [hx]; rfl
      · rw [if_neg hk]
        constructor
        · rintro ⟨a, b⟩
          show Except.bind (pass header r) _ = _
          rw [ih.1 b]
          have : classes (.ty k ns n ms :: r) = classes r := by unfold classes; simp [hk]
          rw [this]; rfl
        · intro h
          have b : ¬ AllSupported r := fun b => h ⟨fun hk' => absurd hk' hk, b⟩
          obtain ⟨x, hx⟩ := ih.2 b
          refine ⟨x, ?_⟩
          show Except.bind (pass header r) _ = _
          rw [hx]; rfl
    | _ => exact h1.elim

theorem pass_source (types : List Decl) (hw : ∀ t ∈ types, TypeWF t) (hk : ∀ t ∈ types, Ordinary t) (hs : AllSupported types) :
    pass (fun t => (source t []).map (·.1)) types = .ok ((classes types).flatMap (fun c => c.2.map (fun n => (c.1, n)))) := by
  induction types with
  | nil => rfl
  | cons t r ih =>
    have ih := ih (fun t ht => hw t (List.mem_cons_of_mem _ ht)) (fun t ht => hk t (List.mem_cons_of_mem _ ht)) (fun t ht => hs t (List.mem_cons_of_mem _ ht))
    have h1 := hw t (List.mem_cons_self ..)
    have h2 := hk t (List.mem_cons_self ..)
    cases t with
    | ty k ns n ms =>
      rw [pass, ih, source]
      by_cases he : k = .enum
      · subst he
        rw [if_pos rfl]
        rfl
      · have hc : k = .class ∨ k = .struct := by
          cases k
          · exact .inl rfl
          · exact .inr rfl
          · exact absurd rfl he
          · exact absurd rfl h2.1
          · exact absurd rfl h2.2.1
        rw [if_neg he, if_neg h2.2.1, source_members ms h1 (hs _ (List.mem_cons_self ..) k ns n ms rfl hc)]
        have : classes (.ty k ns n ms :: r) = (n, plainOf ms) :: classes r := by unfold classes; simp [hc]
        rw [this]; rfl
    | _ => exact h1.elim

/-- **C152** (exact condition): the header and the source file are written exactly when no class or struct that is translated has an event, an indexer, a destructor, a fixed-size buffer or a nested class,
struct, interface or delegate; then the header declares every class and struct with its own fields, methods, constructors, properties and operators, and the source file defines each of these for its class, in
order and once. Otherwise neither is written. -/
theorem C152_members_partial (types : List Decl) (hw : ∀ t ∈ types, TypeWF t) :
    (AllSupported (types.filter selected) → (run types).header = some (classes (types.filter selected)) ∧
      (run types).source = some ((classes (types.filter selected)).flatMap (fun c => c.2.map (fun n => (c.1, n))))) ∧
    (¬ AllSupported (types.filter selected) → (run types).header = none ∧ (run types).source = none) := by
  have hw' : ∀ t ∈ types.filter selected, TypeWF t := fun t h => hw t (List.mem_filter.1 h).1
  have hk' : ∀ t ∈ types.filter selected, Ordinary t := fun t h => (selected_iff t).1 (List.mem_filter.1 h).2
  obtain ⟨a, b⟩ := pass_header _ hw'
  constructor
  · intro h
    unfold run
    simp only []
    rw [a h, pass_source _ hw' hk' h]
    exact ⟨rfl, rfl⟩
  · intro h
    obtain ⟨x, hx⟩ := b h
    unfold run
    simp only []
    rw [hx]
    exact ⟨rfl, rfl⟩

example : (run exTypes).header = some [(w "C", [1, 2])] ∧ (run exTypes).source = some [(w "C", 1), (w "C", 2)] ∧ (∀ t ∈ exTypes, TypeWF t) := by
  refine ⟨by decide +kernel, by decide +kernel, ?_⟩
  intro t ht
  simp only [exTypes, List.mem_cons, List.not_mem_nil, or_false] at ht
  rcases ht with rfl | rfl | rfl <;> simp [TypeWF, Decl.WF, IsMember]

/-- **C152**, the rest refuted: one nested class anywhere in the program, or one event, and neither the header nor the source file of the whole program is written. -/
theorem C152_refuted (ns n m : WStr) (h : Ordinary (.ty .class ns n .nil)) (before after : List Decl) (hw : ∀ t ∈ before ++ after, TypeWF t) :
    (run (before ++ .ty .class ns n (.cons (.ty .class ns m .nil) .nil) :: after)).header = none ∧
    (run (before ++ .ty .class ns n (.cons (.ty .class ns m .nil) .nil) :: after)).source = none ∧
    (run (before ++ .ty .class ns n (.cons (.other 1) .nil) :: after)).header = none := by
  have key : ∀ d : Decl, ¬ Supported d → Decl.WF (.cons d .nil) → (run (before ++ .ty .class ns n (.cons d .nil) :: after)).header = none ∧ (run (before ++ .ty .class ns n (.cons d .nil) :: after)).source = none := by
    intro d hd hdw
    refine (C152_members_partial _ ?_).2 ?_
    · intro t ht
      rcases List.mem_append.1 ht with h | h
      · exact hw t (List.mem_append_left _ h)
      · rcases List.mem_cons.1 h with h | h
        · rw [h]; exact hdw
        · exact hw t (List.mem_append_right _ h)
    · intro hs
      have hsel : selected (.ty .class ns n (.cons d .nil)) = true := (selected_iff _).2 h
      exact hd (hs _ (List.mem_filter.2 ⟨by simp, hsel⟩) .class ns n (.cons d .nil) rfl (.inl rfl) d (by simp [Decl.list]))
  refine ⟨(key _ (by simp [Supported]) (by simp [Decl.WF, IsMember])).1, (key _ (by simp [Supported]) (by simp [Decl.WF, IsMember])).2, (key _ (by simp [Supported]) (by simp [Decl.WF, IsMember])).1⟩

end Verif.Drive
