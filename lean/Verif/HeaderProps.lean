import Verif.HeaderModel
/-!
# C58, C83, C84: what the generated header defines, and in which order

C++ needs the definition of a base class, and of every type a field holds by value, before the class that uses it.
-/
namespace Verif.Header

/-! ## Specification -/

/-- In the list `xs` everything satisfying `dep a b` ("`a` needs `b`") has `b` strictly before `a`, for all positions. -/
def Before {α : Type} (dep : α → α → Prop) (xs : List α) : Prop :=
  ∀ (i j : Nat) (a b : α), xs[i]? = some a → xs[j]? = some b → dep a b → j < i

/-- `a` names `b` in its base list. -/
def Derives (a b : Decl) : Prop := b.fullName ∈ a.bases

/-- `a` has an instance field whose type is the struct `b`, so it holds a `b` by value. -/
def Holds (a b : Decl) : Prop := b.kind = .struct ∧ b.fullName ∈ a.fields

instance (a b : Decl) : Decidable (Derives a b) := by unfold Derives; infer_instance
instance (a b : Decl) : Decidable (Holds a b) := by unfold Holds; infer_instance

/-- The types of a module that the header should define. -/
def wanted (skip : Decl → Bool) (module : List Decl) : List Decl :=
  module.filter (fun d => (d.kind = .class || d.kind = .struct) && !skip d)

/-! ## Insertion -/

theorem isParentOf_iff (p c : Decl) : isParentOf p c = true ↔ Derives c p := by
  unfold isParentOf Derives; rw [List.any_eq_true]
  constructor
  · rintro ⟨x, hx, e⟩; rw [eq_of_beq e]; exact hx
  · intro h; exact ⟨_, h, beq_self_eq_true _⟩

theorem insertDecl_perm (ds : List Decl) (d : Decl) : (insertDecl ds d).Perm (d :: ds) := by
  induction ds with
  | nil => exact .refl _
  | cons e es ih =>
    unfold insertDecl
    split
    · exact .refl _
    · exact (ih.cons e).trans (.swap d e es)

theorem mem_insertDecl (ds : List Decl) (d x : Decl) : x ∈ insertDecl ds d ↔ x = d ∨ x ∈ ds := by
  rw [(insertDecl_perm ds d).mem_iff, List.mem_cons]

/-- "No later element is a base of an earlier one." -/
def Good (ds : List Decl) : Prop := ds.Pairwise (fun a b => ¬ Derives a b)

theorem good_insert (ds : List Decl) (d : Decl) (g : Good ds)
    (h : (∃ c ∈ ds, Derives c d) → ∀ b ∈ ds, ¬ Derives d b) : Good (insertDecl ds d) := by
  induction ds with
  | nil => exact List.pairwise_singleton _ _
  | cons e es ih =>
    unfold insertDecl
    have g' := List.pairwise_cons.mp g
    by_cases hp : isParentOf d e = true
    · rw [if_pos hp]
      exact List.pairwise_cons.mpr ⟨fun b hb => h ⟨e, List.mem_cons_self, (isParentOf_iff d e).mp hp⟩ b hb, g⟩
    · rw [if_neg hp]
      refine List.pairwise_cons.mpr ⟨?_, ih g'.2 ?_⟩
      · intro b hb
        rcases (mem_insertDecl es d b).mp hb with rfl | hb
        · exact fun hd => hp ((isParentOf_iff b e).mpr hd)
        · exact g'.1 b hb
      · rintro ⟨c, hc, hcd⟩ b hb
        exact h ⟨c, List.mem_cons_of_mem _ hc, hcd⟩ b (List.mem_cons_of_mem _ hb)

theorem before_of_good (ds : List Decl) (g : Good ds) (hs : ∀ d ∈ ds, ¬ Derives d d) : Before Derives ds := by
  intro i j a b ea eb hd
  rcases Nat.lt_trichotomy j i with h | h | h
  · exact h
  · subst h
    rw [ea] at eb
    cases eb
    exact absurd hd (hs a (List.mem_of_getElem? ea))
  · obtain ⟨hi, rfl⟩ := List.getElem?_eq_some_iff.mp ea
    obtain ⟨hj, rfl⟩ := List.getElem?_eq_some_iff.mp eb
    exact absurd hd ((List.pairwise_iff_getElem.mp g) i j hi hj h)

theorem foldl_visit (skip : Decl → Bool) (module : List Decl) (acc : List Decl) :
    (module.filter (selected skip)).foldl visitType acc = (wanted skip module).foldl insertDecl acc := by
  induction module generalizing acc with
  | nil => rfl
  | cons d ds ih =>
    unfold wanted at ih ⊢
    rw [List.filter_cons, List.filter_cons]
    have e1 : selected skip d = ((d.kind = .class || d.kind = .enum || d.kind = .struct) && !skip d) := rfl
    have e2 : visitType acc d = if d.kind ≠ .enum then insertDecl acc d else acc := rfl
    rw [e1]
    cases hk : d.kind <;> cases hs : skip d <;> simp [ih, hk, e2]

theorem collect_eq (skip : Decl → Bool) (module : List Decl) :
    collect skip module = (wanted skip module).foldl insertDecl [] := foldl_visit skip module []

theorem foldl_perm (xs acc : List Decl) : (xs.foldl insertDecl acc).Perm (acc ++ xs) := by
  induction xs generalizing acc with
  | nil => rw [List.append_nil]; exact .refl _
  | cons x xs ih =>
    rw [List.foldl_cons]
    refine (ih _).trans ?_
    refine ((insertDecl_perm acc x).append_right xs).trans ?_
    exact (List.perm_middle (a := x) (l₁ := acc) (l₂ := xs)).symm

theorem collect_perm (skip : Decl → Bool) (module : List Decl) : (collect skip module).Perm (wanted skip module) := by
  rw [collect_eq]; exact (foldl_perm _ []).trans (by rw [List.nil_append])

theorem collect_kind (skip : Decl → Bool) (module : List Decl) (d : Decl) (h : d ∈ collect skip module) :
    d.kind = .class ∨ d.kind = .struct := by
  have := (collect_perm skip module).mem_iff.mp h
  unfold wanted at this
  have := (List.mem_filter.mp this).2
  cases hk : d.kind <;> simp [hk] at this ⊢

theorem filter_split (ds : List Decl) (h : ∀ d ∈ ds, d.kind = .class ∨ d.kind = .struct) : (printed ds).Perm ds := by
  unfold printed
  have e : ds.filter (fun d => d.kind = .class) = ds.filter (fun d => !decide (d.kind = .struct)) := by
    apply List.filter_congr
    intro d hd
    rcases h d hd with hk | hk <;> simp [hk]
  rw [e]
  exact List.filter_append_perm _ ds

/-- C84: the header defines exactly the classes and structs of the module that are to be translated, each exactly once (as often as the
module declares it), for every module and every order of its types. -/
theorem C84_complete (skip : Decl → Bool) (module : List Decl) :
    (header skip module).Perm (module.filter (fun d => (d.kind = .class || d.kind = .struct) && !skip d)) := by
  unfold header
  exact (filter_split _ (collect_kind skip module)).trans (collect_perm skip module)

/-! ## C58 -/

theorem good_foldl (xs acc : List Decl) (g : Good acc)
    (h : ∀ pre x post, xs = pre ++ x :: post → (∃ c ∈ acc ++ pre, Derives c x) → ∀ b ∈ acc ++ pre, ¬ Derives x b) :
    Good (xs.foldl insertDecl acc) := by
  induction xs generalizing acc with
  | nil => exact g
  | cons x xs ih =>
    rw [List.foldl_cons]
    apply ih
    · apply good_insert _ _ g
      have := h [] x xs rfl
      rwa [List.append_nil] at this
    · intro pre y post e
      have hm : ∀ z, z ∈ insertDecl acc x ++ pre ↔ z ∈ acc ++ x :: pre := by
        intro z
        rw [List.mem_append, mem_insertDecl, List.mem_append, List.mem_cons]
        constructor
        · rintro ((h | h) | h)
          · exact .inr (.inl h)
          · exact .inl h
          · exact .inr (.inr h)
        · rintro (h | h | h)
          · exact .inl (.inr h)
          · exact .inl (.inl h)
          · exact .inr h
      have := h (x :: pre) y post (by rw [e]; rfl)
      rintro ⟨c, hc, hcd⟩ b hb
      exact this ⟨c, (hm c).mp hc, hcd⟩ b ((hm b).mp hb)

theorem good_sublist {xs ys : List Decl} (h : xs.Sublist ys) (g : Good ys) : Good xs := List.Pairwise.sublist h g

/-- Structs never have classes in their base list, and no class has a struct in it (the C# rules: struct types are sealed and their base lists
name interfaces only). -/
def Legal (module : List Decl) : Prop := ∀ a ∈ module, ∀ b ∈ module, Derives a b →
  ¬ (a.kind = .struct ∧ b.kind = .class)

/-- C58, the general positive result. Whatever the order in which the types of a module are met, if no type is met at a time when both a type
derived from it and one of its own base types have already been met, the header defines every base before the types derived from it. -/
theorem C58_bases_first_partial (skip : Decl → Bool) (module : List Decl)
    (hl : Legal module) (hs : ∀ d ∈ module, ¬ Derives d d)
    (h : ∀ pre x post, module = pre ++ x :: post → (∃ c ∈ pre, Derives c x) → ∀ b ∈ pre, ¬ Derives x b) :
    Before Derives (header skip module) := by
  have sub : (wanted skip module).Sublist module := List.filter_sublist
  have g : Good (collect skip module) := by
    rw [collect_eq]
    apply good_foldl
    · exact List.Pairwise.nil
    · intro pre x post e
      rw [List.nil_append]
      unfold wanted at e
      rw [List.filter_eq_append_iff] at e
      obtain ⟨m1, m2, e0, e1, e2⟩ := e
      rw [List.filter_eq_cons_iff] at e2
      obtain ⟨n1, n2, e3, e4, e5, e6⟩ := e2
      rintro ⟨c, hc, hcd⟩ b hb
      refine h (m1 ++ n1) x n2 (by rw [e0, e3, List.append_assoc]) ⟨c, ?_, hcd⟩ b ?_
      · rw [← e1] at hc; exact List.mem_append_left _ ((List.mem_filter.mp hc).1)
      · rw [← e1] at hb; exact List.mem_append_left _ ((List.mem_filter.mp hb).1)
  have mm : ∀ d, d ∈ collect skip module → d ∈ module := by
    intro d hd
    exact sub.mem ((collect_perm skip module).mem_iff.mp hd)
  apply before_of_good
  · unfold header printed Good
    rw [List.pairwise_append]
    refine ⟨good_sublist List.filter_sublist g, good_sublist List.filter_sublist g, ?_⟩
    intro a ha b hb hd
    have ha := List.mem_filter.mp ha
    have hb := List.mem_filter.mp hb
    exact hl a (mm a ha.1) b (mm b hb.1) hd ⟨by simpa using ha.2, by simpa using hb.2⟩
  · intro d hd
    apply hs
    exact mm d ((filter_split _ (collect_kind skip module)).mem_iff.mp hd)

/-- C58: in particular when every base precedes the types derived from it in the module. -/
theorem C58_base_order_partial (skip : Decl → Bool) (module : List Decl) (hl : Legal module)
    (h : Before Derives module) : Before Derives (header skip module) := by
  apply C58_bases_first_partial skip module hl
  · intro d hd hdd
    obtain ⟨i, hi, e⟩ := List.mem_iff_getElem.mp hd
    have e' : module[i]? = some d := List.getElem?_eq_some_iff.mpr ⟨hi, e⟩
    exact Nat.lt_irrefl _ (h i i d d e' e' hdd)
  · rintro pre x post e ⟨c, hc, hcd⟩
    exfalso
    obtain ⟨i, hi, e1⟩ := List.mem_iff_getElem.mp hc
    have e2 : module[i]? = some c := by rw [e, List.getElem?_append_left hi]; exact List.getElem?_eq_some_iff.mpr ⟨hi, e1⟩
    have e3 : module[pre.length]? = some x := by rw [e]; simp
    have := h i pre.length c x e2 e3 hcd
    omega

/-- C58: and when every base follows the types derived from it in the module (here the insertion really reorders). -/
theorem C58_reverse_order_partial (skip : Decl → Bool) (module : List Decl) (hl : Legal module)
    (h : Before (fun a b => Derives b a) module) : Before Derives (header skip module) := by
  apply C58_bases_first_partial skip module hl
  · intro d hd hdd
    obtain ⟨i, hi, e⟩ := List.mem_iff_getElem.mp hd
    have e' : module[i]? = some d := List.getElem?_eq_some_iff.mpr ⟨hi, e⟩
    exact Nat.lt_irrefl _ (h i i d d e' e' hdd)
  · rintro pre x post e _ b hb hbd
    obtain ⟨i, hi, e1⟩ := List.mem_iff_getElem.mp hb
    have e2 : module[i]? = some b := by rw [e, List.getElem?_append_left hi]; exact List.getElem?_eq_some_iff.mpr ⟨hi, e1⟩
    have e3 : module[pre.length]? = some x := by rw [e]; simp
    have := h i pre.length b x e2 e3 hbd
    omega

/-- C58: and for every order when no type of the module is both derived from one type of it and a base of another. -/
theorem C58_two_levels_partial (skip : Decl → Bool) (module : List Decl) (hl : Legal module)
    (h : ∀ a ∈ module, ∀ b ∈ module, ∀ c ∈ module, Derives a b → ¬ Derives b c) : Before Derives (header skip module) := by
  apply C58_bases_first_partial skip module hl
  · intro d hd hdd
    exact h d hd d hd d hd hdd hdd
  · rintro pre x post e ⟨c, hc, hcd⟩ b hb
    have m : ∀ z ∈ pre, z ∈ module := fun z hz => by rw [e]; exact List.mem_append_left _ hz
    exact h c (m c hc) x (by rw [e]; simp) b (m b hb) hcd

/-- A class with the given name and base. -/
def cls (n : String) (bs : List String) : Decl :=
  { fullName := w n, name := w n, ns := [], kind := .class, bases := bs.map w, fields := [] }

/-- A struct with the given name and the types of its fields. -/
def str (n : String) (fs : List String) : Decl :=
  { fullName := w n, name := w n, ns := [], kind := .struct, bases := [], fields := fs.map w }

/-- C58 is false in general: `class C : B`, `class A`, `class B : A` in this order are written `B`, `C`, `A`, so `B` is
defined before its base `A`. -/
theorem C58_order_refuted :
    header (fun _ => false) [cls "C" ["B"], cls "A" [], cls "B" ["A"]] = [cls "B" ["A"], cls "C" ["B"], cls "A" []] ∧
    ¬ Before Derives (header (fun _ => false) [cls "C" ["B"], cls "A" [], cls "B" ["A"]]) := by
  have e : header (fun _ => false) [cls "C" ["B"], cls "A" [], cls "B" ["A"]] =
    [cls "B" ["A"], cls "C" ["B"], cls "A" []] := by decide +kernel
  refine ⟨e, ?_⟩
  rw [e]
  intro h
  have := h 0 2 (cls "B" ["A"]) (cls "A" []) rfl rfl (by decide +kernel)
  omega

/-- C58: a class implementing an interface of the same module has it in its base list, but the header never defines it. -/
theorem C58_interface_refuted :
    let i : Decl := { cls "I" [] with kind := .interface }
    header (fun _ => false) [i, cls "A" ["I"]] = [cls "A" ["I"]] ∧ Derives (cls "A" ["I"]) i := by decide +kernel

-- a reordering really happens and satisfies the hypotheses
example : header (fun _ => false) [cls "C" ["B"], cls "B" ["A"], cls "A" []] = [cls "A" [], cls "B" ["A"], cls "C" ["B"]] := by decide +kernel
example : Legal [cls "C" ["B"], cls "B" ["A"], cls "A" []] := by
  unfold Legal; decide +kernel
example : ∀ a ∈ [cls "D" ["B"], cls "B" [], cls "C" ["B"]], ∀ b ∈ [cls "D" ["B"], cls "B" [], cls "C" ["B"]],
    ∀ c ∈ [cls "D" ["B"], cls "B" [], cls "C" ["B"]], Derives a b → ¬ Derives b c := by decide +kernel
example : header (fun d => d.fullName = w "X") [cls "D" ["B"], str "S" [], cls "X" [], cls "B" []] = [str "S" [], cls "B" [], cls "D" ["B"]] := by decide +kernel

/-! ## C83 -/

/-- C83: every struct is defined before every class, so a class may hold any struct of the module by value. -/
theorem C83_structs_before_classes_partial (skip : Decl → Bool) (module : List Decl) :
    Before (fun a b => a.kind = .class ∧ b.kind = .struct) (header skip module) := by
  intro i j a b ea eb hd
  unfold header printed at ea eb
  generalize hS : (collect skip module).filter (fun d => d.kind = .struct) = S at *
  generalize hC : (collect skip module).filter (fun d => d.kind = .class) = C at *
  have hi : S.length ≤ i := by
    refine Decidable.byContradiction fun hn => ?_
    rw [List.getElem?_append_left (by omega)] at ea
    have := List.mem_of_getElem? ea
    rw [← hS] at this
    have := (List.mem_filter.mp this).2
    simp [hd.1] at this
  have hj : j < S.length := by
    refine Decidable.byContradiction fun hn => ?_
    rw [List.getElem?_append_right (by omega)] at eb
    have := List.mem_of_getElem? eb
    rw [← hC] at this
    have := (List.mem_filter.mp this).2
    simp [hd.2] at this
  omega

/-- C83 for fields of classes. -/
theorem C83_class_fields_partial (skip : Decl → Bool) (module : List Decl) :
    Before (fun a b => a.kind = .class ∧ Holds a b) (header skip module) := by
  intro i j a b ea eb hd
  exact C83_structs_before_classes_partial skip module i j a b ea eb ⟨hd.1, hd.2.1⟩

/-- C83 is false for structs inside structs: the header defines `Line`, which holds `Point`s, before `Point`. -/
theorem C83_struct_fields_refuted :
    header (fun _ => false) [str "Line" ["Point", "Point"], str "Point" []] = [str "Line" ["Point", "Point"], str "Point" []] ∧
    ¬ Before Holds (header (fun _ => false) [str "Line" ["Point", "Point"], str "Point" []]) := by
  have e : header (fun _ => false) [str "Line" ["Point", "Point"], str "Point" []] = [str "Line" ["Point", "Point"], str "Point" []] := by
    decide +kernel
  refine ⟨e, ?_⟩
  rw [e]
  intro h
  have := h 0 1 (str "Line" ["Point", "Point"]) (str "Point" []) rfl rfl (by decide +kernel)
  omega

/-! ### Structs keep the order of the module, so structs that come in a usable order stay usable -/

theorem insertDecl_struct (ds : List Decl) (d : Decl) (h : ∀ e ∈ ds, ¬ Derives e d) : insertDecl ds d = ds ++ [d] := by
  induction ds with
  | nil => rfl
  | cons e es ih =>
    unfold insertDecl
    have : ¬ isParentOf d e = true := fun hp => h e List.mem_cons_self ((isParentOf_iff d e).mp hp)
    rw [if_neg this, ih (fun x hx => h x (List.mem_cons_of_mem _ hx))]; rfl

theorem foldl_structs (xs acc : List Decl) (h : ∀ a ∈ acc ++ xs, ∀ b ∈ xs, b.kind = .struct → ¬ Derives a b) :
    (xs.foldl insertDecl acc).filter (fun d => d.kind = .struct) = (acc ++ xs).filter (fun d => d.kind = .struct) := by
  induction xs generalizing acc with
  | nil => rw [List.append_nil]; rfl
  | cons x xs ih =>
    rw [List.foldl_cons]
    have mi : ∀ z, z ∈ insertDecl acc x ++ xs ↔ z ∈ acc ++ x :: xs := by
      intro z
      rw [List.mem_append, mem_insertDecl, List.mem_append, List.mem_cons]
      constructor
      · rintro ((h | h) | h)
        · exact .inr (.inl h)
        · exact .inl h
        · exact .inr (.inr h)
      · rintro (h | h | h)
        · exact .inl (.inr h)
        · exact .inl (.inl h)
        · exact .inr h
    rw [ih _ (fun a ha b hb => h a ((mi a).mp ha) b (List.mem_cons_of_mem _ hb))]
    by_cases hk : x.kind = .struct
    · rw [insertDecl_struct acc x (fun e he => h e (List.mem_append_left _ he) x List.mem_cons_self hk)]
      rw [List.append_assoc]; rfl
    · rw [List.filter_append, List.filter_append, List.filter_cons, if_neg (by simp [hk])]
      congr 1
      clear ih mi h
      induction acc with
      | nil => unfold insertDecl; simp [hk]
      | cons e es ih =>
        unfold insertDecl
        split
        · rw [List.filter_cons, if_neg (by simp [hk])]
        · rw [List.filter_cons, List.filter_cons, ih]

/-- C83: if the structs of the module come in an order in which each is declared after the structs it holds, so do they in the header;
together with `C83_class_fields_partial` every by-value field is then of a type already defined. -/
theorem C83_struct_order_partial (skip : Decl → Bool) (module : List Decl)
    (hsealed : ∀ a ∈ module, ∀ b ∈ module, b.kind = .struct → ¬ Derives a b)
    (h : Before Holds ((wanted skip module).filter (fun d => d.kind = .struct))) :
    Before Holds (header skip module) := by
  intro i j a b ea eb hd
  have mem : a ∈ header skip module := List.mem_of_getElem? ea
  have memc := (filter_split _ (collect_kind skip module)).mem_iff.mp mem
  rcases collect_kind skip module a memc with hk | hk
  · exact C83_class_fields_partial skip module i j a b ea eb ⟨hk, hd⟩
  · have es : (collect skip module).filter (fun d => d.kind = .struct) = (wanted skip module).filter (fun d => d.kind = .struct) := by
      rw [collect_eq, foldl_structs]
      · rw [List.nil_append]
      · intro a ha b hb
        rw [List.nil_append] at ha
        exact hsealed a ((List.mem_filter.mp ha).1) b ((List.mem_filter.mp hb).1)
    unfold header printed at ea eb
    rw [es] at ea eb
    generalize (wanted skip module).filter (fun d => d.kind = .struct) = S at *
    by_cases hj : j < S.length
    · by_cases hi : i < S.length
      · rw [List.getElem?_append_left hi] at ea
        rw [List.getElem?_append_left hj] at eb
        exact h i j a b ea eb hd
      · omega
    · rw [List.getElem?_append_right (by omega)] at eb
      have := (List.mem_filter.mp (List.mem_of_getElem? eb)).2
      simp [hd.1] at this

example : header (fun _ => false) [str "Point" [], cls "A" [], str "Line" ["Point", "Point"]] =
  [str "Point" [], str "Line" ["Point", "Point"], cls "A" []] := by decide +kernel

/-! ## C84: the `using namespace` lines -/

theorem namespacesOf_nodup (acc : List WStr) (ds : List Decl) (h : acc.Nodup) : (namespacesOf acc ds).Nodup := by
  induction ds generalizing acc with
  | nil => exact h
  | cons d ds ih =>
    unfold namespacesOf
    apply ih
    split
    · exact h
    · next hn => rw [List.nodup_append]; refine ⟨h, by simp, ?_⟩; intro a ha b hb; simp at hb; rintro rfl; exact hn (hb ▸ ha)

theorem mem_namespacesOf (acc : List WStr) (ds : List Decl) (x : WStr) :
    x ∈ namespacesOf acc ds ↔ x ∈ acc ∨ ∃ d ∈ ds, d.ns = x := by
  induction ds generalizing acc with
  | nil => unfold namespacesOf; simp
  | cons d ds ih =>
    unfold namespacesOf
    rw [ih]
    split
    · next hm =>
      constructor
      · rintro (h | ⟨e, he, rfl⟩)
        · exact .inl h
        · exact .inr ⟨e, List.mem_cons_of_mem _ he, rfl⟩
      · rintro (h | ⟨e, he, rfl⟩)
        · exact .inl h
        · rcases List.mem_cons.mp he with rfl | he
          · exact .inl hm
          · exact .inr ⟨e, he, rfl⟩
    · constructor
      · rintro (h | ⟨e, he, rfl⟩)
        · rcases List.mem_append.mp h with h | h
          · exact .inl h
          · simp at h; exact .inr ⟨d, List.mem_cons_self, h.symm⟩
        · exact .inr ⟨e, List.mem_cons_of_mem _ he, rfl⟩
      · rintro (h | ⟨e, he, rfl⟩)
        · exact .inl (List.mem_append_left _ h)
        · rcases List.mem_cons.mp he with rfl | he
          · exact .inl (by simp)
          · exact .inr ⟨e, he, rfl⟩

/-- C84: every namespace block opened while the header is written (its text is `Fmt.nsText` of the type's namespace) gets a `using namespace` line
with that very text, and each line is written once. -/
theorem C84_usings (ds : List Decl) :
    (namespacesOf [] ds).Nodup ∧
    ∀ l, l ∈ usings ds ↔ ∃ d ∈ ds, l = w "using namespace " ++ Fmt.nsText d.ns ++ w ";" := by
  refine ⟨namespacesOf_nodup _ _ List.nodup_nil, ?_⟩
  intro l
  unfold usings
  rw [List.mem_map]
  constructor
  · rintro ⟨x, hx, rfl⟩
    rcases (mem_namespacesOf _ _ _).mp hx with h | ⟨d, hd, rfl⟩
    · cases h
    · exact ⟨d, hd, rfl⟩
  · rintro ⟨d, hd, rfl⟩
    exact ⟨d.ns, (mem_namespacesOf _ _ _).mpr (.inr ⟨d, hd, rfl⟩), rfl⟩

example : usings [cls "A" [], { cls "B" [] with ns := w "N" }, cls "C" []] = [w "using namespace UNNAMED;", w "using namespace N_NS;"] := by
  decide +kernel

/-! ## C85: base lists -/

/-- The access specifiers of a C++ base clause: in `class` definitions a base without specifier is private, in `struct` definitions public. -/
inductive Access | pub | priv
  deriving DecidableEq

/-- Specification: split a base clause at commas (the text after " : "). -/
def splitComma : WStr → List WStr
  | [] => [[]]
  | c :: cs =>
    match splitComma cs with
    | [] => [[c]]
    | p :: ps => if c = 44 then [] :: p :: ps else (c :: p) :: ps

/-- Specification: what one entry of the base clause of a class (`isStruct = false`) or struct means: the name and its access. -/
def entry (isStruct : Bool) (t : WStr) : WStr × Access :=
  if (w "public ").isPrefixOf t then (t.drop 7, .pub) else (t, if isStruct then .pub else .priv)

/-- Specification: the bases a base clause declares. -/
def baseClause (isStruct : Bool) (t : WStr) : List (WStr × Access) :=
  if (w " : ").isPrefixOf t then (splitComma (t.drop 3)).map (entry isStruct) else []

theorem splitComma_free (a : WStr) (h : 44 ∉ a) : splitComma a = [a] := by
  induction a with
  | nil => rfl
  | cons c cs ih =>
    rw [splitComma, ih (fun hm => h (List.mem_cons_of_mem _ hm))]
    simp only []
    rw [if_neg (fun e => h (by rw [e]; exact List.mem_cons_self))]

theorem splitComma_cons (a t : WStr) (h : 44 ∉ a) : splitComma (a ++ 44 :: t) = a :: splitComma t := by
  have ne : splitComma t ≠ [] := by
    cases t with
    | nil => decide
    | cons c cs => rw [splitComma]; split <;> (try split) <;> simp
  induction a with
  | nil =>
    rw [List.nil_append, splitComma]
    cases hs : splitComma t with
    | nil => exact absurd hs ne
    | cons p ps => simp only [if_pos]
  | cons c cs ih =>
    rw [List.cons_append, splitComma, ih (fun hm => h (List.mem_cons_of_mem _ hm))]
    simp only []
    rw [if_neg (fun e => h (by rw [e]; exact List.mem_cons_self))]

theorem splitComma_sep (p : WStr) (bs : List WStr) (h : ∀ b ∈ p :: bs, 44 ∉ b) : splitComma (commaSep (p :: bs)) = p :: bs := by
  induction bs generalizing p with
  | nil => exact splitComma_free p (h p List.mem_cons_self)
  | cons b bs ih =>
    unfold commaSep
    rw [List.append_assoc]
    show splitComma (p ++ 44 :: commaSep (b :: bs)) = _
    rw [splitComma_cons _ _ (h p List.mem_cons_self), ih b (fun x hx => h x (List.mem_cons_of_mem _ hx))]

theorem entry_pub (isStruct : Bool) (b : WStr) : entry isStruct (w "public " ++ b) = (b, .pub) := by
  unfold entry
  rw [if_pos (by rw [List.isPrefixOf_iff_prefix]; exact List.prefix_append _ _)]
  congr 1

/-- Specification: what the base clause of a declaration with these bases ends up declaring. -/
def declared (isStruct : Bool) : List WStr → List (WStr × Access)
  | [] => [(w "Object", .pub)]
  | b :: bs => (b, .pub) :: bs.map (entry isStruct)

/-- C85: the base clause names every base of the declaration, in order, the first one `public`; a declaration without base list derives
from `Object`. -/
theorem C85_base_clause_partial (kind : Kind) (hk : kind = .class ∨ kind = .struct) (bases : List WStr) (h : ∀ b ∈ bases, 44 ∉ b) :
    baseClause (kind = .struct) (parentage kind bases) = declared (kind = .struct) bases := by
  unfold parentage
  cases bases with
  | nil =>
    rw [if_neg (by simp), if_pos hk]
    rcases hk with rfl | rfl <;> decide +kernel
  | cons b bs =>
    rw [if_pos (by simp)]
    unfold baseClause
    have e : w " : public " = w " : " ++ w "public " := by decide +kernel
    rw [e, List.append_assoc, if_pos (by rw [List.isPrefixOf_iff_prefix]; exact List.prefix_append _ _)]
    have e3 : (w " : " ++ (w "public " ++ commaSep (b :: bs))).drop 3 = w "public " ++ commaSep (b :: bs) := rfl
    rw [e3]
    have e4 : w "public " ++ commaSep (b :: bs) = commaSep ((w "public " ++ b) :: bs) := by
      cases bs with
      | nil => rfl
      | cons c cs => unfold commaSep; rw [List.append_assoc, List.append_assoc, List.append_assoc]
    rw [e4, splitComma_sep]
    · rw [List.map_cons, entry_pub]; rfl
    · intro x hx
      rcases List.mem_cons.mp hx with rfl | hx
      · have : 44 ∉ w "public " := by decide +kernel
        intro hm
        rcases List.mem_append.mp hm with hm | hm
        · exact this hm
        · exact h b List.mem_cons_self hm
      · exact h x (List.mem_cons_of_mem _ hx)

/-- C85: in a `class` every base after the first is inherited privately, so its members are not accessible through the class: the claim
"all bases are public" is false from the second base on. -/
theorem C85_second_base_refuted :
    baseClause false (parentage .class [w "Base", w "IThing"]) = [(w "Base", .pub), (w "IThing", .priv)] := by decide +kernel

/-- C85: all bases of a struct, and the only base of a class, are public. -/
theorem C85_public_partial (kind : Kind) (hk : kind = .class ∨ kind = .struct) (bases : List WStr)
    (h : ∀ b ∈ bases, 44 ∉ b ∧ ¬ (w "public ").isPrefixOf b) (h1 : kind = .struct ∨ bases.length ≤ 1) (hne : bases ≠ []) :
    baseClause (kind = .struct) (parentage kind bases) = bases.map (fun b => (b, .pub)) := by
  rw [C85_base_clause_partial kind hk bases (fun b hb => (h b hb).1)]
  cases bases with
  | nil => exact absurd rfl hne
  | cons b bs =>
    unfold declared
    simp only [List.map_cons, List.cons.injEq, true_and]
    rcases h1 with rfl | h1
    · apply List.map_congr_left
      intro x hx
      unfold entry
      rw [if_neg (h x (List.mem_cons_of_mem _ hx)).2]
      rfl
    · cases bs with
      | nil => rfl
      | cons c cs => simp at h1

example : baseClause true (parentage .struct [w "A", w "B"]) = [(w "A", .pub), (w "B", .pub)] := by decide +kernel

end Verif.Header
