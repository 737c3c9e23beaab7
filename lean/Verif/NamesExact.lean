import Verif.NamesProps
/-!
# C194: exactly which names meet their declarations, which enumerators collide and which outputs go beside the input
-/
namespace Verif.Names
open Fmt FmtTextProps

/-! ## Specification -/

/-- The member `m` of the enum `e` and the member `n` of the enum `f` are the same member, or one member's name is the other's, an underscore and a piece with
which the other enum's name starts, followed by an underscore and its own enum's name (a member called `this` clashes with no other). -/
def Clash (m e n f : WStr) : Prop :=
  (m = n ∧ e = f) ∨ (m ≠ w "this" ∧ ∃ x, n = m ++ [95] ++ x ∧ e = x ++ [95] ++ f) ∨ (n ≠ w "this" ∧ ∃ x, m = n ++ [95] ++ x ∧ f = x ++ [95] ++ e)

/-! ## Enumerators -/

theorem under_eq (a b e f : WStr) : a ++ [95] ++ e = b ++ [95] ++ f ↔
    (a = b ∧ e = f) ∨ (∃ x, b = a ++ [95] ++ x ∧ e = x ++ [95] ++ f) ∨ (∃ x, a = b ++ [95] ++ x ∧ f = x ++ [95] ++ e) := by
  constructor
  · intro h
    induction a generalizing b with
    | nil =>
      cases b with
      | nil => simp at h; exact .inl ⟨rfl, h⟩
      | cons c b =>
        simp only [List.nil_append, List.cons_append, List.cons.injEq, List.append_assoc] at h
        exact .inr (.inl ⟨b, by rw [← h.1]; rfl, by rw [h.2, List.append_assoc]; rfl⟩)
    | cons c a ih =>
      cases b with
      | nil =>
        simp only [List.nil_append, List.cons_append, List.cons.injEq, List.append_assoc] at h
        exact .inr (.inr ⟨a, by rw [h.1]; rfl, by rw [← h.2, List.append_assoc]; rfl⟩)
      | cons d b =>
        simp only [List.cons_append, List.cons.injEq] at h
        rcases ih b h.2 with ⟨q1, q2⟩ | ⟨x, q1, q2⟩ | ⟨x, q1, q2⟩
        · exact .inl ⟨by rw [h.1, q1], q2⟩
        · exact .inr (.inl ⟨x, by rw [h.1, q1]; rfl, q2⟩)
        · exact .inr (.inr ⟨x, by rw [h.1, q1]; rfl, q2⟩)
  · rintro (⟨rfl, rfl⟩ | ⟨x, rfl, rfl⟩ | ⟨x, rfl, rfl⟩) <;> simp [List.append_assoc]

theorem lower_x (ci : CharInfo) : ci.isLower 120 = true := by rw [ci.ascii 120 (by omega)]; rfl
theorem lower_t (ci : CharInfo) : ci.isLower 116 = true := by rw [ci.ascii 116 (by omega)]; rfl

/-- What the prefix is. -/
theorem prefix_cases (ci : CharInfo) (c : Nat) (r a : WStr) (h : prefixName ci (c :: r) = .ok a) :
    (ci.isLower c = true ∧ c :: r ≠ w "this" ∧ a = 120 :: 95 :: c :: r) ∨ (c :: r = w "this" ∧ a = c :: r) ∨ (ci.isLower c = false ∧ a = c :: r) := by
  unfold prefixName at h
  simp only [] at h
  by_cases hl : ci.isLower c = true
  · by_cases ht : c :: r = w "this"
    · rw [if_neg (fun q => q.2 ht), Res.ok.injEq] at h
      exact .inr (.inl ⟨ht, h.symm⟩)
    · rw [if_pos ⟨hl, ht⟩, Res.ok.injEq] at h
      exact .inl ⟨hl, ht, h.symm⟩
  · rw [if_neg (fun q => hl q.1), Res.ok.injEq] at h
    exact .inr (.inr ⟨by simpa using hl, h.symm⟩)

theorem this_cons : w "this" = [116, 104, 105, 115] := by decide +kernel

theorem prefix_extends (ci : CharInfo) (m n a b x : WStr) (hm : prefixName ci m = .ok a) (hn : prefixName ci n = .ok b) :
    b = a ++ [95] ++ x ↔ m ≠ w "this" ∧ n = m ++ [95] ++ x := by
  cases m with
  | nil => cases hm
  | cons c r =>
  cases n with
  | nil => cases hn
  | cons d s =>
  have lx := lower_x ci
  have lt := lower_t ci
  have hmc := prefix_cases ci c r a hm
  have hnc := prefix_cases ci d s b hn
  constructor
  · intro e
    rcases hmc with ⟨h1, h2, rfl⟩ | ⟨h2, rfl⟩ | ⟨h1, rfl⟩ <;> rcases hnc with ⟨k1, k2, rfl⟩ | ⟨k2, rfl⟩ | ⟨k1, rfl⟩
    · refine ⟨h2, ?_⟩
      simpa using e
    · rw [k2, this_cons] at e; simp at e
    · simp only [List.cons_append, List.cons.injEq] at e
      rw [e.1, lx] at k1; cases k1
    · rw [h2, this_cons] at e; simp at e
    · rw [h2, k2, this_cons] at e; simp at e
    · rw [h2, this_cons] at e
      simp only [List.cons_append, List.cons.injEq] at e
      rw [e.1, lt] at k1; cases k1
    · simp only [List.cons_append, List.cons.injEq] at e
      rw [← e.1, lx] at h1; cases h1
    · rw [k2, this_cons] at e
      simp only [List.cons_append, List.cons.injEq] at e
      rw [← e.1, lt] at h1; cases h1
    · refine ⟨fun q => ?_, e⟩
      rw [this_cons, List.cons.injEq] at q
      rw [q.1, lt] at h1; cases h1
  · rintro ⟨hne, e⟩
    have hcd : d = c := by simp only [List.cons_append, List.cons.injEq] at e; exact e.1
    have hnt : d :: s ≠ w "this" := by
      intro q
      rw [e] at q
      have : 95 ∈ w "this" := by rw [← q]; simp
      revert this; decide +kernel
    rcases hmc with ⟨h1, _, rfl⟩ | ⟨h2, _⟩ | ⟨h1, rfl⟩
    · rcases hnc with ⟨k1, k2, rfl⟩ | ⟨k2, _⟩ | ⟨k1, _⟩
      · rw [e]; rfl
      · exact absurd k2 hnt
      · rw [hcd, h1] at k1; cases k1
    · exact absurd h2 hne
    · rcases hnc with ⟨k1, _⟩ | ⟨k2, _⟩ | ⟨k1, rfl⟩
      · rw [hcd, h1] at k1; cases k1
      · exact absurd k2 hnt
      · exact e

/-- C194: two enumerators get the same name exactly when they clash. -/
theorem C194_enumerators (ci : CharInfo) (m e n f : WStr) (hm : m ≠ []) (hn : n ≠ []) :
    enumerator ci m e = enumerator ci n f ↔ Clash m e n f := by
  have ex : ∀ v : WStr, v ≠ [] → ∃ a, prefixName ci v = .ok a := by
    intro v hv
    cases v with
    | nil => exact absurd rfl hv
    | cons c r => unfold prefixName; simp only []; split <;> exact ⟨_, rfl⟩
  obtain ⟨a, ha⟩ := ex m hm
  obtain ⟨b, hb⟩ := ex n hn
  unfold enumerator
  rw [ha, hb, Res.bind_ok, Res.bind_ok, Res.ok.injEq, under_eq]
  unfold Clash
  have h0 : a = b ↔ m = n := by
    constructor
    · rintro rfl; exact prefixName_inj ci m n a ha hb
    · rintro rfl; rw [ha, Res.ok.injEq] at hb; exact hb
  simp only [h0, prefix_extends ci m n a b _ ha hb, prefix_extends ci n m b a _ hb ha, and_assoc, exists_and_left]

/-! ## Methods and fields -/

/-- C194: a call names the method the way it is declared exactly when the name is not changed at the declaration and is not that of a constructor. -/
theorem C194_method (ci : CharInfo) (n : WStr) : methodDecl ci n = .ok (methodUse n) ↔ n ≠ [] ∧ n ≠ w ".ctor" ∧ ¬ Changed ci n := by
  by_cases hn : n = []
  · subst hn
    exact ⟨fun q => (by cases q), fun q => absurd rfl q.1⟩
  by_cases h1 : n = w ".ctor"
  · subst h1
    refine ⟨fun q => ?_, fun q => absurd rfl q.2.1⟩
    exfalso
    have hl : ci.isLower 46 = false := by rw [ci.ascii 46 (by omega)]; rfl
    have e : w ".ctor" = 46 :: w "ctor" := by decide +kernel
    unfold methodDecl at q
    rw [e, nameText_cases, if_neg (by rw [hl]; simp), if_neg (by decide +kernel), Res.ok.injEq] at q
    revert q; decide +kernel
  by_cases h2 : n = w "op_Equality"
  · subst h2
    have hl : ci.isLower 111 = true := by rw [ci.ascii 111 (by omega)]; rfl
    have e : w "op_Equality" = 111 :: w "p_Equality" := by decide +kernel
    constructor
    · intro q
      exfalso
      unfold methodDecl at q
      rw [e, nameText_cases, if_pos ⟨hl, by decide +kernel⟩, Res.ok.injEq] at q
      revert q; decide +kernel
    · intro q
      exact absurd (.inl ⟨⟨111, w "p_Equality", e, hl⟩, by decide +kernel⟩) q.2.2
  · rw [C87_method_partial ci n hn h1 h2]
    simp [hn, h1]

/-- C194: a field is used under the name it is declared with exactly when the name does not start with `<`. -/
theorem C194_field (ci : CharInfo) (n : WStr) : fieldUse ci n = fieldDecl ci n ↔ n.head? ≠ some 60 := by
  refine ⟨fun q hh => ?_, C87_field ci n⟩
  cases n with
  | nil => cases hh
  | cons c r =>
    simp only [List.head?_cons, Option.some.injEq] at hh
    subst hh
    have hl : ci.isLower 60 = false := by rw [ci.ascii 60 (by omega)]; rfl
    have hv : 60 :: r ≠ w "Void" := by
      intro e
      have := congrArg List.head? e
      revert this; simp [w]
    have hd : fieldDecl ci (60 :: r) = .ok (60 :: r) := by
      unfold fieldDecl; rw [nameText_cases, if_neg (by rw [hl]; simp), if_neg hv]
    rw [hd] at q
    unfold fieldUse replaceSpecial at q
    rw [if_pos (by rfl)] at q
    have hmem : 60 ∉ (60 :: r).filter (fun c => c ≠ 60 && c ≠ 62) := by simp
    revert q hmem
    generalize (60 :: r).filter (fun c => c ≠ 60 && c ≠ 62) = t
    intro q hmem
    cases t with
    | nil => cases q
    | cons d s =>
      rw [nameText_cases, Res.ok.injEq] at q
      have h60 : 60 ∈ (if ci.isLower d = true ∧ d :: s ≠ w "this" then w "x_" ++ (d :: s) else if d :: s = w "Void" then w "void" else d :: s) := by
        rw [q]; exact List.mem_cons_self
      split at h60
      · rcases List.mem_append.mp h60 with k | k
        · revert k; decide +kernel
        · exact hmem k
      · split at h60
        · revert h60; decide +kernel
        · exact hmem h60

/-! ## The output directory -/

theorem under_gen (a b x y : WStr) (hx : 47 ∉ x) (hy : 47 ∉ y) (h : a ++ [47] ++ x = b ++ [47] ++ y) : a = b ∧ x = y := by
  induction a generalizing b with
  | nil =>
    cases b with
    | nil => simp at h; exact ⟨rfl, h⟩
    | cons c b =>
      exfalso
      simp only [List.nil_append, List.cons_append, List.cons.injEq, List.append_assoc] at h
      exact hx (h.2 ▸ by simp)
  | cons c a ih =>
    cases b with
    | nil =>
      exfalso
      simp only [List.nil_append, List.cons_append, List.cons.injEq, List.append_assoc] at h
      exact hy (h.2 ▸ by simp)
    | cons d b =>
      simp only [List.cons_append, List.cons.injEq] at h
      obtain ⟨e1, e2⟩ := ih b h.2
      exact ⟨by rw [h.1, e1], e2⟩

/-- C194: where only `/` separates, the output goes beside the input file exactly when the argument has a `/` or no backslash; where both separate, exactly when
no backslash follows the last `/`. -/
theorem C194_directory (arg : WStr) :
    ((∃ file, InDir (fun c => c = 47) arg (directory arg) file) ↔ 47 ∈ arg ∨ 92 ∉ arg) ∧
    ((∃ file, InDir (fun c => c = 47 ∨ c = 92) arg (directory arg) file) ↔ ∀ d f, arg = d ++ [47] ++ f → 47 ∉ f → 92 ∉ f) := by
  constructor
  · refine ⟨fun ⟨file, h1, h2, h3⟩ => ?_, C89_posix_partial arg⟩
    by_cases h47 : 47 ∈ arg
    · exact .inl h47
    · right
      intro h92
      unfold directory at h3
      rw [if_neg h47] at h3
      obtain ⟨d, e⟩ := afterLast_take 92 arg h92
      rw [e] at h3
      rcases h3 with h3 | ⟨d', s, h3, h4⟩
      · simp at h3
      · have := congrArg List.getLast? h3
        simp at this
        subst this
        simp at h4
  · constructor
    · rintro ⟨file, h1, h2, _⟩ d f e hf h92
      have h47 : 47 ∈ arg := by rw [e]; simp
      have hd : directory arg = arg.take (afterLast 47 arg) := by unfold directory; rw [if_pos h47]
      have hfile : file = f := by
        rw [hd] at h1
        obtain ⟨d', e'⟩ := afterLast_take 47 arg h47
        rw [e'] at h1
        have hn : 47 ∉ file := fun q => by have := h2 47 q; simp at this
        rw [e] at h1
        have := (under_gen d d' f file hf hn h1).2
        exact this.symm
      subst hfile
      have := h2 92 h92
      simp at this
    · intro h
      apply C89_windows_partial
      intro h47
      obtain ⟨d, e⟩ := afterLast_take 47 arg h47
      refine h d _ ?_ (afterLast_drop 47 arg)
      rw [← e, List.take_append_drop]

example : Clash (w "Get") (w "Op_Kind") (w "Get_Op") (w "Kind") := .inr (.inl ⟨by decide +kernel, w "Op", by decide +kernel, by decide +kernel⟩)
example : ¬ Clash (w "Red") (w "Color") (w "Green") (w "Color") := by
  rw [← C194_enumerators asciiInfo _ _ _ _ (by decide +kernel) (by decide +kernel)]
  decide +kernel
example : methodDecl asciiInfo (w "Run") = .ok (methodUse (w "Run")) := by decide +kernel
example : 47 ∈ w "/home/me/app.dll" := by decide +kernel

end Verif.Names
