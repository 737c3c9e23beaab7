import Verif.HeaderProps
/-!
# C188: exactly when the generated header defines base classes first
-/
namespace Verif.Header

/-! ## Specification -/

/-- `b` is defined before `c` in the header `H`. -/
def DefinedBefore (H : List Decl) (b c : Decl) : Prop := ∃ i j : Nat, i < j ∧ H[i]? = some b ∧ H[j]? = some c

/-- `c` is derived from `x`, directly or through other types of the module. -/
inductive Descends (module : List Decl) : Decl → Decl → Prop
  | direct {c x} : Derives c x → Descends module c x
  | step {c y x} : y ∈ module → Derives c y → Descends module y x → Descends module c x

/-- The C# rules: no struct has a type of the module that is to be translated as base (only interfaces), and none is a base. -/
def ClassesOnly (module : List Decl) : Prop := ∀ a ∈ module, ∀ b ∈ module, Derives a b → a.kind ≠ .struct ∧ b.kind ≠ .struct

/-! ## Order of two elements -/

theorem pair_of_before {H : List Decl} {b c : Decl} (h : DefinedBefore H b c) : [b, c].Sublist H := by
  obtain ⟨i, j, hij, hi, hj⟩ := h
  induction H generalizing i j with
  | nil => simp at hi
  | cons e es ih =>
    cases j with
    | zero => omega
    | succ j =>
      rw [List.getElem?_cons_succ] at hj
      cases i with
      | zero =>
        rw [List.getElem?_cons_zero, Option.some.injEq] at hi
        subst hi
        exact List.Sublist.cons_cons _ (List.singleton_sublist.2 (List.mem_of_getElem? hj))
      | succ i =>
        rw [List.getElem?_cons_succ] at hi
        exact List.Sublist.cons _ (ih i j (by omega) hi hj)

theorem pair_cons {e b c : Decl} {es : List Decl} (h : [b, c].Sublist (e :: es)) (hb : b ≠ e) : [b, c].Sublist es := by
  cases h with
  | cons _ h => exact h
  | cons_cons _ h => exact absurd rfl hb

theorem pair_head {e b : Decl} {es : List Decl} (hn : e ∉ es) (h : [b, e].Sublist (e :: es)) : False := by
  cases h with
  | cons _ h => exact hn (h.subset (by simp))
  | cons_cons _ h => exact hn (h.subset (by simp))

theorem pair_total {b c : Decl} : ∀ {es : List Decl}, b ∈ es → c ∈ es → b ≠ c → [b, c].Sublist es ∨ [c, b].Sublist es
  | e :: es, hb, hc, hne => by
    rcases List.mem_cons.1 hb with h1 | h1
    · rcases List.mem_cons.1 hc with h2 | h2
      · exact absurd (h1.trans h2.symm) hne
      · subst h1; exact .inl (.cons_cons _ (List.singleton_sublist.2 h2))
    · rcases List.mem_cons.1 hc with h2 | h2
      · subst h2; exact .inr (.cons_cons _ (List.singleton_sublist.2 h1))
      · rcases pair_total h1 h2 hne with h | h
        · exact .inl (.cons _ h)
        · exact .inr (.cons _ h)

theorem pair_asymm {b c : Decl} : ∀ {es : List Decl}, es.Nodup → [b, c].Sublist es → [c, b].Sublist es → False
  | [], _, h, _ => by cases h
  | e :: es, hn, h1, h2 => by
    have hn' := List.nodup_cons.1 hn
    by_cases hb : b = e
    · subst hb; exact pair_head hn'.1 h2
    · by_cases hc : c = e
      · subst hc; exact pair_head hn'.1 h1
      · exact pair_asymm hn'.2 (pair_cons h1 hb) (pair_cons h2 hc)

theorem pair_ne {b c : Decl} {es : List Decl} (hn : es.Nodup) (h : [b, c].Sublist es) : b ≠ c := by
  intro e; subst e; exact pair_asymm hn h h

/-! ## One insertion -/

theorem insert_sublist (ds : List Decl) (d : Decl) : ds.Sublist (insertDecl ds d) := by
  induction ds with
  | nil => exact List.nil_sublist _
  | cons e es ih =>
    unfold insertDecl
    split
    · exact List.Sublist.cons _ (List.Sublist.refl _)
    · exact List.Sublist.cons_cons _ ih

theorem foldl_sublist (xs acc : List Decl) : acc.Sublist (xs.foldl insertDecl acc) := by
  induction xs generalizing acc with
  | nil => exact List.Sublist.refl _
  | cons x xs ih => exact (insert_sublist acc x).trans (ih _)

theorem insert_nodup {ds : List Decl} {d : Decl} (hn : ds.Nodup) (hd : d ∉ ds) : (insertDecl ds d).Nodup :=
  (insertDecl_perm ds d).nodup_iff.2 (List.nodup_cons.2 ⟨hd, hn⟩)

theorem good_step (ds : List Decl) (d : Decl) (hn : ds.Nodup) (g : Good ds)
    (h : ∀ c ∈ ds, ∀ b ∈ ds, Derives c d → Derives d b → [b, c].Sublist ds) : Good (insertDecl ds d) := by
  induction ds with
  | nil => exact List.pairwise_singleton _ _
  | cons e es ih =>
    have hn' := List.nodup_cons.1 hn
    have g' := List.pairwise_cons.1 g
    unfold insertDecl
    by_cases hp : isParentOf d e = true
    · rw [if_pos hp]
      refine List.pairwise_cons.2 ⟨fun b hb hd => ?_, g⟩
      exact pair_head hn'.1 (h e List.mem_cons_self b hb ((isParentOf_iff d e).1 hp) hd)
    · rw [if_neg hp]
      refine List.pairwise_cons.2 ⟨?_, ih hn'.2 g'.2 ?_⟩
      · intro b hb
        rcases (mem_insertDecl es d b).1 hb with rfl | hb
        · exact fun hd => hp ((isParentOf_iff b e).2 hd)
        · exact g'.1 b hb
      · intro c hc b hb h1 h2
        exact pair_cons (h c (List.mem_cons_of_mem _ hc) b (List.mem_cons_of_mem _ hb) h1 h2) (fun e' => hn'.1 (e' ▸ hb))

theorem placed_after {b d : Decl} : ∀ {ds : List Decl}, ds.Nodup → b ∈ ds → (∀ e ∈ ds, Derives e d → [b, e].Sublist ds) → [b, d].Sublist (insertDecl ds d)
  | e :: es, hn, hb, h => by
    have hn' := List.nodup_cons.1 hn
    unfold insertDecl
    by_cases hp : isParentOf d e = true
    · exact absurd (h e List.mem_cons_self ((isParentOf_iff d e).1 hp)) (fun h' => pair_head hn'.1 h')
    · rw [if_neg hp]
      rcases List.mem_cons.1 hb with h1 | h1
      · subst h1
        exact .cons_cons _ (List.singleton_sublist.2 ((mem_insertDecl es d d).2 (.inl rfl)))
      · exact .cons _ (placed_after hn'.2 h1 (fun e' he' hd' => pair_cons (h e' (List.mem_cons_of_mem _ he') hd') (fun e2 => hn'.1 (e2 ▸ h1))))

/-! ## All insertions -/

theorem foldl_nodup {xs acc : List Decl} (h : (acc ++ xs).Nodup) : (xs.foldl insertDecl acc).Nodup := (foldl_perm xs acc).nodup_iff.2 h

theorem good_steps (xs acc : List Decl) (hn : (acc ++ xs).Nodup) (g : Good acc)
    (h : ∀ pre x post, xs = pre ++ x :: post → ∀ c ∈ pre.foldl insertDecl acc, ∀ b ∈ pre.foldl insertDecl acc, Derives c x → Derives x b → [b, c].Sublist (pre.foldl insertDecl acc)) :
    Good (xs.foldl insertDecl acc) := by
  induction xs generalizing acc with
  | nil => exact g
  | cons x xs ih =>
    rw [List.foldl_cons]
    have hp : (insertDecl acc x ++ xs).Perm (acc ++ x :: xs) := ((insertDecl_perm acc x).append_right xs).trans (List.perm_middle (a := x) (l₁ := acc) (l₂ := xs)).symm
    refine ih _ (hp.nodup_iff.2 hn) (good_step acc x (List.nodup_append.1 hn).1 g (h [] x xs rfl)) ?_
    intro pre y post e
    exact h (x :: pre) y post (by rw [e]; rfl)

theorem mem_foldl (xs : List Decl) (z : Decl) : z ∈ xs.foldl insertDecl [] ↔ z ∈ xs := by
  rw [(foldl_perm xs []).mem_iff, List.nil_append]

/-- After `b`, every type placed of which all types derived from it and already placed are after `b`, is after `b`. -/
theorem after_steps {ms : List Decl} {b x : Decl} (q acc : List Decl) (hm : ∀ c ∈ q, c ∈ ms) (hn : (acc ++ q).Nodup) (hb : b ∈ acc) (h : ∀ c ∈ acc, Descends ms c x → [b, c].Sublist acc) :
    ∀ c ∈ q.foldl insertDecl acc, Descends ms c x → [b, c].Sublist (q.foldl insertDecl acc) := by
  induction q generalizing acc with
  | nil => exact h
  | cons d q ih =>
    rw [List.foldl_cons]
    have hp : (insertDecl acc d ++ q).Perm (acc ++ d :: q) := ((insertDecl_perm acc d).append_right q).trans (List.perm_middle (a := d) (l₁ := acc) (l₂ := q)).symm
    have hna : acc.Nodup := (List.nodup_append.1 hn).1
    refine ih _ (fun c hc => hm c (List.mem_cons_of_mem _ hc)) (hp.nodup_iff.2 hn) ((mem_insertDecl acc d b).2 (.inr hb)) ?_
    intro c hc hd
    rcases (mem_insertDecl acc d c).1 hc with rfl | hc
    · exact placed_after hna hb (fun e he hec => h e he (.step (hm _ List.mem_cons_self) hec hd))
    · exact (h c hc hd).trans (insert_sublist acc d)

/-! ## The header -/

theorem header_nodup {skip : Decl → Bool} {module : List Decl} (hn : module.Nodup) : (header skip module).Nodup ∧ (wanted skip module).Nodup ∧ (collect skip module).Nodup := by
  have h2 : (wanted skip module).Nodup := hn.sublist List.filter_sublist
  have h3 := (collect_perm skip module).nodup_iff.2 h2
  exact ⟨(filter_split _ (collect_kind skip module)).nodup_iff.2 h3, h2, h3⟩

theorem header_mem (skip : Decl → Bool) (module : List Decl) (d : Decl) : d ∈ header skip module ↔ d ∈ wanted skip module :=
  ((filter_split _ (collect_kind skip module)).trans (collect_perm skip module)).mem_iff

theorem wanted_mem {skip : Decl → Bool} {module : List Decl} {d : Decl} (h : d ∈ wanted skip module) : d ∈ module := (List.mem_filter.1 h).1

theorem good_header {skip : Decl → Bool} {module : List Decl} (hc : ClassesOnly module) (hs : ∀ d ∈ module, ¬ Derives d d) (g : Good (collect skip module)) : Before Derives (header skip module) := by
  have mm : ∀ d, d ∈ collect skip module → d ∈ module := fun d hd => wanted_mem ((collect_perm skip module).mem_iff.1 hd)
  apply before_of_good
  · unfold header printed Good
    rw [List.pairwise_append]
    refine ⟨good_sublist List.filter_sublist g, good_sublist List.filter_sublist g, ?_⟩
    intro a ha b hb hd
    have ha := List.mem_filter.1 ha
    have hb := List.mem_filter.1 hb
    exact (hc a (mm a ha.1) b (mm b hb.1) hd).1 (by simpa using ha.2)
  · intro d hd
    exact hs d (wanted_mem ((header_mem skip module d).1 hd))

/-- **C188**. The types of a module are met in some order. The header defines every base before the types derived from it exactly when, for every type `x` met after a type `c` derived from it and after a base `b` of it, it has `b` before
`c`; whatever else the module contains and in whatever order. -/
theorem C188_exact (skip : Decl → Bool) (module : List Decl) (hn : module.Nodup) (hc : ClassesOnly module) (hs : ∀ d ∈ module, ¬ Derives d d) :
    Before Derives (header skip module) ↔
    ∀ pre x post, wanted skip module = pre ++ x :: post → ∀ c ∈ pre, ∀ b ∈ pre, Derives c x → Derives x b → DefinedBefore (header skip module) b c := by
  obtain ⟨hH, hw, hC⟩ := header_nodup (skip := skip) hn
  constructor
  · intro h pre x post e c hcp b hbp h1 h2
    have at' : ∀ d ∈ wanted skip module, ∃ i : Nat, (header skip module)[i]? = some d := by
      intro d hd
      obtain ⟨i, hi, e⟩ := List.mem_iff_getElem.1 ((header_mem skip module d).2 hd)
      exact ⟨i, List.getElem?_eq_some_iff.2 ⟨hi, e⟩⟩
    obtain ⟨i, hi⟩ := at' b (by rw [e]; exact List.mem_append_left _ hbp)
    obtain ⟨j, hj⟩ := at' c (by rw [e]; exact List.mem_append_left _ hcp)
    obtain ⟨k, hk⟩ := at' x (by rw [e]; simp)
    have q1 := h j k c x hj hk h1
    have q2 := h k i x b hk hi h2
    exact ⟨i, j, by omega, hi, hj⟩
  · intro h
    apply good_header hc hs
    rw [collect_eq]
    apply good_steps
    · rw [List.nil_append]; exact hw
    · exact List.Pairwise.nil
    · intro pre x post e c hcp b hbp h1 h2
      have hcp' := (mem_foldl pre c).1 hcp
      have hbp' := (mem_foldl pre b).1 hbp
      have hH1 := pair_of_before (h pre x post e c hcp' b hbp' h1 h2)
      have hne := pair_ne hH hH1
      rcases pair_total hbp hcp hne with h3 | h3
      · exact h3
      · exfalso
        have sub : (pre.foldl insertDecl []).Sublist (collect skip module) := by
          rw [collect_eq, e, List.foldl_append]; exact foldl_sublist _ _
        have h4 := (h3.trans sub).filter (fun d => decide (d.kind = .class))
        have wm : ∀ d ∈ pre ++ x :: post, d ∈ wanted skip module := fun d hd => by rw [e]; exact hd
        have mx := wm x (by simp)
        have mb := wm b (List.mem_append_left _ hbp')
        have mc := wm c (List.mem_append_left _ hcp')
        have kb : b.kind = .class := by
          rcases collect_kind skip module b ((collect_perm skip module).mem_iff.2 mb) with k | k
          · exact k
          · exact absurd k (hc x (wanted_mem mx) b (wanted_mem mb) h2).2
        have kc : c.kind = .class := by
          rcases collect_kind skip module c ((collect_perm skip module).mem_iff.2 mc) with k | k
          · exact k
          · exact absurd k (hc c (wanted_mem mc) x (wanted_mem mx) h1).1
        have h5 : [c, b].filter (fun d => decide (d.kind = .class)) = [c, b] := by simp [kb, kc]
        rw [h5] at h4
        exact pair_asymm hH hH1 (h4.trans (List.sublist_append_right _ _))

/-- **C188**. It is so for every module, in whatever order its types are met, in which no type derived from `x`, directly or not, is met before a base of `x` that is met before `x`. -/
theorem C188_order (skip : Decl → Bool) (module : List Decl) (hn : module.Nodup) (hc : ClassesOnly module) (ha : ∀ d ∈ module, ¬ Descends module d d)
    (h : ∀ p b q x post, wanted skip module = p ++ b :: (q ++ x :: post) → Derives x b → ∀ c ∈ p, ¬ Descends module c x) : Before Derives (header skip module) := by
  obtain ⟨hH, hw, hC⟩ := header_nodup (skip := skip) hn
  apply good_header hc (fun d hd h => ha d hd (.direct h))
  rw [collect_eq]
  apply good_steps
  · rw [List.nil_append]; exact hw
  · exact List.Pairwise.nil
  · intro pre x post e c hcp b hbp h1 h2
    have hbp' := (mem_foldl pre b).1 hbp
    obtain ⟨p, q, rfl⟩ := List.append_of_mem hbp'
    have e' : wanted skip module = p ++ b :: (q ++ x :: post) := by rw [e, List.append_assoc]; rfl
    have hx : x ∈ module := wanted_mem (skip := skip) (by rw [e]; simp)
    rw [List.foldl_append, List.foldl_cons] at hcp ⊢
    have hw' := hw
    rw [e, ← List.nil_append (p ++ b :: q)] at hw'
    have hw2 := (List.nodup_append.1 hw').1
    rw [List.nil_append] at hw2
    have perm : (insertDecl (p.foldl insertDecl []) b ++ q).Perm (p ++ b :: q) :=
      ((insertDecl_perm _ b).append_right q).trans ((((foldl_perm p []).cons b).append_right q).trans (List.perm_middle (a := b) (l₁ := p) (l₂ := q)).symm)
    refine after_steps (ms := module) (x := x) q _ (fun c hc => wanted_mem (skip := skip) (by rw [e']; simp [hc])) (perm.nodup_iff.2 hw2) ((mem_insertDecl _ b b).2 (.inl rfl)) ?_ c hcp (.direct h1)
    intro d hd hdx
    rcases (mem_insertDecl _ b d).1 hd with rfl | hd
    · exact absurd (.step (wanted_mem (skip := skip) (by rw [e']; simp)) h2 hdx) (ha x hx)
    · exact absurd hdx (h p b q x post e' h2 d ((mem_foldl p d).1 hd))

/-! ## Examples -/

/-- In an acyclic module no type descends from itself: enough that a rank falls from each type to its bases. -/
theorem acyclic {module : List Decl} (r : Decl → Nat) (h : ∀ a ∈ module, ∀ b ∈ module, Derives a b → r b < r a) : ∀ d ∈ module, ¬ Descends module d d := by
  have key : ∀ {c x}, Descends module c x → c ∈ module → x ∈ module → r x < r c := by
    intro c x hd
    induction hd with
    | direct h1 => exact fun hc hx => h _ hc _ hx h1
    | step hy h1 _ ih => exact fun hc hx => Nat.lt_trans (ih hy hx) (h _ hc _ hy h1)
  exact fun d hd hdd => Nat.lt_irrefl _ (key hdd hd hd)

/-- The base, then the class two levels below it, then the class between them: both theorems apply (`C58_bases_first_partial` did not). -/
def chain : List Decl := [cls "A" [], cls "C" ["B"], cls "B" ["A"]]

example : chain.Nodup ∧ ClassesOnly chain ∧ (∀ d ∈ chain, ¬ Derives d d) := by unfold ClassesOnly; decide +kernel
example : ∀ d ∈ chain, ¬ Descends chain d d := acyclic (fun d => if d.name = w "A" then 0 else if d.name = w "B" then 1 else 2) (by decide +kernel)
example : ∀ p b q x post, wanted (fun _ => false) chain = p ++ b :: (q ++ x :: post) → Derives x b → ∀ c ∈ p, ¬ Descends chain c x := by
  intro p b q x post e h2 c hc
  rw [show wanted (fun _ => false) chain = chain by decide +kernel] at e
  unfold chain at e
  rcases p with _ | ⟨p1, _ | ⟨p2, _ | ⟨p3, p⟩⟩⟩
  · cases hc
  · rcases q with _ | ⟨q1, q⟩
    · simp only [List.cons_append, List.nil_append, List.cons.injEq] at e
      rw [← e.2.1, ← e.2.2.1] at h2
      exact absurd h2 (by decide +kernel)
    · have := congrArg List.length e; simp at this
  · have := congrArg List.length e; simp at this
  · have := congrArg List.length e; simp at this
example : header (fun _ => false) chain = [cls "A" [], cls "B" ["A"], cls "C" ["B"]] := by decide +kernel

/-- Right although `C188_order` does not apply (`C`, derived from `B`, is met before `A`): `A` is pulled to the front by `E`. And wrong without `E` (`C58_order_refuted`). -/
example : header (fun _ => false) [cls "E" ["A"], cls "C" ["B"], cls "A" [], cls "B" ["A"]] = [cls "A" [], cls "E" ["A"], cls "B" ["A"], cls "C" ["B"]] := by decide +kernel

/-- **C188**: the condition of `C188_exact` fails for the module of `C58_order_refuted`: there the header has `C` before `A`. -/
theorem C188_violated : let m := [cls "C" ["B"], cls "A" [], cls "B" ["A"]]
    m.Nodup ∧ ClassesOnly m ∧ (∀ d ∈ m, ¬ Derives d d) ∧ Derives (cls "C" ["B"]) (cls "B" ["A"]) ∧ Derives (cls "B" ["A"]) (cls "A" []) ∧
    DefinedBefore (header (fun _ => false) m) (cls "C" ["B"]) (cls "A" []) := by
  refine ⟨by decide +kernel, by unfold ClassesOnly; decide +kernel, by decide +kernel, by decide +kernel, by decide +kernel, 1, 2, by decide, ?_, ?_⟩ <;> decide +kernel

end Verif.Header
