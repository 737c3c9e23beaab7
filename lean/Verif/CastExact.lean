import Verif.NamesProps
/-!
# C198: exactly which programs have every returned value converted to the right type

No new code is modelled. Members are listed in the order they are translated, over all types of the program.
-/
namespace Verif.Names

/-! ## Specification -/

/-- `t` is the return type of the last method in `ms`. -/
def LastMethod (ms : List Member) (t : Types.Ty) : Prop :=
  ∃ before after, ms = before ++ .method t :: after ∧ ∀ x ∈ after, ∀ r, x ≠ .method r

/-- The member is not a method: a getter or an operator. -/
def Accessor (m : Member) : Prop := ∀ r, m ≠ .method r

/-! ## Proof -/

theorem casts_at : ∀ (xs : List Member) (cur : Option Types.Ty) (m : Member) (post : List Member),
    (returnCasts cur (xs ++ m :: post))[xs.length]? = some (m, afterMember (xs.foldl afterMember cur) m)
  | [], _, _, _ => rfl
  | x :: xs, cur, m, post => casts_at xs (afterMember cur x) m post

theorem after_accessor {m : Member} (h : Accessor m) (cur : Option Types.Ty) : afterMember cur m = cur := by
  cases m with
  | method r => exact absurd rfl (h r)
  | getter r => rfl
  | operator r => rfl

theorem fold_last (ms : List Member) : ∀ (cur : Option Types.Ty),
    (∃ t, LastMethod ms t ∧ ms.foldl afterMember cur = some t) ∨ ((∀ x ∈ ms, Accessor x) ∧ ms.foldl afterMember cur = cur) := by
  induction ms with
  | nil => intro cur; exact .inr ⟨by simp, rfl⟩
  | cons m ms ih =>
    intro cur
    rcases ih (afterMember cur m) with ⟨t, ⟨a, b, h1, h2⟩, h3⟩ | ⟨h1, h2⟩
    · exact .inl ⟨t, ⟨m :: a, b, by rw [h1]; rfl, h2⟩, h3⟩
    · cases m with
      | method r => exact .inl ⟨r, ⟨[], ms, rfl, h1⟩, h2⟩
      | getter r => exact .inr ⟨fun x hx => by
          rcases List.mem_cons.mp hx with rfl | hx
          · intro r h; cases h
          · exact h1 x hx, h2⟩
      | operator r => exact .inr ⟨fun x hx => by
          rcases List.mem_cons.mp hx with rfl | hx
          · intro r h; cases h
          · exact h1 x hx, h2⟩

theorem last_unique {ms : List Member} {t u : Types.Ty} (h : LastMethod ms t) (cur : Option Types.Ty) (hu : ms.foldl afterMember cur = some u) : t = u := by
  obtain ⟨a, b, rfl, hb⟩ := h
  rw [List.foldl_append, List.foldl_cons] at hu
  have keep : ∀ (bs : List Member) (c : Option Types.Ty), (∀ x ∈ bs, ∀ r, x ≠ .method r) → bs.foldl afterMember c = c := by
    intro bs
    induction bs with
    | nil => intro c _; rfl
    | cons b bs ih =>
      intro c h
      rw [List.foldl_cons, after_accessor (h b List.mem_cons_self), ih _ (fun x hx => h x (List.mem_cons_of_mem _ hx))]
  rw [keep b _ hb] at hu
  exact Option.some.inj hu

theorem casts_split {ms : List Member} {cur : Option Types.Ty} {p : Member × Option Types.Ty} (h : p ∈ returnCasts cur ms) :
    ∃ pre post, ms = pre ++ p.1 :: post ∧ p.2 = afterMember (pre.foldl afterMember cur) p.1 := by
  induction ms generalizing cur with
  | nil => cases h
  | cons m ms ih =>
    unfold returnCasts at h
    rcases List.mem_cons.mp h with rfl | h
    · exact ⟨[], ms, rfl, rfl⟩
    · obtain ⟨pre, post, h1, h2⟩ := ih h
      exact ⟨m :: pre, post, by rw [h1]; rfl, h2⟩

/-! ## C198 -/

/-- **C198**, member by member: a method's returned values are converted to its return type; a getter's or operator's to the return type of the last method before it; with no method before it there is no type, and the
translator dereferences null. -/
theorem C198_cast_exact (pre : List Member) (m : Member) (post : List Member) :
    ∃ cast, (returnCasts none (pre ++ m :: post))[pre.length]? = some (m, cast) ∧
      (∀ t, m = .method t → cast = some t) ∧
      (Accessor m → ∀ t, cast = some t ↔ LastMethod pre t) ∧
      (cast = none ↔ Accessor m ∧ ∀ x ∈ pre, Accessor x) := by
  refine ⟨_, casts_at pre none m post, ?_, ?_, ?_⟩
  · rintro t rfl; rfl
  · intro ha t
    rw [after_accessor ha]
    constructor
    · intro h
      rcases fold_last pre none with ⟨u, hu, h2⟩ | ⟨_, h2⟩
      · rw [h2] at h; cases h; exact hu
      · rw [h2] at h; cases h
    · intro h
      rcases fold_last pre none with ⟨u, hu, h2⟩ | ⟨h1, _⟩
      · rw [h2, last_unique h none h2]
      · obtain ⟨a, b, rfl, _⟩ := h
        exact absurd rfl (h1 (.method t) (by simp) t)
  · constructor
    · intro h
      have ha : Accessor m := by
        cases m with
        | method r => cases h
        | getter r => intro r h; cases h
        | operator r => intro r h; cases h
      rw [after_accessor ha] at h
      rcases fold_last pre none with ⟨u, hu, h2⟩ | ⟨h1, _⟩
      · rw [h2] at h; cases h
      · exact ⟨ha, h1⟩
    · rintro ⟨ha, hp⟩
      rw [after_accessor ha]
      rcases fold_last pre none with ⟨u, ⟨a, b, rfl, _⟩, h2⟩ | ⟨_, h2⟩
      · exact absurd rfl (hp (.method u) (by simp) u)
      · exact h2

/-- **C198**, whole programs: every returned value is converted to the type of the member it is returned from exactly if each getter and operator follows a method, and the last method before it has its type. -/
theorem C198_program_exact (ms : List Member) :
    (∀ p ∈ returnCasts none ms, p.2 = some p.1.type) ↔
      ∀ pre m post, ms = pre ++ m :: post → Accessor m → LastMethod pre m.type := by
  constructor
  · rintro h pre m post rfl ha
    obtain ⟨cast, h1, _, h3, _⟩ := C198_cast_exact pre m post
    exact (h3 ha m.type).mp (h _ (List.mem_of_getElem? h1))
  · intro h p hp
    obtain ⟨pre, post, h1, h2⟩ := casts_split hp
    obtain ⟨p1, p2⟩ := p
    simp only at h1 h2 ⊢
    cases p1 with
    | method t => exact h2
    | getter t =>
      have ha : Accessor (.getter t) := by intro r h; cases h
      rw [after_accessor ha] at h2
      have hl := h pre _ post h1 ha
      rcases fold_last pre none with ⟨u, hu, h3⟩ | ⟨h3, _⟩
      · rw [h2, h3, last_unique hl none h3]
      · obtain ⟨a, b, rfl, _⟩ := hl
        exact absurd rfl (h3 (.method (Member.getter t).type) (by simp) _)
    | operator t =>
      have ha : Accessor (.operator t) := by intro r h; cases h
      rw [after_accessor ha] at h2
      have hl := h pre _ post h1 ha
      rcases fold_last pre none with ⟨u, hu, h3⟩ | ⟨h3, _⟩
      · rw [h2, h3, last_unique hl none h3]
      · obtain ⟨a, b, rfl, _⟩ := hl
        exact absurd rfl (h3 (.method (Member.operator t).type) (by simp) _)

/-- A method and a getter of its type are fine; with another method between them the getter's value is converted to that one's type. -/
example :
    let str : Types.Ty := .named (w "String") .class
    let int : Types.Ty := .named (w "Int32") .struct
    LastMethod [.method int] int ∧ (∀ p ∈ returnCasts none [.method int, .getter int, .operator int], p.2 = some p.1.type) ∧
    ¬ (∀ p ∈ returnCasts none [.method int, .method str, .getter int], p.2 = some p.1.type) ∧
    ¬ (∀ p ∈ returnCasts none [.getter int, .method int], p.2 = some p.1.type) :=
  ⟨⟨[], [], rfl, by simp⟩, by decide +kernel, by decide +kernel, by decide +kernel⟩

end Verif.Names
