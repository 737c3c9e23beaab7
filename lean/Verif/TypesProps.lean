import Verif.TypesModel
/-!
# C57, C82: reporting unsupported library types
-/
namespace Verif.TypesProps
open Verif.Types

/-- Specification: a reference is unsupported by `table` when, without its reference characters, it names something in `System.`
that the table does not list. -/
def Unsupported (table : List WStr) (t : WStr) : Prop := (∃ r, t = w "System." ++ r) ∧ t ∉ table

/-- Specification: the name a reference is checked under: the text without "&". -/
def plain : WStr → WStr
  | [] => []
  | c :: r => if c = 38 then plain r else c :: plain r

theorem strip_eq (t : WStr) : strip t = plain t := by
  induction t with
  | nil => rfl
  | cons c r ih =>
    unfold strip at *
    by_cases h : c = 38
    · rw [plain, if_pos h, List.filter_cons_of_neg (by simp [h])]; exact ih
    · rw [plain, if_neg h, List.filter_cons_of_pos (by simp [h]), ih]

theorem prefix_iff (t : WStr) : (w "System.").isPrefixOf t = true ↔ ∃ r, t = w "System." ++ r := by
  rw [List.isPrefixOf_iff_prefix]
  constructor
  · rintro ⟨r, e⟩; exact ⟨r, e.symm⟩
  · rintro ⟨r, e⟩; exact ⟨r, e.symm⟩

/-- Invariant of a run that started with the table `T` and no errors. -/
def Inv (T : List WStr) (seen : List WStr) (s : St) : Prop :=
  s.legal = T ++ s.errors ∧ s.errors.Nodup ∧ ∀ t, t ∈ s.errors ↔ t ∈ seen.map plain ∧ Unsupported T t

theorem inv_validate {T seen : List WStr} {s : St} (h : Inv T seen s) (t : WStr) : Inv T (seen ++ [t]) (validate s t) := by
  obtain ⟨h1, h2, h3⟩ := h
  unfold validate
  simp only [strip_eq]
  by_cases hp : (w "System.").isPrefixOf (plain t) = true
  · rw [if_neg (by simp [hp])]
    rw [prefix_iff] at hp
    by_cases hl : plain t ∈ s.legal
    · rw [if_pos hl]
      refine ⟨h1, h2, fun u => ?_⟩
      rw [h3, List.map_append, List.mem_append]
      constructor
      · rintro ⟨a, b⟩; exact ⟨.inl a, b⟩
      · rintro ⟨a | a, b⟩
        · exact ⟨a, b⟩
        · simp only [List.map_cons, List.map_nil, List.mem_singleton] at a
          subst a
          rw [h1, List.mem_append] at hl
          rcases hl with hl | hl
          · exact absurd hl b.2
          · exact (h3 _).1 hl
    · rw [if_neg hl]
      have hT : plain t ∉ T := fun h => hl (by rw [h1]; simp [h])
      have hE : plain t ∉ s.errors := fun h => hl (by rw [h1]; simp [h])
      refine ⟨by simp [h1], ?_, fun u => ?_⟩
      · rw [List.nodup_append]
        refine ⟨h2, by simp, ?_⟩
        intro a ha b hb e
        simp only [List.mem_singleton] at hb
        subst hb; subst e; exact hE ha
      · rw [List.mem_append, h3, List.map_append, List.mem_append]
        simp only [List.map_cons, List.map_nil, List.mem_singleton]
        constructor
        · rintro (⟨a, b⟩ | a)
          · exact ⟨.inl a, b⟩
          · subst a; exact ⟨.inr rfl, hp, hT⟩
        · rintro ⟨a | a, b⟩
          · exact .inl ⟨a, b⟩
          · exact .inr a
  · rw [if_pos (by simpa using hp)]
    refine ⟨h1, h2, fun u => ?_⟩
    rw [h3, List.map_append, List.mem_append]
    constructor
    · rintro ⟨a, b⟩; exact ⟨.inl a, b⟩
    · rintro ⟨a | a, b⟩
      · exact ⟨a, b⟩
      · simp only [List.map_cons, List.map_nil, List.mem_singleton] at a
        subst a
        exact absurd ((prefix_iff _).2 b.1) hp

theorem inv_fold {T : List WStr} (ts : List WStr) : ∀ {seen : List WStr} {s : St}, Inv T seen s → Inv T (seen ++ ts) (ts.foldl validate s) := by
  induction ts with
  | nil => intro seen s h; simpa using h
  | cons t ts ih =>
    intro seen s h
    have := ih (inv_validate h t)
    simpa using this

/-- **C57**: after any sequence of references to types and methods, the log names every unsupported one exactly once and nothing
else. -/
theorem C57_reported_once (table refs : List WStr) :
    let log := (refs.foldl validate { legal := table, errors := [] }).errors
    log.Nodup ∧ ∀ t, t ∈ log ↔ t ∈ refs.map plain ∧ Unsupported table t := by
  have h : Inv table [] { legal := table, errors := [] } := ⟨by simp, by simp, by simp⟩
  have := inv_fold refs h
  simp only [List.nil_append] at this
  exact ⟨this.2.1, this.2.2⟩

/-- A repeated unsupported type (once by reference), a supported one, a user type. -/
example : ([w "System.Foo&", w "My.Type", w "System.Int32", w "System.Foo"].foldl validate { legal := [w "System.Int32"], errors := [] }).errors =
    [w "System.Foo"] := by decide +kernel

/-- **C57**: the order of the log is the order of first use: validating one more reference only appends to it. -/
theorem C57_log_grows (s : St) (t : WStr) : (validate s t).errors = s.errors ∨ (validate s t).errors = s.errors ++ [plain t] := by
  unfold validate
  simp only [strip_eq]
  split
  · exact .inl rfl
  · split
    · exact .inl rfl
    · exact .inr rfl

/-- Specification: the text of a parameter list. -/
def joined (ps : List WStr) : WStr := (List.intersperse [44] ps).flatten

theorem paramText_eq (ps : List WStr) : paramText ps = joined ps := by
  unfold joined
  induction ps with
  | nil => rfl
  | cons p ps ih =>
    cases ps with
    | nil => simp [paramText]
    | cons q r => rw [paramText, ih]; simp [List.intersperse]

/-- **C57** for calls: a call of a method is checked under its signature `Type.Method(P1,P2,...)`, and each of its parameter types
under its own name: afterwards the log holds exactly the unsupported ones among them. -/
theorem C57_call (table : List WStr) (name : WStr) (params : List WStr) :
    let log := (validateCall { legal := table, errors := [] } name params).errors
    log.Nodup ∧ ∀ t, t ∈ log ↔ (t = plain (name ++ w "(" ++ joined params ++ w ")") ∨ ∃ p ∈ params, t = plain p) ∧ Unsupported table t := by
  have h : Inv table [] { legal := table, errors := [] } := ⟨by simp, by simp, by simp⟩
  have h2 := inv_validate (inv_fold params h) (signature name params)
  refine ⟨h2.2.1, fun t => ?_⟩
  show t ∈ (validateCall _ name params).errors ↔ _
  unfold validateCall
  rw [h2.2.2 t]
  have e : signature name params = name ++ w "(" ++ joined params ++ w ")" := by
    unfold signature; rw [paramText_eq]; rfl
  rw [e]
  simp only [List.nil_append, List.map_append, List.map_cons, List.map_nil, List.mem_append, List.mem_map, List.mem_singleton]
  constructor
  · rintro ⟨⟨p, hp, e⟩ | e, u⟩
    · exact ⟨.inr ⟨p, hp, e.symm⟩, u⟩
    · exact ⟨.inl e, u⟩
  · rintro ⟨e | ⟨p, hp, e⟩, u⟩
    · exact ⟨.inr e, u⟩
    · exact ⟨.inl ⟨p, hp, e.symm⟩, u⟩

/-! ## The table -/

/-- **C82**: loading a table without duplicate rows makes exactly its rows legal. -/
theorem load_nodup (rows : List WStr) : ∀ (legal : List WStr), rows.Nodup → (∀ r ∈ rows, r ∉ legal) → load legal rows = (legal ++ rows, false) := by
  induction rows with
  | nil => intro legal _ _; simp [load]
  | cons r rs ih =>
    intro legal hn hd
    rw [List.nodup_cons] at hn
    rw [load, if_neg (hd r (by simp)), ih (legal ++ [r]) hn.2]
    · simp
    · intro x hx
      rw [List.mem_append, List.mem_singleton]
      rintro (h | h)
      · exact hd x (by simp [hx]) h
      · subst h; exact hn.1 hx

theorem C82_load_partial (rows : List WStr) (h : rows.Nodup) : load [] rows = (rows, false) := by
  rw [load_nodup rows [] h (by simp)]; simp

/-- **C82** refuted for tables with a repeated row: everything after the repetition is dropped. -/
theorem C82_duplicate_refuted : load [] [w "System.A", w "System.A", w "System.B"] = ([w "System.A"], true) := by decide +kernel

end Verif.TypesProps
