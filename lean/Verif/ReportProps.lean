import Verif.ReportModel
import Verif.TypesProps
/-!
# C114: every use of an unsupported library type or member is reported
-/
namespace Verif.Report
open Verif.Types Verif.TypesProps

/-! ### Specification -/

/-- The name a member is known by in the table: `Type.Method(P1,P2,...)`. -/
def member (name : WStr) (params : List (WStr × Bool)) : WStr := name ++ w "(" ++ joined (params.map (·.1)) ++ w ")"

mutual
/-- The library types and members the C++ text of an instruction refers to. -/
def mentions : Inst → List WStr
  | .other args => mentionsAll args
  | .call ctor name params args => member name params :: params.map (·.1) ++ if ctor then [] else mentionsAll args
  | .newobj name params args => member name params :: params.map (·.1) ++ mentionsAll args
  | .cast t a => t :: mentions a
  | .box t a => t :: mentions a
  | .unbox t a => t :: mentions a
  | .newarr t args => t :: mentionsAll args
  | .elema t a args => t :: mentions a ++ mentionsAll args
  | .sfield t f => [t, f]
  | .dflt t => [t]
  | .userAssign name params a b => member name params :: params.map (·.1) ++ (mentions a ++ mentions b)
  | .stloc t a => t :: mentions a
def mentionsAll : Insts → List WStr
  | .nil => []
  | .cons a t => mentions a ++ mentionsAll t
end

mutual
/-- No object or array creation, boxing, static field, default value or overloaded compound assignment. -/
def Checked : Inst → Prop
  | .other args => CheckedAll args
  | .call ctor _ _ args => ctor = true ∨ CheckedAll args
  | .newobj _ _ _ => False
  | .cast _ a => Checked a
  | .box _ _ => False
  | .unbox _ _ => False
  | .newarr _ _ => False
  | .elema _ a args => Checked a ∧ CheckedAll args
  | .sfield _ _ => False
  | .dflt _ => False
  | .userAssign _ _ _ _ => False
  | .stloc _ a => Checked a
def CheckedAll : Insts → Prop
  | .nil => True
  | .cons a t => Checked a ∧ CheckedAll t
end

/-! ### C114 -/

theorem casts_mem : ∀ (ps : List (WStr × Bool)) (t : WStr), t ∈ casts ps → t ∈ ps.map (·.1)
  | [], _, h => by cases h
  | (a, true) :: l, t, h => by
    rw [casts, List.mem_cons] at h
    rcases h with h | h
    · simp [h]
    · have := casts_mem l t h
      simp only [List.map_cons, List.mem_cons]; exact Or.inr this
  | (a, false) :: l, t, h => by
    rw [casts] at h
    have := casts_mem l t h
    simp only [List.map_cons, List.mem_cons]; exact Or.inr this

theorem signature_member (name : WStr) (ps : List (WStr × Bool)) : signature name (ps.map (·.1)) = member name ps := by
  unfold signature member
  rw [paramText_eq]
  rfl

mutual
/-- Nothing is reported that the text does not refer to. -/
theorem validated_sub (e : Inst) (t : WStr) (h : t ∈ validated e) : t ∈ mentions e := by
  match e with
  | .other args => rw [validated] at h; rw [mentions]; exact validatedAll_sub args t h
  | .call ctor name ps args =>
    rw [validated, signature_member] at h
    rw [mentions]
    have hc := casts_mem ps t
    have ha := validatedAll_sub args t
    cases ctor
    · simp only [List.mem_append, List.mem_cons, List.not_mem_nil, or_false, Bool.false_eq_true, if_false] at h ⊢
      rcases h with (h | h) | h | h
      · exact Or.inl (Or.inr h)
      · exact Or.inl (Or.inl h)
      · exact Or.inl (Or.inr (hc h))
      · exact Or.inr (ha h)
    · simp only [List.mem_append, List.mem_cons, List.not_mem_nil, or_false, if_true] at h ⊢
      rcases h with h | h
      · exact Or.inr h
      · exact Or.inl h
  | .newobj name ps args =>
    rw [validated, List.mem_append] at h
    rw [mentions]
    simp only [List.mem_append, List.mem_cons]
    rcases h with h | h
    · exact Or.inl (Or.inr (casts_mem ps t h))
    · exact Or.inr (validatedAll_sub args t h)
  | .cast u a =>
    rw [validated, List.mem_cons] at h
    rw [mentions, List.mem_cons]
    exact h.imp_right (validated_sub a t)
  | .box u a => rw [validated] at h; rw [mentions, List.mem_cons]; exact Or.inr (validated_sub a t h)
  | .unbox u a => rw [validated] at h; rw [mentions, List.mem_cons]; exact Or.inr (validated_sub a t h)
  | .newarr u args => rw [validated] at h; rw [mentions, List.mem_cons]; exact Or.inr (validatedAll_sub args t h)
  | .elema u a args =>
    rw [validated] at h
    rw [mentions]
    simp only [List.mem_append, List.mem_cons] at h ⊢
    rcases h with (h | h) | h
    · exact Or.inl (Or.inl h)
    · exact Or.inl (Or.inr (validated_sub a t h))
    · exact Or.inr (validatedAll_sub args t h)
  | .sfield _ _ => rw [validated] at h; cases h
  | .dflt _ => rw [validated] at h; cases h
  | .userAssign name ps a b =>
    rw [validated, List.mem_append] at h
    rw [mentions]
    simp only [List.mem_append, List.mem_cons]
    exact Or.inr (h.imp (validated_sub a t) (validated_sub b t))
  | .stloc u a =>
    rw [validated, List.mem_cons] at h
    rw [mentions, List.mem_cons]
    exact h.imp_right (validated_sub a t)
theorem validatedAll_sub (e : Insts) (t : WStr) (h : t ∈ validatedAll e) : t ∈ mentionsAll e := by
  match e with
  | .nil => rw [validatedAll] at h; cases h
  | .cons a u =>
    rw [validatedAll, List.mem_append] at h
    rw [mentionsAll, List.mem_append]
    exact h.imp (validated_sub a t) (validatedAll_sub u t)
end

mutual
theorem mentions_sub (e : Inst) (he : Checked e) (t : WStr) (h : t ∈ mentions e) : t ∈ validated e := by
  match e with
  | .other args => rw [mentions] at h; rw [validated]; rw [Checked] at he; exact mentionsAll_sub args he t h
  | .call ctor name ps args =>
    rw [mentions] at h
    rw [validated, signature_member]
    rw [Checked] at he
    cases ctor
    · simp only [Bool.false_eq_true, false_or] at he
      have ha := mentionsAll_sub args he t
      simp only [List.mem_append, List.mem_cons, List.not_mem_nil, or_false, Bool.false_eq_true, if_false] at h ⊢
      rcases h with (h | h) | h
      · exact Or.inl (Or.inr h)
      · exact Or.inl (Or.inl h)
      · exact Or.inr (Or.inr (ha h))
    · simp only [List.mem_append, List.mem_cons, List.not_mem_nil, or_false, if_true] at h ⊢
      rcases h with h | h
      · exact Or.inr h
      · exact Or.inl h
  | .newobj _ _ _ => rw [Checked] at he; exact he.elim
  | .cast u a =>
    rw [mentions, List.mem_cons] at h
    rw [validated, List.mem_cons]
    rw [Checked] at he
    exact h.imp_right (mentions_sub a he t)
  | .box _ _ => rw [Checked] at he; exact he.elim
  | .unbox _ _ => rw [Checked] at he; exact he.elim
  | .newarr _ _ => rw [Checked] at he; exact he.elim
  | .elema u a args =>
    rw [mentions] at h
    rw [validated]
    rw [Checked] at he
    simp only [List.mem_append, List.mem_cons] at h ⊢
    rcases h with (h | h) | h
    · exact Or.inl (Or.inl h)
    · exact Or.inl (Or.inr (mentions_sub a he.1 t h))
    · exact Or.inr (mentionsAll_sub args he.2 t h)
  | .sfield _ _ => rw [Checked] at he; exact he.elim
  | .dflt _ => rw [Checked] at he; exact he.elim
  | .userAssign _ _ _ _ => rw [Checked] at he; exact he.elim
  | .stloc u a =>
    rw [mentions, List.mem_cons] at h
    rw [validated, List.mem_cons]
    rw [Checked] at he
    exact h.imp_right (mentions_sub a he t)
theorem mentionsAll_sub (e : Insts) (he : CheckedAll e) (t : WStr) (h : t ∈ mentionsAll e) : t ∈ validatedAll e := by
  match e with
  | .nil => rw [mentionsAll] at h; cases h
  | .cons a u =>
    rw [mentionsAll, List.mem_append] at h
    rw [validatedAll, List.mem_append]
    rw [CheckedAll] at he
    exact h.imp (mentions_sub a he.1 t) (mentionsAll_sub u he.2 t)
end

/-- **C114**: no false reports: whatever is reported is unsupported and is referred to by the translated instruction, and is reported once. -/
theorem C114_no_false_report (table : List WStr) (e : Inst) :
    (log table e).Nodup ∧ ∀ t ∈ log table e, t ∈ (mentions e).map plain ∧ Unsupported table t := by
  have h := C57_reported_once table (validated e)
  refine ⟨h.1, fun t ht => ?_⟩
  obtain ⟨h1, h2⟩ := (h.2 t).1 ht
  rw [List.mem_map] at h1
  obtain ⟨u, h3, h4⟩ := h1
  exact ⟨List.mem_map.2 ⟨u, validated_sub e u h3, h4⟩, h2⟩

/-- **C114** (partial: no object or array creation, boxing, static field, default value or overloaded compound assignment). Every unsupported library type or
member the translated instruction refers to is reported. Missing: those kinds of instruction, which are not checked (`C114_unchecked_refuted`). -/
theorem C114_reported_partial (table : List WStr) (e : Inst) (he : Checked e) :
    ∀ t, t ∈ log table e ↔ t ∈ (mentions e).map plain ∧ Unsupported table t := by
  intro t
  refine ⟨(C114_no_false_report table e).2 t, fun ⟨h1, h2⟩ => ?_⟩
  rw [List.mem_map] at h1
  obtain ⟨u, h3, h4⟩ := h1
  exact ((C57_reported_once table (validated e)).2 t).2 ⟨List.mem_map.2 ⟨u, mentions_sub e he u h3, h4⟩, h2⟩

/-- `object o = (Foo)System.A.F(System.B)` with nothing supported. -/
example : let e : Inst := .stloc (w "System.Object") (.cast (w "My.Foo") (.call false (w "System.A.F") [(w "System.B", false)] (.cons (.other .nil) .nil)))
    Checked e ∧ log [w "System.Object"] e = [w "System.B", w "System.A.F(System.B)"] := by
  exact ⟨by simp [Checked, CheckedAll], by decide +kernel⟩

/-- **C114** is false of the code for the creation of objects and arrays, boxing, unboxing, static fields, default values and compound assignments through a
user-defined operator: whatever the table, an unsupported type or member is not reported. -/
theorem C114_unchecked_refuted (table : List WStr) :
    log table (.newobj (w "System.Random..ctor") [] .nil) = [] ∧ log table (.newarr (w "System.Guid") .nil) = [] ∧
    log table (.box (w "System.Guid") (.other .nil)) = [] ∧ log table (.unbox (w "System.Guid") (.other .nil)) = [] ∧
    log table (.sfield (w "System.Guid") (w "System.Guid.Empty")) = [] ∧ log table (.dflt (w "System.Guid")) = [] ∧
    log table (.userAssign (w "System.Decimal.op_Addition") [(w "System.Decimal", false), (w "System.Decimal", false)] (.other .nil) (.other .nil)) = [] ∧
    Unsupported [] (w "System.Guid") := by
  refine ⟨rfl, rfl, rfl, rfl, rfl, rfl, rfl, ?_⟩
  refine ⟨?_, by simp⟩
  exact ⟨w "Guid", by decide +kernel⟩

end Verif.Report
