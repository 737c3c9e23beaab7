import Verif.NamesModel
import Verif.FmtTextProps
/-!
# C87-C90: names at declaration and use, enumerators, output path, casts of returned values
-/
namespace Verif.Names
open Fmt FmtTextProps

/-- The name starts with a lower-case letter and is not `this` (such names are prefixed where `AppendName` is used), or it is `Void`. -/
def Changed (ci : CharInfo) (n : WStr) : Prop := ((∃ c r, n = c :: r ∧ ci.isLower c = true) ∧ n ≠ w "this") ∨ n = w "Void"

theorem nameText_same (ci : CharInfo) (n : WStr) (hn : n ≠ []) : nameText ci n = .ok n ↔ ¬ Changed ci n := by
  cases n with
  | nil => exact absurd rfl hn
  | cons c r =>
    rw [nameText_cases, Res.ok.injEq]
    unfold Changed
    by_cases h : ci.isLower c = true ∧ c :: r ≠ w "this"
    · rw [if_pos h]
      constructor
      · intro e
        have := congrArg List.length e
        rw [List.length_append] at this
        have hx : (w "x_").length = 2 := rfl
        omega
      · intro hc; exact absurd (.inl ⟨⟨c, r, rfl, h.1⟩, h.2⟩) hc
    · rw [if_neg h]
      by_cases hv : c :: r = w "Void"
      · rw [if_pos hv]
        constructor
        · intro e; rw [hv] at e; exact absurd e (by decide +kernel)
        · intro hc; exact absurd (.inr hv) hc
      · rw [if_neg hv]
        refine ⟨fun _ => ?_, fun _ => rfl⟩
        rintro (⟨⟨c', r', e, hl⟩, ht⟩ | hv')
        · cases e; exact h ⟨hl, ht⟩
        · exact hv hv'

/-- C87: a call names the method the way it is declared exactly when the method's name does not start with a lower-case letter (and is not `Void`, a
constructor or `op_Equality`). -/
theorem C87_method_partial (ci : CharInfo) (n : WStr) (hn : n ≠ []) (h1 : n ≠ w ".ctor") (h2 : n ≠ w "op_Equality") :
    methodDecl ci n = .ok (methodUse n) ↔ ¬ Changed ci n := by
  unfold methodDecl methodUse getMethodName
  rw [if_neg h1, if_neg h2]
  exact nameText_same ci n hn

/-- C87 is false for a method called `run`: it is declared `x_run` and called `run`. -/
theorem C87_method_refuted (ci : CharInfo) : methodDecl ci (w "run") = .ok (w "x_run") ∧ methodUse (w "run") = w "run" := by
  constructor
  · show nameText ci (114 :: w "un") = _
    rw [nameText_cases, if_pos ⟨by rw [ci.ascii 114 (by omega)]; rfl, by decide +kernel⟩]
    decide +kernel
  · decide +kernel

/-- C87: an object is created with the class name of the definition exactly when the name does not start with a lower-case letter and is not `Void`. -/
theorem C87_class_partial (ci : CharInfo) (n : WStr) (hn : n ≠ []) : classDecl ci n = .ok (classNew n) ↔ ¬ Changed ci n :=
  nameText_same ci n hn

/-- C87 is false for a class called `node`: it is defined as `x_node` but created with `new node(...)`. -/
theorem C87_class_refuted (ci : CharInfo) : classDecl ci (w "node") = .ok (w "x_node") ∧ classNew (w "node") = w "node" := by
  constructor
  · show nameText ci (110 :: w "ode") = _
    rw [nameText_cases, if_pos ⟨by rw [ci.ascii 110 (by omega)]; rfl, by decide +kernel⟩]
    decide +kernel
  · rfl

/-- C87: every field whose name does not start with `<` is used under the name it is declared with. -/
theorem C87_field (ci : CharInfo) (n : WStr) (h : n.head? ≠ some 60) : fieldUse ci n = fieldDecl ci n := by
  unfold fieldUse fieldDecl replaceSpecial
  rw [if_neg h]

theorem backing_text (name : WStr) (h : 60 ∉ name ∧ 62 ∉ name) : replaceSpecial (backingField name) = name ++ w "k__BackingField" := by
  unfold replaceSpecial backingField
  rw [if_pos (by rfl)]
  have e : ∀ l : WStr, 60 ∉ l → 62 ∉ l → l.filter (fun c => c ≠ 60 && c ≠ 62) = l := by
    intro l h1 h2
    rw [List.filter_eq_self]
    intro c hc
    have a : c ≠ 60 := fun e => h1 (e ▸ hc)
    have b : c ≠ 62 := fun e => h2 (e ▸ hc)
    simp [a, b]
  have ek : w "k__BackingField" = (w "k__BackingField").filter (fun c => c ≠ 60 && c ≠ 62) := by decide +kernel
  have e0 : ([60] : WStr).filter (fun c => c ≠ 60 && c ≠ 62) = [] := by decide +kernel
  have e1 : ([62] : WStr).filter (fun c => c ≠ 60 && c ≠ 62) = [] := by decide +kernel
  rw [List.filter_append, List.filter_append, List.filter_append, e name h.1 h.2, ← ek, e0, e1, List.append_nil, List.nil_append]

/-- C87: the backing field of an automatic property is used under the name it is declared with exactly when the property's name does not start with a
lower-case letter. -/
theorem C87_backing_partial (ci : CharInfo) (c : Nat) (r : WStr) (h : 60 ∉ c :: r ∧ 62 ∉ c :: r) :
    fieldUse ci (backingField (c :: r)) = .ok (backingDecl (c :: r)) ↔ ci.isLower c = false := by
  unfold fieldUse backingDecl
  rw [backing_text _ h, nameText_same ci _ (by simp)]
  unfold Changed
  have hlen : ∀ t : WStr, t.length < 15 → c :: r ++ w "k__BackingField" ≠ t := by
    intro t ht e
    have := congrArg List.length e
    rw [List.length_append] at this
    have h15 : (w "k__BackingField").length = 15 := by decide +kernel
    omega
  constructor
  · intro hn
    cases hc : ci.isLower c with
    | false => rfl
    | true => exact absurd (.inl ⟨⟨c, _, rfl, hc⟩, hlen _ (by decide +kernel)⟩) hn
  · rintro hl (⟨⟨c', r', e, hl'⟩, _⟩ | e)
    · cases e; rw [hl] at hl'; cases hl'
    · exact hlen _ (by decide +kernel) e

/-- C87: accessors are called under the names they are declared with, for every property. -/
theorem C87_accessor (n : WStr) : getterUse n = getterDecl n := by
  unfold getterUse getterDecl methodUse getMethodName
  rw [if_neg, if_neg]
  · intro e
    have := congrArg (fun l => l.head?) e
    revert this; simp [w]
  · intro e
    have := congrArg (fun l => l.head?) e
    revert this; simp [w]

example : ¬ Changed asciiInfo (w "Run") ∧ methodDecl asciiInfo (w "Run") = .ok (methodUse (w "Run")) := by
  refine ⟨?_, by decide +kernel⟩
  rw [← nameText_same asciiInfo (w "Run") (by decide +kernel)]
  decide +kernel
example : backingDecl (w "Size") = w "Sizek__BackingField" ∧ fieldUse asciiInfo (backingField (w "size")) = .ok (w "x_sizek__BackingField") := by
  decide +kernel

/-! ## C88: enumerators -/

theorem prefixName_inj (ci : CharInfo) (m n t : WStr) (em : prefixName ci m = .ok t) (en : prefixName ci n = .ok t) : m = n := by
  apply C53_injective ci m n (if t = w "Void" then w "void" else t)
  · unfold nameText; rw [em, Res.bind_ok]
  · unfold nameText; rw [en, Res.bind_ok]

theorem split_last (a b x y : WStr) (hx : 95 ∉ x) (hy : 95 ∉ y) (h : a ++ [95] ++ x = b ++ [95] ++ y) : a = b ∧ x = y := by
  induction a generalizing b with
  | nil =>
    cases b with
    | nil => simp at h; exact ⟨rfl, h⟩
    | cons c b =>
      exfalso
      simp only [List.nil_append, List.cons_append, List.cons.injEq, List.append_assoc] at h
      exact hx (h.2 ▸ by simp)
  | cons c a ih =>
    cases b with
    | nil =>
      exfalso
      simp only [List.nil_append, List.cons_append, List.cons.injEq, List.append_assoc] at h
      exact hy (h.2 ▸ by simp)
    | cons d b =>
      simp only [List.cons_append, List.cons.injEq] at h
      obtain ⟨e1, e2⟩ := ih b h.2
      exact ⟨by rw [h.1, e1], e2⟩

/-- C88: when enum names contain no underscore, distinct members (of the same or of different enums) get distinct enumerator names. -/
theorem C88_distinct_partial (ci : CharInfo) (m n e f t : WStr) (he : 95 ∉ e) (hf : 95 ∉ f)
    (h1 : enumerator ci m e = .ok t) (h2 : enumerator ci n f = .ok t) : m = n ∧ e = f := by
  unfold enumerator at h1 h2
  obtain ⟨a, ha, h1⟩ := (Res.bind_eq_ok _ _ _).mp h1
  obtain ⟨b, hb, h2⟩ := (Res.bind_eq_ok _ _ _).mp h2
  rw [Res.ok.injEq] at h1 h2
  obtain ⟨e1, e2⟩ := split_last a b e f he hf (h1.trans h2.symm)
  subst e1
  exact ⟨prefixName_inj ci m n a ha hb, e2⟩

/-- C88: within one enum distinct members get distinct enumerator names whatever the enum is called. -/
theorem C88_same_enum (ci : CharInfo) (m n e t : WStr) (h1 : enumerator ci m e = .ok t) (h2 : enumerator ci n e = .ok t) : m = n := by
  unfold enumerator at h1 h2
  obtain ⟨a, ha, h1⟩ := (Res.bind_eq_ok _ _ _).mp h1
  obtain ⟨b, hb, h2⟩ := (Res.bind_eq_ok _ _ _).mp h2
  rw [Res.ok.injEq] at h1 h2
  have e1 := List.append_cancel_right (List.append_cancel_right (h1.trans h2.symm))
  subst e1
  exact prefixName_inj ci m n a ha hb

/-- C88 is false with underscores: member `Get` of enum `Op_Kind` and member `Get_Op` of enum `Kind` are both written `Get_Op_Kind`. -/
theorem C88_collision_refuted (ci : CharInfo) : enumerator ci (w "Get") (w "Op_Kind") = .ok (w "Get_Op_Kind") ∧
    enumerator ci (w "Get_Op") (w "Kind") = .ok (w "Get_Op_Kind") := by
  have h : ci.isLower 71 = false := by rw [ci.ascii 71 (by omega)]; rfl
  have p : ∀ r : WStr, prefixName ci (71 :: r) = .ok (71 :: r) := by
    intro r; unfold prefixName; simp only []; rw [if_neg (by rw [h]; simp)]
  constructor
  · show (prefixName ci (71 :: w "et") >>= _) = _
    rw [p, Res.bind_ok]; decide +kernel
  · show (prefixName ci (71 :: w "et_Op") >>= _) = _
    rw [p, Res.bind_ok]; decide +kernel

example : enumerator asciiInfo (w "red") (w "Color") = .ok (w "x_red_Color") := by decide +kernel

/-! ## C89: the output directory -/

/-- Specification: `arg` is the file `file` in directory `dir` (which ends in a separator or is empty), `sep` telling which characters separate. -/
def InDir (sep : Nat → Bool) (arg dir file : WStr) : Prop :=
  arg = dir ++ file ∧ (∀ c ∈ file, sep c = false) ∧ (dir = [] ∨ ∃ d s, dir = d ++ [s] ∧ sep s = true)

theorem afterLast_le (c : Nat) (t : WStr) : afterLast c t ≤ t.length := by
  induction t with
  | nil => exact Nat.le_refl _
  | cons x xs ih => unfold afterLast; rw [List.length_cons]; split <;> (try split) <;> omega

theorem afterLast_drop (c : Nat) (t : WStr) : c ∉ t.drop (afterLast c t) := by
  induction t with
  | nil => simp [afterLast]
  | cons x xs ih =>
    unfold afterLast
    split
    · exact ih
    · next h =>
      split
      · exact h
      · next hx =>
              rw [List.drop_zero, List.mem_cons]
              rintro (e | e)
              · exact hx e.symm
              · exact h e

theorem afterLast_take (c : Nat) (t : WStr) (h : c ∈ t) : ∃ d, t.take (afterLast c t) = d ++ [c] := by
  induction t with
  | nil => cases h
  | cons x xs ih =>
    unfold afterLast
    split
    · next hm =>
      obtain ⟨d, e⟩ := ih hm
      exact ⟨x :: d, by rw [List.take_succ_cons, e]; rfl⟩
    · next hm =>
      rcases List.mem_cons.mp h with rfl | h
      · rw [if_pos rfl]; exact ⟨[], rfl⟩
      · exact absurd h hm

/-- C89 on a system whose only separator is `/`: the output goes to `generated/` in the directory of the input file, provided the argument contains a `/`
or no backslash. -/
theorem C89_posix_partial (arg : WStr) (h : 47 ∈ arg ∨ 92 ∉ arg) :
    ∃ file, InDir (fun c => c = 47) arg (directory arg) file := by
  unfold directory
  by_cases h47 : 47 ∈ arg
  · rw [if_pos h47]
    refine ⟨arg.drop (afterLast 47 arg), (List.take_append_drop _ _).symm, ?_, .inr ?_⟩
    · intro c hc; rw [decide_eq_false_iff_not]; rintro rfl; exact afterLast_drop 47 arg hc
    · obtain ⟨d, e⟩ := afterLast_take 47 arg h47
      exact ⟨d, 47, e, rfl⟩
  · rw [if_neg h47]
    have h92 : 92 ∉ arg := h.resolve_left h47
    have hz : afterLast 92 arg = 0 := by
      cases arg with
      | nil => rfl
      | cons x xs =>
        unfold afterLast
        rw [if_neg (fun hm => h92 (List.mem_cons_of_mem _ hm)), if_neg (fun e => h92 (by rw [e]; exact List.mem_cons_self))]
    refine ⟨arg, by rw [hz]; rfl, ?_, .inl (by rw [hz]; rfl)⟩
    intro c hc; rw [decide_eq_false_iff_not]; rintro rfl; exact h47 hc

/-- C89 on a system where both `/` and `\\` separate: the same, provided the argument does not mix them after its last `/`. -/
theorem C89_windows_partial (arg : WStr) (h : 47 ∈ arg → 92 ∉ arg.drop (afterLast 47 arg)) :
    ∃ file, InDir (fun c => c = 47 ∨ c = 92) arg (directory arg) file := by
  unfold directory
  by_cases h47 : 47 ∈ arg
  · rw [if_pos h47]
    refine ⟨arg.drop (afterLast 47 arg), (List.take_append_drop _ _).symm, ?_, .inr ?_⟩
    · intro c hc; rw [decide_eq_false_iff_not]; rintro (rfl | rfl)
      · exact afterLast_drop 47 arg hc
      · exact h h47 hc
    · obtain ⟨d, e⟩ := afterLast_take 47 arg h47
      exact ⟨d, 47, e, by decide⟩
  · rw [if_neg h47]
    refine ⟨arg.drop (afterLast 92 arg), (List.take_append_drop _ _).symm, ?_, ?_⟩
    · intro c hc; rw [decide_eq_false_iff_not]; rintro (rfl | rfl)
      · exact h47 (List.mem_of_mem_drop hc)
      · exact afterLast_drop 92 arg hc
    · by_cases h92 : 92 ∈ arg
      · obtain ⟨d, e⟩ := afterLast_take 92 arg h92
        exact .inr ⟨d, 92, e, by decide⟩
      · left
        cases arg with
        | nil => rfl
        | cons x xs =>
          unfold afterLast
          rw [if_neg (fun hm => h92 (List.mem_cons_of_mem _ hm)), if_neg (fun e => h92 (by rw [e]; exact List.mem_cons_self))]
          rfl

/-- C89 is false for mixed separators on Windows: the output of `C:/src\app.dll` goes to `C:/generated`, not next to the file. -/
theorem C89_mixed_refuted : directory (w "C:/src\\app.dll") = w "C:/" ∧ (outputs (w "C:/src\\app.dll")).head? = some (w "C:/generated/TranslatedProtos.h") ∧
    ¬ ∃ file, InDir (fun c => c = 47 ∨ c = 92) (w "C:/src\\app.dll") (directory (w "C:/src\\app.dll")) file := by
  have e : directory (w "C:/src\\app.dll") = w "C:/" := by decide +kernel
  refine ⟨e, by decide +kernel, ?_⟩
  rintro ⟨file, h1, h2, _⟩
  rw [e] at h1
  have e2 : w "C:/src\\app.dll" = w "C:/" ++ w "src\\app.dll" := by decide +kernel
  rw [e2] at h1
  have := List.append_cancel_left h1
  rw [← this] at h2
  exact absurd (h2 92 (by decide +kernel)) (by decide)

example : directory (w "/home/me/app.dll") = w "/home/me/" ∧ directory (w "app.dll") = [] ∧ directory (w "C:\\src\\app.dll") = w "C:\\src\\" := by
  decide +kernel

/-- C89: the three output files of one run are distinct. -/
theorem C89_distinct_outputs (arg : WStr) : (outputs arg).Nodup := by
  unfold outputs
  generalize directory arg ++ w "generated/Translated" = p
  have e1 : w "Protos.h" ≠ w "Header.h" := by decide +kernel
  have e2 : w "Protos.h" ≠ w ".cpp" := by decide +kernel
  have e3 : w "Header.h" ≠ w ".cpp" := by decide +kernel
  simp only [List.nodup_cons, List.mem_cons, List.not_mem_nil, or_false, List.append_right_inj, not_or, not_false_eq_true, List.nodup_nil, and_true]
  exact ⟨⟨e1, e2⟩, e3⟩

/-! ## C90: the cast before a returned value -/

/-- C90: in methods the cast is to the method's return type, whatever was translated before. -/
theorem C90_methods (ms : List Member) (cur : Option Types.Ty) :
    ∀ p ∈ returnCasts cur ms, ∀ t, p.1 = .method t → p.2 = some t := by
  induction ms generalizing cur with
  | nil => intro p hp; cases hp
  | cons m ms ih =>
    intro p hp t ht
    unfold returnCasts at hp
    rcases List.mem_cons.mp hp with rfl | hp
    · simp only at ht; subst ht; rfl
    · exact ih _ p hp t ht

/-- C90: in a getter or operator it is the type of the method translated most recently before it. -/
theorem C90_accessors_partial (pre : List Member) (t : Types.Ty) (between : List Member) (m : Member) (post : List Member)
    (hb : ∀ x ∈ between, ∀ r, x ≠ .method r) (hm : ∀ r, m ≠ .method r) (cur : Option Types.Ty) :
    (returnCasts cur (pre ++ .method t :: between ++ m :: post))[(pre ++ .method t :: between).length]? = some (m, some t) := by
  have step : ∀ (xs : List Member) (cur : Option Types.Ty) (m : Member) (post : List Member),
      (returnCasts cur (xs ++ m :: post))[xs.length]? = some (m, returnCast (xs.foldl afterMember cur) m) := by
    intro xs
    induction xs with
    | nil => intro cur m post; rfl
    | cons x xs ih => intro cur m post; exact ih (afterMember cur x) m post
  rw [step]
  have keep : ∀ (bs : List Member) (cur : Option Types.Ty), (∀ x ∈ bs, ∀ r, x ≠ .method r) → bs.foldl afterMember cur = cur := by
    intro bs
    induction bs with
    | nil => intro cur _; rfl
    | cons b bs ih =>
      intro cur h
      rw [List.foldl_cons, ih _ (fun x hx => h x (List.mem_cons_of_mem _ hx))]
      cases b with
      | method r => exact absurd rfl (h _ List.mem_cons_self r)
      | getter r => rfl
      | operator r => rfl
  rw [List.foldl_append, List.foldl_cons, keep between _ hb]
  cases m with
  | method r => exact absurd rfl (hm r)
  | getter r => rfl
  | operator r => rfl

/-- C90 is false for getters: after a method returning a `String`, the getter of an Int32 property returning a computed value casts it to `String*`; and
when no method comes before, there is no type at all (the translator dereferences null). -/
theorem C90_getter_refuted :
    let str : Types.Ty := .named (w "String") .class
    let int : Types.Ty := .named (w "Int32") .struct
    returnCasts none [.method str, .getter int] = [(.method str, some str), (.getter int, some str)] ∧
    returnCasts none [.getter int] = [(.getter int, none)] ∧
    Types.declText asciiInfo str = .ok (w "String*") := by decide +kernel

end Verif.Names
