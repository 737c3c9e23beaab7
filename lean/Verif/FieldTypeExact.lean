import Verif.FieldTypeModel
import Verif.MemberProps
/-!
# C195: exactly which static fields have the same type where they are declared and where they are defined
-/
namespace Verif.FieldType
open Verif.Types (Ty Kind formatType isPointer declText)
open Verif.Fmt (CharInfo nameText)
open Verif.Names (Changed)
open Verif.Member (definitionType appendType definitionType_eq bind_ok_inv)

/-! ## Specification -/

/-- The C# type names that are keywords. -/
def keywords : List WStr := [w "bool", w "byte", w "sbyte", w "char", w "double", w "float", w "int", w "uint", w "long", w "ulong", w "object", w "short", w "ushort", w "string"]

/-- The field's declaration in the header and its definition in the code file give it the same type. -/
def Agree (ci : CharInfo) (rest : FTy → WStr) (t : FTy) : Prop := declared ci t = .ok (defined rest t)

/-! ## Proof -/

/-- A definition's type text is the name, or a translated keyword, which starts with a capital. -/
theorem appendType_cases (n : WStr) : appendType n = n ∨ (appendType n).head?.any (· < 97) = true := by
  have st : ∀ (c : Prop) [Decidable c] (a b : WStr), a.head?.any (· < 97) = true → (b = n ∨ b.head?.any (· < 97) = true) →
      ((if c then a else b) = n ∨ (if c then a else b).head?.any (· < 97) = true) := by
    intro c _ a b h1 h2
    split
    · exact .inr h1
    · exact h2
  unfold appendType
  iterate 14 refine st _ _ _ (by decide +kernel) ?_
  exact .inl rfl

theorem array_decl (ci : CharInfo) (n : WStr) : declText ci (.named n .array) = .ok (w "Array*") := by
  show (nameText ci (w "Array") >>= fun n => Res.ok (n ++ [42])) = _
  rw [Member.array_text, Res.bind_ok, Res.ok.injEq]
  decide +kernel

theorem decl_named (ci : CharInfo) (n : WStr) (k : Kind) (hk : k ≠ .array) (t : WStr) (hn : nameText ci n = .ok t) :
    declText ci (.named n k) = .ok (t ++ (if k = .class then [42] else [])) := by
  unfold declText formatType
  simp only []
  rw [if_neg hk, hn, Res.bind_ok]
  unfold isPointer
  cases k <;> simp at hk ⊢

theorem def_named (n : WStr) (k : Kind) (hk : k ≠ .array) : definitionType (.named n k) = appendType n ++ (if k = .class then [42] else []) := by
  unfold definitionType
  simp only []
  rw [if_neg hk]
  split <;> simp

theorem text_changed (ci : CharInfo) (n t : WStr) (hn : n ≠ []) (hc : Changed ci n) (h : nameText ci n = .ok t) : t ≠ appendType n := by
  cases n with
  | nil => exact absurd rfl hn
  | cons c r =>
    rw [FmtTextProps.nameText_cases, Res.ok.injEq] at h
    by_cases hl : ci.isLower c = true ∧ c :: r ≠ w "this"
    · rw [if_pos hl] at h
      subst h
      intro e
      rcases appendType_cases (c :: r) with q | q
      · rw [q] at e
        have := congrArg List.length e
        rw [List.length_append] at this
        have hx : (w "x_").length = 2 := rfl
        omega
      · rw [← e] at q
        have hx : w "x_" = [120, 95] := by decide +kernel
        rw [hx] at q
        simp at q
    · rw [if_neg hl] at h
      rcases hc with ⟨⟨c', r', e, h1⟩, h2⟩ | hv
      · cases e; exact absurd ⟨h1, h2⟩ hl
      · rw [if_pos hv] at h
        subst h
        rw [hv]
        decide +kernel

/-- The first character of a declared type is that of the name, or the `x` of the prefix, or a small letter of `void`, or the `A` of `Array`. -/
theorem declared_head (ci : CharInfo) (n : WStr) (k : Kind) (t : WStr) (hn : n.head? ≠ some 42) (h : declText ci (.named n k) = .ok t) : ∃ c r, t = c :: r ∧ c ≠ 42 := by
  by_cases hk : k = .array
  · subst hk
    rw [array_decl, Res.ok.injEq] at h
    subst h
    exact ⟨65, w "rray*", by decide +kernel, by decide⟩
  · cases n with
    | nil =>
      unfold declText formatType at h
      simp only [] at h
      rw [if_neg hk] at h
      cases h
    | cons c r =>
      rw [decl_named ci (c :: r) k hk _ (FmtTextProps.nameText_cases ci c r), Res.ok.injEq] at h
      subst h
      split
      · exact ⟨120, 95 :: c :: r ++ _, by have hx : w "x_" = [120, 95] := by decide +kernel
                                          rw [hx]; rfl, by decide⟩
      · split
        · refine ⟨118, w "oid" ++ (if k = .class then [42] else []), ?_, by decide⟩
          rw [show w "void" = 118 :: w "oid" by decide +kernel]; rfl
        · exact ⟨c, _, rfl, fun e => hn (by rw [e]; rfl)⟩

/-- C195: a static field has the same type in the header and in the code file exactly when it is an array, or a type definition whose name is written unchanged. No field of any other form of
type (constructed, nullable, tuple, pointer, type parameter, ...) has: its definition starts with `***`, whatever the decompiler adds. -/
theorem C195_static_field (ci : CharInfo) (rest : FTy → WStr) :
    (∀ n k, n ≠ [] → (Agree ci rest (.plain n k) ↔ k = .array ∨ ¬ Changed ci n)) ∧
    (∀ f n k full, n.head? ≠ some 42 → ¬ Agree ci rest (.formed f n k full)) := by
  constructor
  · intro n k hn
    unfold Agree
    show declText ci (.named n k) = .ok (definitionType (.named n k)) ↔ _
    by_cases hk : k = .array
    · subst hk
      simp only [true_or, iff_true]
      rw [array_decl]
      rfl
    · simp only [hk, false_or]
      have ex : ∃ t, nameText ci n = .ok t := by
        cases n with
        | nil => exact absurd rfl hn
        | cons c r => exact ⟨_, FmtTextProps.nameText_cases ci c r⟩
      obtain ⟨t, ht⟩ := ex
      constructor
      · intro e hc
        rw [decl_named ci n k hk t ht, def_named n k hk, Res.ok.injEq] at e
        exact text_changed ci n t hn hc ht (List.append_cancel_right e)
      · intro hc
        rw [decl_named ci n k hk t ht, Res.ok.injEq]
        exact (definitionType_eq ci n k hn hc _ (decl_named ci n k hk t ht)).symm
  · intro f n k full hn e
    obtain ⟨c, r, e2, h42⟩ := declared_head ci n k _ hn e
    unfold defined at e2
    have hw : w "*** Unknow type " = 42 :: w "** Unknow type " := by decide +kernel
    rw [hw] at e2
    simp only [List.cons_append, List.cons.injEq] at e2
    exact h42 e2.1.symm

/-- C195: in particular the types that C# writes with a keyword are defined under the library's names, but only when the decompiler gives the type that keyword as its name: then the two texts differ. -/
theorem C195_keyword (ci : CharInfo) (rest : FTy → WStr) (k : Kind) (hk : k ≠ .array) : ∀ n ∈ keywords, ¬ Agree ci rest (.plain n k) := by
  intro n hn
  have key : ∀ n ∈ keywords, (∃ c r, n = c :: r ∧ (97 ≤ c && c ≤ 122) = true ∧ c < 128) ∧ n ≠ w "this" := by
    intro n hn
    unfold keywords at hn
    simp only [List.mem_cons, List.not_mem_nil, or_false] at hn
    rcases hn with h | h | h | h | h | h | h | h | h | h | h | h | h | h <;> subst h <;>
      exact ⟨⟨_, _, (by rfl), by decide, by decide⟩, by decide +kernel⟩
  obtain ⟨⟨c, r, e, h1, h2⟩, h3⟩ := key n hn
  rw [(C195_static_field ci rest).1 n k (by rw [e]; simp)]
  rintro (q | q)
  · exact hk q
  · exact q (.inl ⟨⟨c, r, e, by rw [ci.ascii c h2]; exact h1⟩, h3⟩)

example : Agree Fmt.asciiInfo (fun _ => []) (.plain (w "Node") .class) ∧ defined (fun _ => []) (.plain (w "Node") .class) = w "Node*" := by
  unfold Agree; decide +kernel
example : defined (fun _ => w "List`1*Int32") (.formed .parameterized (w "List") .class (w "System.Collections.Generic.List`1[[System.Int32]]")) =
    w "*** Unknow type System.Collections.Generic.List`1[[System.Int32]]List`1*Int32" ∧ declared Fmt.asciiInfo (.formed .parameterized (w "List") .class []) = .ok (w "List*") := by
  decide +kernel

end Verif.FieldType
