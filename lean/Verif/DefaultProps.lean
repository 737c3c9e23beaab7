import Verif.DefaultModel
import Verif.CtorProps
/-!
# C117: the default value of a struct has every field zero
-/
namespace Verif.Default
open Verif.Ctor (hadCtors hadCtors_fst hadCtors_snd generatesDefault)

/-! ### Specification -/

/-- The contents of a scalar: zero (0, `false`, null) or whatever was there. -/
inductive Content where
  | zero | junk
deriving DecidableEq, Repr

mutual
/-- The scalars of an object of the type, in order, after its default constructor has run on storage that holds `old` (C++11 12.6.2: a constructor without initialisers
and with an empty body leaves scalars alone and runs the constructors of the others; DateTimeValue.cpp lines 69-71 and DotnetTypes.h line 80 set the ticks to 0). -/
def construct (old : Content) : FTy → List Content
  | .scalar => [old]
  | .time => [.zero]
  | .struct _ fs => constructs old fs
def constructs (old : Content) : FTys → List Content
  | .nil => []
  | .cons t fs => construct old t ++ constructs old fs
end

/-- The value of the C++ expression `T()` (C++11 8.5.7, value-initialisation): a class with a user-provided default constructor is constructed; any other is zeroed first. -/
def valueInit : FTy → List Content
  | .scalar => [.zero]
  | .time => [.zero]
  | .struct ms fs => construct (if provided ms then .junk else .zero) (.struct ms fs)

mutual
/-- The type contains a scalar outside `DateTime` and `TimeSpan`. -/
def hasScalar : FTy → Prop
  | .scalar => True
  | .time => False
  | .struct _ fs => haveScalar fs
def haveScalar : FTys → Prop
  | .nil => False
  | .cons t fs => hasScalar t ∨ haveScalar fs
end

/-- The members of a C# struct (before C# 10): no constructor without parameters, and static constructors have none. -/
def CSharpStruct (ms : List Member.Member) : Prop := .ctor false [] ∉ ms ∧ Ctor.StaticHasNone ms

/-! ### C117 -/

mutual
theorem construct_zero (t : FTy) : ∀ c ∈ construct .zero t, c = .zero := by
  match t with
  | .scalar => rw [construct]; simp
  | .time => rw [construct]; simp
  | .struct ms fs => rw [construct]; exact constructs_zero fs
theorem constructs_zero (fs : FTys) : ∀ c ∈ constructs .zero fs, c = .zero := by
  match fs with
  | .nil => rw [constructs]; simp
  | .cons t fs =>
    rw [constructs]
    intro c h
    rcases List.mem_append.1 h with h | h
    · exact construct_zero t c h
    · exact constructs_zero fs c h
end

mutual
theorem construct_junk (t : FTy) : (∀ c ∈ construct .junk t, c = .zero) ↔ ¬ hasScalar t := by
  match t with
  | .scalar => rw [construct, hasScalar]; simp
  | .time => rw [construct, hasScalar]; simp
  | .struct ms fs => rw [construct, hasScalar]; exact constructs_junk fs
theorem constructs_junk (fs : FTys) : (∀ c ∈ constructs .junk fs, c = .zero) ↔ ¬ haveScalar fs := by
  match fs with
  | .nil => rw [constructs, haveScalar]; simp
  | .cons t fs =>
    rw [constructs, haveScalar, not_or, ← construct_junk t, ← constructs_junk fs]
    simp only [List.mem_append]
    exact ⟨fun h => ⟨fun c hc => h c (Or.inl hc), fun c hc => h c (Or.inr hc)⟩, fun h c hc => hc.elim (h.1 c) (h.2 c)⟩
end

/-- The translator provides a constructor exactly for structs that have an instance constructor and no static one. -/
theorem provided_iff (ms : List Member.Member) (h : CSharpStruct ms) :
    provided ms = true ↔ (∃ ps, .ctor false ps ∈ ms) ∧ .ctor true [] ∉ ms := by
  have h1 := hadCtors_fst ms
  have h2 := hadCtors_snd ms
  have h3 : ms.any (fun m => m == .ctor false []) = false := by
    rw [List.any_eq_false]
    intro m hm e
    exact h.1 (by rw [← (beq_iff_eq.1 e)]; exact hm)
  unfold provided generatesDefault
  rw [h3, Bool.or_false, Bool.true_and, Bool.and_eq_true, Bool.not_eq_true', h1, ← Bool.not_eq_true, h2]
  constructor
  · rintro ⟨⟨s, ps, hc⟩, hn⟩
    have hs : Member.Member.ctor true [] ∉ ms := fun hm => hn ⟨true, hm⟩
    refine ⟨?_, hs⟩
    cases s with
    | false => exact ⟨ps, hc⟩
    | true => rw [h.2 ps hc] at hc; exact absurd hc hs
  · rintro ⟨⟨ps, hc⟩, hn⟩
    refine ⟨⟨false, ps, hc⟩, ?_⟩
    rintro ⟨s, hm⟩
    cases s with
    | false => exact h.1 hm
    | true => exact hn hm

/-- **C117** (partial, but exact): `default(S)` has every field zero, at every depth, exactly when `S` has no instance constructor, or has a static one, or contains nothing but
`DateTime` and `TimeSpan` fields. The constructors of the structs it contains do not matter. Missing: the other structs (`C117_default_refuted`). -/
theorem C117_default_partial (ms : List Member.Member) (fs : FTys) (h : CSharpStruct ms) :
    (∀ c ∈ valueInit (.struct ms fs), c = .zero) ↔ ¬ (((∃ ps, .ctor false ps ∈ ms) ∧ .ctor true [] ∉ ms) ∧ haveScalar fs) := by
  rw [← provided_iff ms h, valueInit]
  by_cases hp : provided ms = true
  · rw [if_pos hp, construct_junk, hasScalar]
    simp [hp]
  · rw [if_neg hp]
    simp only [hp, false_and, Bool.false_eq_true, not_false_eq_true, iff_true]
    exact construct_zero _

/-- `struct P { int x; T t; }` where `struct T { int y; DateTime d; T(int y) }`: `default(P)` is all zero although `T` has a constructor. -/
example : let ctor : Member.Member := .ctor false [⟨.named (w "Int32") .struct, .none, w "y"⟩]
    CSharpStruct [] ∧ provided [ctor] = true ∧
    valueInit (.struct [] (.cons .scalar (.cons (.struct [ctor] (.cons .scalar (.cons .time .nil))) .nil))) = [.zero, .zero, .zero] := by
  refine ⟨⟨by simp, fun ps h => by simp at h⟩, by decide +kernel, by decide +kernel⟩

/-- **C117** is false of the code for `struct T { int y; DateTime d; T(int y) {...} }`: the added constructor leaves `y` as it was in memory. -/
theorem C117_default_refuted : let ctor : Member.Member := .ctor false [⟨.named (w "Int32") .struct, .none, w "y"⟩]
    CSharpStruct [ctor] ∧ valueInit (.struct [ctor] (.cons .scalar (.cons .time .nil))) = [.junk, .zero] := by
  refine ⟨⟨by simp, fun ps h => by simp at h⟩, by decide +kernel⟩

end Verif.Default
