import Verif.ObjectProps
import Verif.ArgProps
/-!
# C193: exactly what comparing a value with an object gives
-/
namespace Verif.BoxedExact
open Verif.Obj
open Verif.IntVal (Ty Boxed InTy SignOK compareTo compareToObj)

/-! ## Specification -/

/-- `CompareTo` between two integers that are `d` apart answers with the right sign: the difference is 0, or it is positive and its last 32 bits are those of a positive
32-bit number, or negative and its last 32 bits are those of a negative one. -/
def SignSurvives (d : Int) : Prop :=
  d = 0 ∨ (0 < d ∧ 0 < d % 4294967296 ∧ d % 4294967296 < 2147483648) ∨ (d < 0 ∧ 2147483648 ≤ d % 4294967296)

/-- What .NET's `CompareTo(Object)` of an integer does: a positive number for null, ArgumentException for another type, and the sign of the comparison for a value of its type. -/
def Compares (a : Int) : Boxed → Res Int → Prop
  | .null, r => ∃ n, r = .ok n ∧ 0 < n
  | .other, r => r = .throw .argument
  | .same b, r => ∃ n, r = .ok n ∧ SignOK n a b

/-! ## Equals -/

theorem same_refl (F : FltModel.Fmt) (a : Nat) : FltSpec.Same F a a := by
  unfold FltSpec.Same
  simp [Classical.em]

theorem sameValue_refl (x : Ob) (hx : x ≠ .plain) : SameValue x x := by
  cases x with
  | plain => exact absurd rfl hx
  | real F v => exact ⟨rfl, same_refl F v⟩
  | _ => simp [SameValue]

/-- C193: `a.Equals(b)` for every object `a` and every reference `b`: it is undefined exactly when `b` is null and `a` is an integer or a character; in every other
case it answers whether the two are equal. -/
theorem C193_equals (h : Nat → Ob) (hr : RealOk h) (p : Nat) (b : Option Nat) :
    (equals p (h p) (ref h b) = .ub ↔ b = none ∧ ((∃ t v, h p = .int t v) ∨ ∃ c, h p = .char c)) ∧
    (equals p (h p) (ref h b) = .ub ∨ ∃ r, equals p (h p) (ref h b) = .ok r ∧ (r = true ↔ Equal h (some p) b)) := by
  cases b with
  | none =>
    show (equals p (h p) none = .ub ↔ _) ∧ _
    have e : ref h none = none := rfl
    rw [e]
    generalize h p = x
    cases x with
    | int t v => exact ⟨⟨fun _ => ⟨rfl, .inl ⟨_, _, rfl⟩⟩, fun _ => rfl⟩, .inl rfl⟩
    | char c => exact ⟨⟨fun _ => ⟨rfl, .inr ⟨_, rfl⟩⟩, fun _ => rfl⟩, .inl rfl⟩
    | _ =>
      refine ⟨⟨fun q => (by cases q), ?_⟩, .inr ⟨false, rfl, by simp [Equal]⟩⟩
      rintro ⟨_, ⟨t, v, q⟩ | ⟨c, q⟩⟩ <;> cases q
  | some q =>
    have key : ∃ r, equals p (h p) (ref h (some q)) = .ok r ∧ (r = true ↔ Equal h (some p) (some q)) := by
      show ∃ r, equals p (h p) (some (q, h q)) = .ok r ∧ (r = true ↔ p = q ∨ SameValue (h p) (h q))
      by_cases e : p = q
      · subst e
        by_cases hp : h p = .plain
        · rw [hp]; exact ⟨true, by simp [equals], by simp⟩
        · obtain ⟨r, h1, h2⟩ := equals_sound (p + 1) p (by omega) (h p) (h p) (hr p)
          refine ⟨r, ?_, ?_⟩
          · rw [← h1]
            cases hx : h p with
            | plain => exact absurd hx hp
            | _ => rfl
          · rw [h2]; exact ⟨fun q => .inr q, fun _ => sameValue_refl _ hp⟩
      · obtain ⟨r, h1, h2⟩ := equals_sound p q e (h p) (h q) (hr p)
        exact ⟨r, h1, by rw [h2]; simp [e]⟩
    obtain ⟨r, k1, k2⟩ := key
    refine ⟨?_, .inr ⟨r, k1, k2⟩⟩
    rw [k1]; simp

/-! ## CompareTo -/

/-- C193: `CompareTo(Object)` of every value of the eight integer types: it does what .NET's does exactly when the argument is null, has another type, or is a value
whose difference keeps its sign in 32 bits (for Int64, a difference that does not overflow). -/
theorem C193_compare (ty : Ty) (a : Int) (o : Boxed) (ha : InTy ty a) (ho : ∀ b, o = .same b → InTy ty b) :
    Compares a o (compareToObj ty a o) ↔ ∀ b, o = .same b → SignSurvives (a - b) ∧ (ty = .int64 → I64 (a - b)) := by
  cases o with
  | null => exact ⟨fun _ b q => (by cases q), fun _ => ⟨1, rfl, by decide⟩⟩
  | other => exact ⟨fun _ b q => (by cases q), fun _ => rfl⟩
  | same b =>
    have hb := ho b rfl
    show (∃ n, compareTo ty a b = .ok n ∧ SignOK n a b) ↔ _
    have red : (∀ c, Boxed.same b = .same c → SignSurvives (a - c) ∧ (ty = .int64 → I64 (a - c))) ↔ (SignSurvives (a - b) ∧ (ty = .int64 → I64 (a - b))) :=
      ⟨fun q => q b rfl, fun q c e => by cases e; exact q⟩
    rw [red]
    unfold InTy at ha hb
    cases ty <;> simp only [Ty.min, Ty.max] at ha hb
    case int64 =>
      by_cases hd : I64 (a - b)
      · have e : compareTo .int64 a b = .ok (wrapI32 (a - b)) := by unfold compareTo; simp only [i64_ok hd]; rfl
        rw [e]
        simp only [hd, implies_true, and_true]
        constructor
        · rintro ⟨n, e, s⟩
          rw [Res.ok.injEq] at e; subst e
          unfold SignOK wrapI32 at s; unfold SignSurvives; omega
        · intro s
          refine ⟨_, rfl, ?_⟩
          unfold SignOK wrapI32; unfold SignSurvives at s; omega
      · have e : compareTo .int64 a b = .ub := by unfold compareTo i64; simp only []; rw [if_neg hd]; rfl
        rw [e]
        exact ⟨fun ⟨n, q, _⟩ => (by cases q), fun q => absurd (q.2 rfl) hd⟩
    case uint64 =>
      have e : compareTo .uint64 a b = .ok (wrapI32 (wrapU64 (a - b))) := rfl
      have e2 : wrapI32 (wrapU64 (a - b)) = wrapI32 (a - b) := by unfold wrapI32 wrapU64; omega
      rw [e, e2]
      simp only [reduceCtorEq, false_implies, and_true]
      constructor
      · rintro ⟨n, e, s⟩
        rw [Res.ok.injEq] at e; subst e
        unfold SignOK wrapI32 at s; unfold SignSurvives; omega
      · intro s
        refine ⟨_, rfl, ?_⟩
        unfold SignOK wrapI32; unfold SignSurvives at s; omega
    case uint32 =>
      have e : compareTo .uint32 a b = .ok (wrapI32 (wrapU32 (a - b))) := rfl
      have e2 : wrapI32 (wrapU32 (a - b)) = wrapI32 (a - b) := by unfold wrapI32 wrapU32; omega
      rw [e, e2]
      simp only [reduceCtorEq, false_implies, and_true]
      constructor
      · rintro ⟨n, e, s⟩
        rw [Res.ok.injEq] at e; subst e
        unfold SignOK wrapI32 at s; unfold SignSurvives; omega
      · intro s
        refine ⟨_, rfl, ?_⟩
        unfold SignOK wrapI32; unfold SignSurvives at s; omega
    all_goals
      simp only [reduceCtorEq, false_implies, and_true]
      by_cases hd : I32 (a - b)
      · have e : i32 (a - b) = .ok (a - b) := i32_ok hd
        simp only [compareTo, e]
        constructor
        · intro _; unfold I32 at hd; unfold SignSurvives; omega
        · intro _; exact ⟨_, rfl, by unfold SignOK; omega⟩
      · have e : i32 (a - b) = .ub := by unfold i32; rw [if_neg hd]
        simp only [compareTo, e]
        refine ⟨fun ⟨n, q, _⟩ => (by cases q), fun s => ?_⟩
        unfold I32 at hd; unfold SignSurvives at s; omega

/-- C193: `CompareTo(Object)` of Boolean and of Char: always what .NET does. -/
theorem C193_bool_char (a b : Bool) (c d : Nat) :
    (BCModel.boolCompareToObj a .null = .ok 1 ∧ BCModel.boolCompareToObj a .other = .throw .argument ∧
      ∃ n, BCModel.boolCompareToObj a (.same b) = .ok n ∧ SignOK n (if a then 1 else 0) (if b then 1 else 0)) ∧
    (BCModel.charCompareToObj c .null = .ok 1 ∧ BCModel.charCompareToObj c .other = .throw .argument ∧
      ∃ n, BCModel.charCompareToObj c (.same d) = .ok n ∧ SignOK n c d) := by
  refine ⟨⟨rfl, rfl, _, rfl, ?_⟩, rfl, rfl, _, rfl, by unfold SignOK; omega⟩
  cases a <;> cases b <;> simp [SignOK, BCModel.boolCompareTo]

/-! ## The hypotheses are met -/

example : RealOk (fun n => if n = 0 then .int .int32 5 else if n = 1 then .real FltModel.dbl 0 else .plain) := by
  intro p F v e
  dsimp only at e
  split at e
  · cases e
  · split at e
    · cases e; exact .inl rfl
    · cases e
example : InTy .int64 4294967297 ∧ InTy .int64 1 ∧ compareToObj .int64 4294967297 (.same 1) = .ok 0 ∧ ¬ SignSurvives (4294967297 - 1) := by
  unfold InTy SignSurvives; decide +kernel
example : SignSurvives 4294967301 ∧ compareToObj .uint64 4294967301 (.same 0) = .ok 5 := by
  unfold SignSurvives; decide +kernel

end Verif.BoxedExact
