import Verif.BoxModel
import Verif.IntSpec
/-!
# C116: unboxing gives back what was boxed
-/
namespace Verif.Box
open Verif.IntVal (Ty)
open Verif.FltModel (Fmt dbl sgl)

/-! ### Specification -/

/-- A value of the type. -/
def Has : BTy → Int → Prop
  | .bool, v => v = 0 ∨ v = 1
  | .char, v => 0 ≤ v ∧ v ≤ 65535
  | .int t, v => t.min ≤ v ∧ v ≤ t.max
  | .single, v => 0 ≤ v ∧ v < 2 ^ 32
  | .double, v => 0 ≤ v ∧ v < 2 ^ 64
  | .dateTime, v => 0 ≤ v ∧ v ≤ 3155378975999999999
  | .timeSpan, v => -(2 ^ 63) ≤ v ∧ v < 2 ^ 63
  | .other _, _ => False

/-- C# (ECMA-334 10.3.7): unboxing null is a null reference exception, unboxing to the boxed type gives the value, to another type is rejected. -/
def csharp : Option Boxed → BTy → Res Int
  | none, _ => .throw .nullReference
  | some b, t => if b.type = t then .ok b.value else .throw .invalidCast

/-- `s` and `t` are different types between which C# refuses to unbox and the library converts. -/
def Converts : BTy → BTy → Prop
  | .bool, .int _ => True
  | .char, .int _ => True
  | .char, .single => True
  | .char, .double => True
  | .int _, .bool => True
  | .int _, .char => True
  | .int s, .int t => s ≠ t
  | .int _, .single => True
  | .int _, .double => True
  | .single, .int t => t ≠ .byte ∧ t ≠ .sbyte
  | .single, .double => True
  | .double, .int t => t ≠ .byte ∧ t ≠ .sbyte
  | .double, .single => True
  | _, _ => False

instance (s t : BTy) : Decidable (Converts s t) := by unfold Converts; split <;> infer_instance

/-! ### C116 -/

/-- A value of its type is unchanged by conversion to it. -/
theorem wrap_own (t : Ty) (v : Int) (h : t.min ≤ v ∧ v ≤ t.max) : t.wrap v = v := by
  cases t <;> simp only [Ty.min, Ty.max, Ty.wrap, wrapI8, wrapU8, wrapI16, wrapU16, wrapI32, wrapU32, wrapI64, wrapU64] at * <;> omega

/-- **C116**: a value that is boxed and unboxed to its own type is unchanged, for every boxable type and every value of it. -/
theorem C116_round_trip (wide : Bool) (t : BTy) (v : Int) (h : Has t v) : unbox wide (box t v) t = .ok v := by
  cases t with
  | int t =>
    show Res.ok (t.wrap v) = _
    rw [wrap_own t v h]
  | single => rfl
  | double => rfl
  | other n => exact absurd h (by simp [Has])
  | _ => rfl

example : Has (.int .int16) (-7) ∧ Has .double 0x7FF8000000000000 ∧ Has .char 0xD800 ∧ Has .dateTime 5 := by simp [Has, Ty.min, Ty.max]

/-- What the library does for an object that is not null is what C# does exactly when it does not convert between the two types: the other pairs of
different types raise InvalidCastException. -/
theorem C116_unbox_iff (wide : Bool) (s t : BTy) (v : Int) (h : Has s v) :
    unbox wide (box s v) t = csharp (box s v) t ↔ ¬ Converts s t := by
  by_cases e : s = t
  · subst e
    rw [C116_round_trip wide s v h]
    simp only [csharp, box, if_true, true_iff]
    cases s <;> simp [Converts]
  · have hc : csharp (box s v) t = .throw .invalidCast := by simp [csharp, box, e]
    rw [hc]
    have ne : ∀ F b t', truncTo F t' b ≠ .throw .invalidCast := by
      intro F b t'
      unfold truncTo
      simp only []
      split
      · simp
      · split <;> simp
    cases s with
    | bool => cases t <;> simp_all [unbox, box, getAs, boolAs, Converts]
    | char => cases t <;> simp_all [unbox, box, getAs, charAs, Converts]
    | int s => cases t <;> simp_all [unbox, box, getAs, intAs, Converts]
    | single =>
      cases t with
      | int t => cases t <;> simp [unbox, box, getAs, floatAs, Converts, ne]
      | _ => simp_all [unbox, box, getAs, floatAs, Converts]
    | double =>
      cases t with
      | int t => cases t <;> simp [unbox, box, getAs, floatAs, Converts, ne]
      | _ => simp_all [unbox, box, getAs, floatAs, Converts]
    | dateTime => cases t <;> simp_all [unbox, box, getAs, Converts]
    | timeSpan => cases t <;> simp_all [unbox, box, getAs, Converts]
    | other n => exact absurd h (by simp [Has])

/-- **C116** (partial: the object is not null and the library does not convert between its type and the one asked for). Unboxing does what C# does.
Missing: conversions (`C116_convert_refuted`), null (`C116_null_refuted`). -/
theorem C116_unbox_partial (wide : Bool) (s t : BTy) (v : Int) (h : Has s v) (hc : ¬ Converts s t) : unbox wide (box s v) t = csharp (box s v) t :=
  (C116_unbox_iff wide s t v h).2 hc

example : ¬ Converts .bool .char ∧ csharp (box .bool 1) .char = .throw .invalidCast := by decide +kernel

/-- A reference type (a string, an object of a class) is rejected, as in C#. -/
theorem C116_reference (wide : Bool) (n : Nat) (v : Int) (t : BTy) : unbox wide (some ⟨.other n, v⟩) t = .throw .invalidCast := rfl

/-- Reading a boxed floating-point number as an integer type the library converts to gives its integer part (the number is `val` in units of
`2 ^ -unit`); it is undefined for infinities, not-a-number and when the integer part does not fit. -/
theorem C116_float_to_int (F : Fmt) (t : Ty) (bits v : Int) : truncTo F t bits = .ok v ↔
    FltModel.mag F bits.toNat < F.I ∧ v = (FltModel.val F bits.toNat).tdiv (2 ^ unit F) ∧ t.min ≤ v ∧ v ≤ t.max := by
  unfold truncTo
  simp only []
  constructor
  · intro h
    split at h
    · cases h
    · split at h
      · rename_i h2
        rw [Res.ok.injEq] at h
        subst h
        exact ⟨by omega, rfl, h2⟩
      · cases h
  · rintro ⟨h1, rfl, h2⟩
    rw [if_neg (by omega), if_pos h2]

/-- -2.5 as a `Double` is -2. -/
example : truncTo dbl .int32 0xC004000000000000 = .ok (-2) := by decide +kernel

/-- **C116** is false of the code: `(long) o` of a boxed `int` is -1 instead of InvalidCastException, `(byte) o` of a boxed `int` 300 is 44, `(int) o` of a
boxed `double` 1e10 is undefined. -/
theorem C116_convert_refuted : unbox true (box (.int .int32) (-1)) (.int .int64) = .ok (-1) ∧
    unbox true (box (.int .int32) 300) (.int .byte) = .ok 44 ∧ unbox true (box .double 0x4202A05F20000000) (.int .int32) = .ub ∧
    csharp (box (.int .int32) (-1)) (.int .int64) = .throw .invalidCast ∧ csharp (box .double 0x4202A05F20000000) (.int .int32) = .throw .invalidCast := by
  decide +kernel

/-- **C116** is false of the code: unboxing null dereferences it. -/
theorem C116_null_refuted (wide : Bool) (t : BTy) : unbox wide none t = .ub ∧ csharp none t = .throw .nullReference := ⟨rfl, rfl⟩

end Verif.Box
