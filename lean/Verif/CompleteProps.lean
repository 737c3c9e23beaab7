import Verif.IntExact
import Verif.MathProps
import Verif.ExactProps
import Verif.DateTimeProps
/-!
# C164, C165: what TimeSpan and DateTime constructors and arithmetic, and the integer functions of Math, do for every argument
-/
namespace Verif.Complete
open Verif.IntVal (Ty Congruent congruent_unique wrap_congruent)
open Verif.MathModel Verif.MathProps

/-! ## TimeSpan, DateTime -/

/-- **C164**. `Negate` and `Duration` of every span: zero is refused with OverflowException (it is taken for MinValue), the most negative span is undefined, and every other span is negated, and measured, exactly. -/
theorem C164_negate_duration (v : Int) (hv : I64 v) :
    TimeSpan.negate v = (if v = 0 then .throw .overflow else if v = -9223372036854775808 then .ub else .ok (-v)) ∧
    TimeSpan.duration v = (if v = 0 then .throw .overflow else if v = -9223372036854775808 then .ub else .ok v.natAbs) := by
  by_cases h0 : v = 0
  · subst h0; decide +kernel
  · by_cases hm : v = -9223372036854775808
    · subst hm; decide +kernel
    · rw [if_neg h0, if_neg hm, if_neg h0, if_neg hm]
      exact ⟨(TimeSpan.C16_negate_duration_partial v hv h0 hm).1, (TimeSpan.C16_negate_duration_partial v hv h0 hm).2.2⟩

example : I64 (-5) ∧ TimeSpan.duration (-5) = .ok 5 ∧ TimeSpan.duration 0 = .throw .overflow := by decide +kernel

/-- **C164**. `Subtract` of every two spans, on two's complement arithmetic: when the difference is a span, it is returned if the operands have different signs or the difference has the sign of both (zero counting as
positive), and OverflowException is thrown otherwise; when it is not, the difference less or plus 2^64 is returned and nothing is reported. -/
theorem C164_subtract (a b : Int) (ha : I64 a) (hb : I64 b) :
    TimeSpan.subtract .wrapv a b =
      if I64 (a - b) then (if ((a < 0 ↔ b < 0) ∧ ¬ (a < 0 ↔ a - b < 0)) then .throw .overflow else .ok (a - b))
      else .ok (if 0 < a - b then a - b - 2 ^ 64 else a - b + 2 ^ 64) := by
  have hx := TimeSpan.C15_subtract_exact .wrapv a b ha hb
  have ha' := ha
  have hb' := hb
  unfold I64 at ha' hb'
  by_cases hr : I64 (a - b)
  · rw [if_pos hr]
    by_cases hs : (a < 0 ↔ b < 0) ∧ ¬ (a < 0 ↔ a - b < 0)
    · rw [if_pos hs]; exact hx.2.1 hr (by omega)
    · rw [if_neg hs]; exact hx.1 hr (by omega)
  · rw [if_neg hr]
    obtain ⟨r, e, h⟩ := (hx.2.2 hr).2
    have hw : r = wrapI64 (a - b) := by
      unfold TimeSpan.subtract TimeSpan.arith at e
      simp only [Res.bind_ok] at e
      split at e
      · cases e
      · rw [Res.ok.injEq] at e; exact e.symm
    rw [e, hw]
    unfold I64 at hr
    unfold wrapI64
    split <;> congr 1 <;> omega

example : TimeSpan.subtract .wrapv 5 7 = .throw .overflow ∧ TimeSpan.subtract .wrapv 9223372036854775807 (-1) = .ok (-9223372036854775808) ∧ I64 9223372036854775807 := by decide +kernel

/-- **C164**. `DateTime(year, month, day, hour, minute, second, millisecond)` for every seven numbers: a date that is none throws ArgumentOutOfRangeException; with a negative hour the other three numbers are ignored
(midnight); otherwise a time that is none throws, except that millisecond 1000 is taken as the next second. -/
theorem C164_date_time (y m d h mi s ms : Int) :
    (¬ Calendar.ValidDate y m d → DateTime.ofParts y m d h mi s ms = .throw .argumentOutOfRange) ∧
    (Calendar.ValidDate y m d → h < 0 → DateTime.ofParts y m d h mi s ms = .ok (Calendar.dayNumber y m d * Calendar.ticksPerDay)) ∧
    (Calendar.ValidDate y m d → 0 ≤ h → (DateTime.ValidTime h mi s ms ∨ (DateTime.ValidTime h mi s 0 ∧ ms = 1000)) →
      DateTime.ofParts y m d h mi s ms = .ok (Calendar.dayNumber y m d * Calendar.ticksPerDay + (((h * 60 + mi) * 60 + s) * 10000000 + ms * 10000))) ∧
    (Calendar.ValidDate y m d → 0 ≤ h → ¬ (DateTime.ValidTime h mi s ms ∨ (DateTime.ValidTime h mi s 0 ∧ ms = 1000)) → DateTime.ofParts y m d h mi s ms = .throw .argumentOutOfRange) := by
  rw [DateTime.ofParts_eq]
  unfold DateTime.ValidTime
  refine ⟨fun hv => if_pos hv, fun hv hh => ?_, fun hv hh ht => ?_, fun hv hh ht => ?_⟩
  · rw [if_neg (fun h => h hv), if_pos hh]
  · rw [if_neg (fun h => h hv), if_neg (by omega), if_pos (by omega)]; rfl
  · rw [if_neg (fun h => h hv), if_neg (by omega), if_neg (by omega)]

example : Calendar.ValidDate 2000 1 1 ∧ DateTime.ofParts 2000 1 1 (-3) 99 99 99 = .ok 630822816000000000 ∧ DateTime.ofParts 2000 1 1 0 0 0 1000 = .ok 630822816010000000 ∧
    DateTime.ofParts 2000 1 1 0 0 0 1001 = .throw .argumentOutOfRange := by decide +kernel

/-! ## Math -/

/-- **C165**. `Sign` and `Abs` of every integer: the sign and the absolute value, except that the minimum of Int32 (and of Int64 for `Sign`) is undefined. -/
theorem C165_sign_abs (v : Int) :
    (InTy .int32 v → sign32 v = (if v = -2147483648 then .ub else .ok (sgn v)) ∧ abs32 v = (if v = -2147483648 then .ub else .ok v.natAbs)) ∧
    (InTy .int64 v → sign64 v = (if v = -9223372036854775808 then .ub else .ok (sgn v))) ∧
    (InTy .int16 v → sign16 v = .ok (sgn v) ∧ abs32 v = .ok v.natAbs) ∧ (InTy .sbyte v → sign8 v = .ok (sgn v) ∧ abs32 v = .ok v.natAbs) := by
  refine ⟨fun h => ?_, fun h => ?_, fun h => ⟨(C47_sign_small v).1 h, (C79_abs_partial v).2.1 h⟩, fun h => ⟨(C47_sign_small v).2 h, (C79_abs_partial v).2.2 h⟩⟩
  · by_cases hm : v = -2147483648
    · subst hm; decide +kernel
    · rw [if_neg hm, if_neg hm]; exact ⟨C47_sign32_partial v h hm, (C79_abs_partial v).1 h hm⟩
  · by_cases hm : v = -9223372036854775808
    · subst hm; decide +kernel
    · rw [if_neg hm]; exact C47_sign64_partial v h hm

example : InTy .int32 (-7) ∧ sign32 (-7) = .ok (-1) ∧ abs32 (-7) = .ok 7 := by unfold InTy; decide +kernel

/-- **C165**. `Divide(Int64)` and `DivRem(Int32)` of every pair: DivideByZeroException for a zero divisor, undefined for the minimum by -1, otherwise the truncated quotient (and the remainder that belongs to it). -/
theorem C165_divide (a b : Int) :
    (InTy .int64 a → InTy .int64 b → (b = 0 ∧ divide64 a b = .throw .divideByZero) ∨ (a = -9223372036854775808 ∧ b = -1 ∧ divide64 a b = .ub) ∨ ∃ q r, IsDivRem a b q r ∧ divide64 a b = .ok q) ∧
    (InTy .int32 a → InTy .int32 b → (b = 0 ∧ divRem32 a b = .throw .divideByZero) ∨ (a = -2147483648 ∧ b = -1 ∧ divRem32 a b = .ub) ∨ ∃ q r, IsDivRem a b q r ∧ divRem32 a b = .ok (q, r)) := by
  refine ⟨fun ha hb => ?_, fun ha hb => ?_⟩
  · by_cases h0 : b = 0
    · subst h0; exact .inl ⟨rfl, (C48_zero a).2.2⟩
    · by_cases hm : a = -9223372036854775808 ∧ b = -1
      · obtain ⟨rfl, rfl⟩ := hm; exact .inr (.inl ⟨rfl, rfl, C48_min_refuted.2.2⟩)
      · obtain ⟨q, r, h1, h2⟩ := C48_divide64_partial a b ha hb h0 hm
        exact .inr (.inr ⟨q, r, h2, h1⟩)
  · by_cases h0 : b = 0
    · subst h0; exact .inl ⟨rfl, (C48_zero a).1⟩
    · by_cases hm : a = -2147483648 ∧ b = -1
      · obtain ⟨rfl, rfl⟩ := hm; exact .inr (.inl ⟨rfl, rfl, C48_min_refuted.1⟩)
      · obtain ⟨q, r, h1, h2, _⟩ := C48_divrem32_partial a b ha hb h0 hm
        exact .inr (.inr ⟨q, r, h2, h1⟩)

example : InTy .int32 (-7) ∧ IsDivRem (-7) 2 (-3) (-1) ∧ divRem32 (-7) 2 = .ok (-3, -1) := by unfold InTy IsDivRem; decide +kernel

/-- **C165**. `DivRem(Int64)` of every pair with a non-zero divisor whose quotient `q` is an Int64: with `d` the Int32 congruent to `q`, the result is `d` and `a - d * b` when both `d * b` and that are Int64 values, and
otherwise undefined. So it is right exactly when the quotient fits Int32. -/
theorem C165_divrem64 (a b q r d : Int) (ha : InTy .int64 a) (hb : InTy .int64 b) (h0 : b ≠ 0) (hd : IsDivRem a b q r) (hq : InTy .int64 q) (hc : Congruent .int32 q d) :
    divRem64 a b = (if I64 (d * b) ∧ I64 (a - d * b) then .ok (d, a - d * b) else .ub) ∧
    ((∃ q' r', divRem64 a b = .ok (q', r') ∧ IsDivRem a b q' r') ↔ InTy .int32 q) := by
  have eq := (isDivRem_unique hd (tdiv_isDivRem a b h0)).1
  have hq' : I64 q := hq
  have e : divRem64 a b = (if I64 (d * b) ∧ I64 (a - d * b) then .ok (d, a - d * b) else .ub) := by
    have hw : wrapI32 q = d := congruent_unique .int32 (wrap_congruent .int32 q) hc
    unfold divRem64
    rw [if_neg h0, ← eq, i64_ok hq', Res.bind_ok]
    simp only [hw]
    unfold i64
    by_cases h1 : I64 (d * b)
    · rw [if_pos h1, Res.bind_ok]
      by_cases h2 : I64 (a - d * b)
      · rw [if_pos h2, if_pos ⟨h1, h2⟩]; rfl
      · rw [if_neg h2, if_neg (fun h => h2 h.2)]; rfl
    · rw [if_neg h1, if_neg (fun h => h1 h.1)]; rfl
  refine ⟨e, ?_⟩
  have hdI : InTy .int32 d := hc.1
  constructor
  · rintro ⟨q', r', h1, h2⟩
    rw [e] at h1
    split at h1
    · rw [Res.ok.injEq, Prod.mk.injEq] at h1
      obtain ⟨rfl, rfl⟩ := h1
      obtain ⟨rfl, rfl⟩ := isDivRem_unique hd h2
      exact hdI
    · cases h1
  · exact fun h1 => ⟨q, r, C48_divrem64_partial a b q r ha hb h0 hd h1, hd⟩

example : IsDivRem 4294967301 2 2147483650 1 ∧ InTy .int64 2147483650 ∧ Congruent .int32 2147483650 (-2147483646) ∧ divRem64 4294967301 2 = .ok (-2147483646, 8589934593) :=
  ⟨by unfold IsDivRem; decide, by unfold InTy; decide, ⟨by unfold IntVal.InTy; decide, -1, by decide⟩, by decide +kernel⟩

/-- **C165**. `BigMul` of every pair of Int32 values is the product; `Clamp`, `Max` and `Min` (C47) have no exceptions besides an empty range. -/
theorem C165_big_mul (a b lo hi v : Int) (ha : InTy .int32 a) (hb : InTy .int32 b) :
    bigMul a b = .ok (a * b) ∧ (clamp v lo hi = if lo > hi then .throw .minMax else .ok (max lo (min v hi))) := by
  refine ⟨C78_bigmul a b ha hb, ?_⟩
  unfold clamp
  split
  · rfl
  · split
    · congr 1; omega
    · split <;> congr 1 <;> omega

example : InTy .int32 100000 ∧ bigMul 100000 100000 = .ok 10000000000 := by unfold InTy; decide +kernel

end Verif.Complete
