import Verif.MathModel
set_option linter.unusedSimpArgs false
set_option linter.unusedVariables false
/-!
# Math on integers: C47, C48, C78, C79
-/
namespace Verif.MathProps
open MathModel

/-- `x` belongs to the integral type `t`. -/
def InTy (t : IntVal.Ty) (x : Int) : Prop := t.min ≤ x ∧ x ≤ t.max

/-- **C47**: `Clamp(v, lo, hi)` throws exactly when `lo > hi`. -/
theorem C47_clamp_throws (t : IntVal.Ty) (v lo hi : Int) (hv : InTy t v) (hl : InTy t lo) (hh : InTy t hi) :
    (lo > hi ↔ clamp v lo hi = .throw .minMax) ∧ clamp v lo hi ≠ .ub := by
  unfold clamp
  repeat' split
  all_goals simp
  all_goals omega

/-- **C47**: otherwise the result is a value of the type in `[lo, hi]`, and no other integer of `[lo, hi]` is as near to `v`. -/
theorem C47_clamp_nearest (t : IntVal.Ty) (v lo hi : Int) (hv : InTy t v) (hl : InTy t lo) (hh : InTy t hi) (hle : lo ≤ hi) :
    ∃ r, clamp v lo hi = .ok r ∧ InTy t r ∧ lo ≤ r ∧ r ≤ hi ∧ (∀ x, lo ≤ x → x ≤ hi → x ≠ r → (v - r).natAbs < (v - x).natAbs) ∧
      (lo ≤ v → v ≤ hi → r = v) := by
  unfold clamp InTy at *
  rw [if_neg (by omega)]
  split
  · exact ⟨lo, rfl, hl, by omega, by omega, fun x _ _ _ => by omega, fun _ _ => by omega⟩
  · split
    · exact ⟨hi, rfl, hh, by omega, by omega, fun x _ _ _ => by omega, fun _ _ => by omega⟩
    · exact ⟨v, rfl, hv, by omega, by omega, fun x _ _ _ => by omega, fun _ _ => rfl⟩

example : InTy .sbyte (-128) ∧ InTy .sbyte (-3) ∧ InTy .sbyte 100 ∧ clamp (-128) (-3) 100 = .ok (-3) ∧ clamp 5 7 6 = .throw .minMax := by
  unfold InTy; decide

/-- **C47**: `Max` and `Min` are the least upper and greatest lower bound of their arguments and one of them. -/
theorem C47_max_min (t : IntVal.Ty) (a b : Int) (ha : InTy t a) (hb : InTy t b) :
    (a ≤ maxI a b ∧ b ≤ maxI a b ∧ (∀ u, a ≤ u → b ≤ u → maxI a b ≤ u) ∧ (maxI a b = a ∨ maxI a b = b)) ∧
    (minI a b ≤ a ∧ minI a b ≤ b ∧ (∀ u, u ≤ a → u ≤ b → u ≤ minI a b) ∧ (minI a b = a ∨ minI a b = b)) := by
  unfold maxI minI
  constructor <;> split <;> refine ⟨by omega, by omega, fun u _ _ => by omega, by simp⟩

/-- **C47**: lattice laws: commutative, associative, absorbing. -/
theorem C47_lattice (a b c : Int) : maxI a b = maxI b a ∧ minI a b = minI b a ∧ maxI (maxI a b) c = maxI a (maxI b c) ∧
    minI (minI a b) c = minI a (minI b c) ∧ maxI a (minI a b) = a ∧ minI a (maxI a b) = a := by
  unfold maxI minI
  refine ⟨?_, ?_, ?_, ?_, ?_, ?_⟩ <;> repeat' split
  all_goals omega

example : InTy .uint64 0 ∧ InTy .uint64 18446744073709551615 ∧ maxI 0 18446744073709551615 = 18446744073709551615 := by unfold InTy; decide

/-- The sign of an integer as a specification. -/
def sgn (v : Int) : Int := if v < 0 then -1 else if v = 0 then 0 else 1

/-- **C47** (partial: all values but MinValue): `Sign(Int32)` is -1, 0 or 1 with the sign of the argument. -/
theorem C47_sign32_partial (v : Int) (h : InTy .int32 v) (hm : v ≠ -2147483648) : sign32 v = .ok (sgn v) := by
  obtain ⟨h1, h2⟩ := h
  simp only [IntVal.Ty.min, IntVal.Ty.max] at h1 h2
  unfold sign32 sgn
  rw [i32_ok (by unfold I32; omega), Res.bind_ok]
  congr 1
  rcases (by omega : v < 0 ∨ v = 0 ∨ 0 < v) with c | c | c
  · rw [if_pos c, show v / 2147483648 = -1 by omega, show wrapU32 (-v) / 2147483648 = 0 by unfold wrapU32; omega]; rfl
  · subst c; rfl
  · rw [if_neg (by omega), if_neg (by omega), show v / 2147483648 = 0 by omega, show wrapU32 (-v) / 2147483648 = 1 by unfold wrapU32; omega]; rfl

/-- **C47**: `Sign(Int16)` and `Sign(SByte)` are the sign for every value. -/
theorem C47_sign_small (v : Int) : (InTy .int16 v → sign16 v = .ok (sgn v)) ∧ (InTy .sbyte v → sign8 v = .ok (sgn v)) := by
  unfold InTy
  simp only [IntVal.Ty.min, IntVal.Ty.max]
  refine ⟨fun h => C47_sign32_partial v ?_ ?_, fun h => C47_sign32_partial v ?_ ?_⟩
  all_goals first
    | (unfold InTy; simp only [IntVal.Ty.min, IntVal.Ty.max]; omega)
    | omega

/-- **C47** (partial: all values but MinValue): `Sign(Int64)`. -/
theorem C47_sign64_partial (v : Int) (h : InTy .int64 v) (hm : v ≠ -9223372036854775808) : sign64 v = .ok (sgn v) := by
  obtain ⟨h1, h2⟩ := h
  simp only [IntVal.Ty.min, IntVal.Ty.max] at h1 h2
  unfold sign64 sgn
  rw [i64_ok (by unfold I64; omega), Res.bind_ok]
  congr 1
  rcases (by omega : v < 0 ∨ v = 0 ∨ 0 < v) with c | c | c
  · rw [if_pos c, show v / 9223372036854775808 = -1 by omega, show wrapU64 (-v) / 9223372036854775808 = 0 by unfold wrapU64; omega]; decide +kernel
  · subst c; decide +kernel
  · rw [if_neg (by omega), if_neg (by omega), show v / 9223372036854775808 = 0 by omega, show wrapU64 (-v) / 9223372036854775808 = 1 by unfold wrapU64; omega]
    decide +kernel

example : InTy .int64 (-9223372036854775807) ∧ sign64 (-9223372036854775807) = .ok (-1) ∧ sign32 77 = .ok 1 ∧ sign8 (-128) = .ok (-1) := by
  unfold InTy; decide +kernel

/-- **C47** refuted at MinValue: `Sign(Int32.MinValue)` and `Sign(Int64.MinValue)` negate a value whose negation does not exist. -/
theorem C47_sign_min_refuted : ¬ (∀ v, InTy .int32 v → sign32 v = .ok (sgn v)) ∧ ¬ (∀ v, InTy .int64 v → sign64 v = .ok (sgn v)) ∧
    sign32 (-2147483648) = .ub ∧ sign64 (-9223372036854775808) = .ub := by
  have e1 : sign32 (-2147483648) = .ub := by decide +kernel
  have e2 : sign64 (-9223372036854775808) = .ub := by decide +kernel
  refine ⟨fun h => ?_, fun h => ?_, e1, e2⟩
  · have := h (-2147483648) (by unfold InTy; decide); rw [e1] at this; cases this
  · have := h (-9223372036854775808) (by unfold InTy; decide); rw [e2] at this; cases this

/-- Division with remainder as C# defines it: the quotient truncates, the remainder has the dividend's sign. -/
def IsDivRem (a b q r : Int) : Prop := a = q * b + r ∧ r.natAbs < b.natAbs ∧ (r = 0 ∨ (0 < r ↔ 0 < a))

/-- Quotient and remainder are unique. -/
theorem isDivRem_unique {a b q r q' r' : Int} (h : IsDivRem a b q r) (h' : IsDivRem a b q' r') : q = q' ∧ r = r' := by
  obtain ⟨h1, h2, h3⟩ := h
  obtain ⟨h4, h5, h6⟩ := h'
  have e : (q - q') * b = r' - r := by rw [Int.sub_mul]; omega
  have hlt : (r' - r).natAbs < b.natAbs ∨ r' = r := by
    by_cases c1 : r = 0
    · subst c1; omega
    · by_cases c2 : r' = 0
      · subst c2; omega
      · omega
  have hq : q - q' = 0 := by
    rcases hlt with c | c
    · rw [← e, Int.natAbs_mul] at c
      rcases Nat.eq_zero_or_pos (q - q').natAbs with z | z
      · omega
      · have := Nat.le_mul_of_pos_left b.natAbs z; omega
    · rw [c, Int.sub_self] at e
      rcases Int.mul_eq_zero.mp e with z | z
      · exact z
      · subst z; omega
  rw [hq, Int.zero_mul] at e
  omega

theorem tdiv_isDivRem (a b : Int) (hb : b ≠ 0) : IsDivRem a b (a.tdiv b) (a - a.tdiv b * b) := by
  have e : a - a.tdiv b * b = a.tmod b := by have := Int.tmod_add_mul_tdiv a b; rw [Int.mul_comm] at this; omega
  rw [e]
  refine ⟨by omega, ?_, ?_⟩
  · rw [Int.natAbs_tmod]; exact Nat.mod_lt _ (by omega)
  · by_cases c : a = 0
    · left; rw [c, Int.zero_tmod]
    rw [tmod_split]
    split
    · have := Int.emod_nonneg a hb; omega
    · have := Int.emod_nonneg (-a) hb; omega

theorem tdiv_bound (a b : Int) : (a.tdiv b).natAbs ≤ a.natAbs := by
  rw [Int.natAbs_tdiv]; exact Nat.div_le_self ..

theorem tdiv_range {a b lo : Int} (h1 : -lo ≤ a) (h2 : a ≤ lo - 1) (h0 : 0 ≤ lo) (hb : b ≠ 0) (hm : ¬ (a = -lo ∧ b = -1)) :
    -lo ≤ a.tdiv b ∧ a.tdiv b ≤ lo - 1 := by
  have hb1 := tdiv_bound a b
  refine ⟨by omega, ?_⟩
  rcases Int.lt_or_le (a.tdiv b) lo with c | c
  · omega
  · exfalso
    have ha : a = -lo := by omega
    have hq : (a.tdiv b).natAbs = a.natAbs := by omega
    rw [Int.natAbs_tdiv] at hq
    rcases Nat.eq_or_lt_of_le (show 1 ≤ b.natAbs by omega) with d | d
    · have : b = 1 := by
        rcases (by omega : b = 1 ∨ b = -1) with x | x
        · exact x
        · exact absurd ⟨ha, x⟩ hm
      subst this
      rw [Int.tdiv_one] at c; omega
    · rcases Nat.eq_zero_or_pos a.natAbs with z | z
      · have : a.tdiv b = 0 := by omega
        have hlo : lo = 0 := by omega
        have : a = 0 := by omega
        omega
      · have hs : a.natAbs.div b.natAbs < a.natAbs := Nat.div_lt_self z d
        omega

/-- **C48** (partial: all pairs but MinValue by -1): `DivRem(Int32)` returns the truncated quotient and the matching remainder. -/
theorem C48_divrem32_partial (a b : Int) (ha : InTy .int32 a) (hb : InTy .int32 b) (h0 : b ≠ 0) (hm : ¬ (a = -2147483648 ∧ b = -1)) :
    ∃ q r, divRem32 a b = .ok (q, r) ∧ IsDivRem a b q r ∧ InTy .int32 q ∧ InTy .int32 r := by
  unfold InTy at *
  simp only [IntVal.Ty.min, IntVal.Ty.max] at *
  have hr := tdiv_range (a := a) (b := b) (lo := 2147483648) (by omega) (by omega) (by omega) h0 (by omega)
  have hd := tdiv_isDivRem a b h0
  unfold divRem32
  rw [if_neg h0, i32_ok (by unfold I32; omega), Res.bind_ok]
  generalize a.tdiv b = q at *
  have hx := hd.1
  have hy := hd.2.1
  have hz := hd.2.2
  have hr1 : I32 (a - q * b) := by unfold I32; generalize q * b = p at *; omega
  have hp : I32 (q * b) := by unfold I32 at *; generalize q * b = p at *; omega
  rw [i32_ok hp, Res.bind_ok, i32_ok hr1, Res.bind_ok]
  exact ⟨q, _, rfl, hd, by omega, hr1⟩

example : InTy .int32 (-7) ∧ InTy .int32 2 ∧ divRem32 (-7) 2 = .ok (-3, -1) := by unfold InTy; decide +kernel

/-- **C48**: a zero divisor raises DivideByZeroException in all three functions, whatever the dividend. -/
theorem C48_zero (a : Int) : divRem32 a 0 = .throw .divideByZero ∧ divRem64 a 0 = .throw .divideByZero ∧ divide64 a 0 = .throw .divideByZero := by
  simp [divRem32, divRem64, divide64]

/-- **C48** (partial: quotients that fit Int32): `DivRem(Int64)`. -/
theorem C48_divrem64_partial (a b q r : Int) (ha : InTy .int64 a) (hb : InTy .int64 b) (h0 : b ≠ 0) (hd : IsDivRem a b q r)
    (hq : InTy .int32 q) : divRem64 a b = .ok (q, r) := by
  obtain ⟨e1, e2⟩ := isDivRem_unique hd (tdiv_isDivRem a b h0)
  unfold InTy at *
  simp only [IntVal.Ty.min, IntVal.Ty.max] at *
  have hx := hd.1
  have hy := hd.2.1
  have hz := hd.2.2
  unfold divRem64
  rw [if_neg h0, i64_ok (by unfold I64; omega), Res.bind_ok, ← e1, wrapI32_of (by unfold I32; omega)]
  rw [← e1] at e2
  have hr1 : I64 (a - q * b) := by unfold I64; generalize q * b = p at *; omega
  have hp : I64 (q * b) := by unfold I64 at *; generalize q * b = p at *; omega
  simp only []
  rw [i64_ok hp, Res.bind_ok, i64_ok hr1, Res.bind_ok, e2]

example : InTy .int64 (-9223372036854775808) ∧ InTy .int64 4611686018427387905 ∧
    IsDivRem (-9223372036854775808) 4611686018427387905 (-1) (-4611686018427387903) ∧ InTy .int32 (-1) ∧
    divRem64 (-9223372036854775808) 4611686018427387905 = .ok (-1, -4611686018427387903) := by
  unfold InTy IsDivRem; decide +kernel

/-- **C48** refuted for Int64: a quotient that needs more than 32 bits is truncated, giving a wrong quotient and a remainder larger
than the divisor, or overflows. -/
theorem C48_divrem64_refuted :
    ¬ (∀ a b, InTy .int64 a → InTy .int64 b → b ≠ 0 → ∃ q r, divRem64 a b = .ok (q, r) ∧ IsDivRem a b q r) ∧
    divRem64 4294967296 1 = .ok (0, 4294967296) ∧ divRem64 4611686018427387904 2147483648 = .ub := by
  have e : divRem64 4294967296 1 = .ok (0, 4294967296) := by decide +kernel
  refine ⟨fun h => ?_, e, by decide +kernel⟩
  obtain ⟨q, r, h1, h2⟩ := h 4294967296 1 (by unfold InTy; decide) (by unfold InTy; decide) (by decide)
  rw [e, Res.ok.injEq, Prod.mk.injEq] at h1
  obtain ⟨rfl, rfl⟩ := h1
  exact absurd h2.2.1 (by decide)

/-- **C48**: whenever `DivRem(Int64)` returns at all, quotient times divisor plus remainder is the dividend. -/
theorem C48_divrem64_identity (a b q r : Int) (h : divRem64 a b = .ok (q, r)) : a = q * b + r := by
  unfold divRem64 at h
  split at h
  · cases h
  · simp only [Res.bind_eq_ok] at h
    obtain ⟨x, _, y, h2, z, h3, h4⟩ := h
    rw [Res.ok.injEq, Prod.mk.injEq] at h4
    unfold i64 at h2 h3
    split at h2
    · split at h3
      · rw [Res.ok.injEq] at h2 h3
        obtain ⟨rfl, rfl⟩ := h4
        omega
      · cases h3
    · cases h2

/-- **C48** (partial: all pairs but MinValue by -1): `Divide(Int64, Int64)` is the truncated quotient. -/
theorem C48_divide64_partial (a b : Int) (ha : InTy .int64 a) (hb : InTy .int64 b) (h0 : b ≠ 0) (hm : ¬ (a = -9223372036854775808 ∧ b = -1)) :
    ∃ q r, divide64 a b = .ok q ∧ IsDivRem a b q r := by
  unfold InTy at *
  simp only [IntVal.Ty.min, IntVal.Ty.max] at *
  have hr := tdiv_range (a := a) (b := b) (lo := 9223372036854775808) (by omega) (by omega) (by omega) h0 (by omega)
  unfold divide64
  rw [if_neg h0, i64_ok (by unfold I64; omega)]
  exact ⟨_, _, rfl, tdiv_isDivRem a b h0⟩

/-- **C48** refuted at MinValue by -1: undefined behaviour in all three. -/
theorem C48_min_refuted : divRem32 (-2147483648) (-1) = .ub ∧ divRem64 (-9223372036854775808) (-1) = .ub ∧
    divide64 (-9223372036854775808) (-1) = .ub := by decide +kernel

/-- **C78**: `BigMul` is the exact product for every pair of Int32. -/
theorem C78_bigmul (a b : Int) (ha : InTy .int32 a) (hb : InTy .int32 b) : bigMul a b = .ok (a * b) := by
  unfold InTy at *
  simp only [IntVal.Ty.min, IntVal.Ty.max] at *
  unfold bigMul
  apply i64_ok
  have h : (a * b).natAbs ≤ 2147483648 * 2147483648 := by
    rw [Int.natAbs_mul]; exact Nat.mul_le_mul (by omega) (by omega)
  unfold I64
  omega

example : InTy .int32 (-2147483648) ∧ bigMul (-2147483648) (-2147483648) = .ok 4611686018427387904 := by unfold InTy; decide +kernel

/-- **C79** (partial: MinValue excluded): `Abs` on Int32, and on Int16 and SByte without exception, is the absolute value. -/
theorem C79_abs_partial (v : Int) : (InTy .int32 v → v ≠ -2147483648 → abs32 v = .ok v.natAbs) ∧
    (InTy .int16 v → abs32 v = .ok v.natAbs) ∧ (InTy .sbyte v → abs32 v = .ok v.natAbs) := by
  unfold InTy
  simp only [IntVal.Ty.min, IntVal.Ty.max]
  unfold abs32
  refine ⟨fun h hm => ?_, fun h => ?_, fun h => ?_⟩
  all_goals
    split
    · rw [i32_ok (by unfold I32; omega)]; congr 1; omega
    · congr 1; omega

example : InTy .int16 (-32768) ∧ abs32 (-32768) = .ok 32768 := by unfold InTy; decide

/-- **C79** refuted: `Abs(Int32.MinValue)` is undefined behaviour instead of OverflowException. -/
theorem C79_abs_min_refuted : abs32 (-2147483648) = .ub := by decide

end Verif.MathProps
