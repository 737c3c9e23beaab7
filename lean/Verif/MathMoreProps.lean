import Verif.MathRoundProps
/-!
# C137: Math.FusedMultiplyAdd; C138: Math.IEEERemainder; C139: Math.ILogB; C140: Math.ScaleB
-/
namespace Verif.MathRound
open Verif.FltModel Verif.FltSpec Verif.FltProps Verif.Rnd Verif.FloatTextSpec
open Verif.FloatText (finite_mag number_parts lib_bin exists_mag mag_form rem_mag near_roundMag)
open Verif.FloatExpr (nan_false wparts magVal_pos number_val near_le)

/-! ### FusedMultiplyAdd -/

/-- **C137** (partial: the product is a double): `FusedMultiplyAdd(x, y, z)` is `x * y + z` rounded once. Missing: every other product, `C137_refuted`. -/
theorem C137_exact_product_partial (x y z : Nat) (hx : Fin x) (hy : Fin y) (hz : Fin z) (c : Nat) (hc : Fin c) (he : number dbl c = number dbl x * number dbl y) (hm : Fin (FloatExpr.mul dbl x y)) :
    Rounded dbl (number dbl x * number dbl y + number dbl z) (fusedMultiplyAdd x y z) := by
  have h1 := FloatExpr.mul_rounded libd x y hx hy
  have h2 := FloatExpr.add_rounded libd (FloatExpr.mul dbl x y) z hm hz
  rw [rounded_exact h1 hc.1 hc.2.1 he] at h2
  exact h2

/-- 3 * 0.5 + 1e-20 -/
example : Fin 0x4008000000000000 ∧ Fin (FloatExpr.mul dbl 0x4008000000000000 0x3FE0000000000000) ∧ number dbl 0x3FF8000000000000 = number dbl 0x4008000000000000 * number dbl 0x3FE0000000000000 ∧
    fusedMultiplyAdd 0x4008000000000000 0x3FE0000000000000 0x3BC79CA10C924223 = 0x3FF8000000000000 := by
  refine ⟨(fin_iff _).2 (by decide +kernel), (fin_iff _).2 (by decide +kernel), ?_⟩; decide +kernel

/-- **C137** (refuted): the product is rounded before the addition, which is what the function exists to avoid. `x = 1 + 2^-27`: `x * x - (1 + 2^-26)` is `2^-54`, the result is 0. And an intermediate overflow is not avoided:
`1e308 * 10 - 1.5e308` is infinite. -/
theorem C137_refuted : fusedMultiplyAdd 0x3FF0000002000000 0x3FF0000002000000 0xBFF0000004000000 = 0 ∧
    number dbl 0x3FF0000002000000 * number dbl 0x3FF0000002000000 + number dbl 0xBFF0000004000000 = 1 / 2 ^ 54 ∧ ¬ Rounded dbl (1 / 2 ^ 54) 0 ∧
    fusedMultiplyAdd 0x7FE0000000000000 0x4000000000000000 0xFFE0000000000000 = posInf dbl ∧
    number dbl 0x7FE0000000000000 * number dbl 0x4000000000000000 + number dbl 0xFFE0000000000000 = number dbl 0x7FE0000000000000 := by
  refine ⟨by decide +kernel, by decide +kernel, ?_, by decide +kernel, by decide +kernel⟩
  intro h
  have h1 := rounded_exact (c := 0x3C90000000000000) h (by decide) (by decide) (by decide +kernel)
  have h2 : number dbl 0 = 0 := by decide +kernel
  rw [h2] at h1
  norm_num at h1

/-! ### IEEERemainder -/

/-- The remainder of least size is a number of the format. -/
theorem near_rem_mag (a b : Nat) (hb : 0 < b) (h : magVal dbl b ≤ 2 * (magVal dbl a % magVal dbl b)) : ∃ m, magVal dbl m = magVal dbl b - magVal dbl a % magVal dbl b ∧ m ≤ b := by
  have h0 := bin_dbl
  obtain ⟨A, p, ha, hA⟩ := mag_form h0 a
  obtain ⟨B, q, hb', hB⟩ := mag_form h0 b
  have hbv := magVal_pos h0 hb
  have hlt := Nat.mod_lt (magVal dbl a) hbv
  have hle := Nat.mod_le (magVal dbl a) (magVal dbl b)
  have fin : ∀ r e, magVal dbl b - magVal dbl a % magVal dbl b = r * 2 ^ e → r ≤ 2 ^ (fbits dbl + 1) → ∃ m, magVal dbl m = magVal dbl b - magVal dbl a % magVal dbl b ∧ m ≤ b := by
    intro r e h1 h2
    obtain ⟨m, hm⟩ := exists_mag h0 r e h2
    refine ⟨m, by rw [hm, h1], ?_⟩
    by_contra hc
    have := magVal_lt dbl (M0 h0) (show b < m by omega)
    omega
  rcases Nat.le_total p q with c | c
  · obtain ⟨j, rfl⟩ : ∃ j, q = p + j := ⟨q - p, by omega⟩
    have e : magVal dbl a % magVal dbl b = (A % (B * 2 ^ j)) * 2 ^ p := by
      rw [ha, hb', Nat.pow_add, Nat.mul_comm (2 ^ p), ← Nat.mul_assoc, Nat.mul_mod_mul_right]
    have e2 : magVal dbl b = (B * 2 ^ j) * 2 ^ p := by rw [hb', Nat.pow_add, Nat.mul_comm (2 ^ p), ← Nat.mul_assoc]
    have e3 : magVal dbl b - magVal dbl a % magVal dbl b = (B * 2 ^ j - A % (B * 2 ^ j)) * 2 ^ p := by rw [e, Nat.sub_mul, ← e2]
    refine fin _ _ e3 ?_
    rw [e, e2, ← Nat.mul_assoc] at h
    have h4 := Nat.le_of_mul_le_mul_right h (Nat.two_pow_pos p)
    have h5 := Nat.mod_le A (B * 2 ^ j)
    omega
  · obtain ⟨j, rfl⟩ : ∃ j, p = q + j := ⟨p - q, by omega⟩
    have e : magVal dbl a % magVal dbl b = ((A * 2 ^ j) % B) * 2 ^ q := by
      rw [ha, hb', Nat.pow_add, Nat.mul_comm (2 ^ q), ← Nat.mul_assoc, Nat.mul_mod_mul_right]
    have e3 : magVal dbl b - magVal dbl a % magVal dbl b = (B - (A * 2 ^ j) % B) * 2 ^ q := by rw [e, Nat.sub_mul, ← hb']
    refine fin _ _ e3 ?_
    omega

/-- The nearest integer, and what is left. -/
theorem rne_rem (a b : Nat) (hb : 0 < b) : 2 * ((a : Int) - Arith.rne a b * b).natAbs ≤ b ∧ (2 * ((a : Int) - Arith.rne a b * b).natAbs = b → Arith.rne a b % 2 = 0) ∧
    (((a : Int) - Arith.rne a b * b).natAbs = a % b ∨ (((a : Int) - Arith.rne a b * b).natAbs = b - a % b ∧ b ≤ 2 * (a % b))) := by
  have h1 := Nat.div_add_mod a b
  have h2 := Nat.mod_lt a hb
  have e0 : (a : Int) - ((a / b : Nat) : Int) * b = ((a % b : Nat) : Int) := by
    have : (a : Int) = ((b * (a / b) + a % b : Nat) : Int) := by rw [h1]
    rw [this, Int.natCast_add, Int.natCast_mul, Int.mul_comm, ← h1]
    simp
  have e1 : (a : Int) - ((a / b + 1 : Nat) : Int) * b = -((b - a % b : Nat) : Int) := by
    rw [Int.natCast_add, Int.add_mul, Int.natCast_one, Int.one_mul, ← sub_sub, e0]; omega
  unfold Arith.rne
  generalize a % b = r at *
  split
  · rw [e0, Int.natAbs_natCast]; exact ⟨by omega, fun h => absurd h (by omega), Or.inl rfl⟩
  · split
    · rw [e1, Int.natAbs_neg, Int.natAbs_natCast]; exact ⟨by omega, fun h => absurd h (by omega), Or.inr ⟨rfl, by omega⟩⟩
    · split
      · rename_i h
        rw [e0, Int.natAbs_natCast]; exact ⟨by omega, fun _ => h, Or.inl rfl⟩
      · rw [e1, Int.natAbs_neg, Int.natAbs_natCast]; exact ⟨by omega, fun _ => by omega, Or.inr ⟨rfl, by omega⟩⟩

/-- **C138**: `IEEERemainder(x, y)` of finite numbers, `y ≠ 0`, is exactly `x - n * y` where `n` is the integer nearest to the exact quotient `x / y`, the even one of two equally near; a zero result has the sign of `x`. -/
theorem C138_remainder (x y : Nat) (hx : Fin x) (hy : Fin y) (h0 : number dbl y ≠ 0) :
    ∃ n : Int, Fin (ieeeRemainder x y) ∧ number dbl (ieeeRemainder x y) = number dbl x - n * number dbl y ∧ |number dbl x / number dbl y - n| ≤ 1 / 2 ∧ (|number dbl x / number dbl y - n| = 1 / 2 → n % 2 = 0) ∧
      (number dbl (ieeeRemainder x y) = 0 → neg dbl (ieeeRemainder x y) = neg dbl x) := by
  have ix := finite_mag libd hx
  have iy := finite_mag libd hy
  have hy0 : mag dbl y ≠ 0 := by
    intro h; apply h0; rw [number_parts, h, magVal_zero, Nat.cast_zero, zero_div, mul_zero]
  have hb := magVal_pos bin_dbl (Nat.pos_of_ne_zero hy0)
  obtain ⟨r1, r2, r3⟩ := rne_rem (magVal dbl (mag dbl x)) (magVal dbl (mag dbl y)) hb
  have hm : ∃ m, m < dbl.I ∧ magVal dbl m = ((magVal dbl (mag dbl x) : Int) - Arith.rne (magVal dbl (mag dbl x)) (magVal dbl (mag dbl y)) * magVal dbl (mag dbl y)).natAbs := by
    rcases r3 with h | ⟨h, h'⟩
    · obtain ⟨m, m1, m2⟩ := rem_mag bin_dbl (mag dbl x) (mag dbl y) (Nat.pos_of_ne_zero hy0)
      exact ⟨m, by omega, by rw [m1, h]⟩
    · obtain ⟨m, m1, m2⟩ := near_rem_mag (mag dbl x) (mag dbl y) (Nat.pos_of_ne_zero hy0) h'
      exact ⟨m, by omega, by rw [m1, h]⟩
  obtain ⟨m, m1, m2⟩ := hm
  have e : ieeeRemainder x y = if (magVal dbl (mag dbl x) : Int) - Arith.rne (magVal dbl (mag dbl x)) (magVal dbl (mag dbl y)) * magVal dbl (mag dbl y) < 0 then pack dbl (!neg dbl x) m else pack dbl (neg dbl x) m := by
    unfold ieeeRemainder
    rw [(nan_false x).2 (le_of_lt ix), (nan_false y).2 (le_of_lt iy), if_neg (show ¬ (mag dbl x = dbl.I ∨ mag dbl y = 0) by omega), if_neg (show ¬ mag dbl y = dbl.I by omega)]
    simp only [Bool.or_self, Bool.false_eq_true, if_false]
    rw [← m2]
    have := roundMag_exact bin_dbl m 1 Nat.one_pos (le_of_lt m1)
    rw [Nat.mul_one] at this
    rw [this]
  have hP := two_pow_places
  rw [number_parts x, number_parts y]
  generalize magVal dbl (mag dbl x) = a at *
  generalize magVal dbl (mag dbl y) = b at *
  generalize hk : Arith.rne a b = k at *
  have hbq : (0 : ℚ) < b := by exact_mod_cast hb
  -- the number of the result
  have hnum : Fin (ieeeRemainder x y) ∧ number dbl (ieeeRemainder x y) = (if neg dbl x = true then -1 else 1) * (((a : ℚ) - k * b) / 2 ^ places dbl) ∧ ((a : Int) - k * b = 0 → neg dbl (ieeeRemainder x y) = neg dbl x) := by
    have mcast : (magVal dbl m : ℚ) = |(a : ℚ) - k * b| := by
      rw [m2, Nat.cast_natAbs, Int.cast_abs]; push_cast; rfl
    rw [e]
    split
    · rename_i hneg
      obtain ⟨q1, q2, q3, q4⟩ := pack_fin (!neg dbl x) m m1
      refine ⟨q1, ?_, fun h => by omega⟩
      have : (a : ℚ) - k * b < 0 := by exact_mod_cast hneg
      rw [q4, mcast, abs_of_neg this]
      cases neg dbl x
      · simp only [Bool.not_false, Bool.false_eq_true, if_true, if_false]; ring
      · simp only [Bool.not_true, Bool.false_eq_true, if_true, if_false]; ring
    · rename_i hneg
      obtain ⟨q1, q2, q3, q4⟩ := pack_fin (neg dbl x) m m1
      refine ⟨q1, ?_, fun _ => q2⟩
      have : (0 : ℚ) ≤ (a : ℚ) - k * b := by exact_mod_cast not_lt.1 hneg
      rw [q4, mcast, abs_of_nonneg this]
  obtain ⟨n1, n2, n3⟩ := hnum
  have hq : |((a : ℚ) - k * b)| = (((a : Int) - k * b).natAbs : ℚ) := by
    rw [Nat.cast_natAbs, Int.cast_abs]; push_cast; rfl
  have habs : |(a : ℚ) / b - k| * b = (((a : Int) - k * b).natAbs : ℚ) := by
    have e1 : (a : ℚ) - k * b = ((a : ℚ) / b - k) * b := by rw [sub_mul, div_mul_cancel₀ _ (ne_of_gt hbq)]
    rw [← hq, e1, abs_mul, abs_of_pos hbq]
  have quot : ∀ s t : Bool, |((if s = true then (-1 : ℚ) else 1) * ((a : ℚ) / 2 ^ places dbl)) / ((if t = true then -1 else 1) * ((b : ℚ) / 2 ^ places dbl)) - ((sgn (s != t) k : Int) : ℚ)| = |(a : ℚ) / b - k| := by
    intro s t
    have : (a : ℚ) / 2 ^ places dbl / ((b : ℚ) / 2 ^ places dbl) = a / b := by
      generalize (2 : ℚ) ^ places dbl = P at *
      field_simp
    rw [sgn_cast, mul_div_mul_comm, this]
    cases s <;> cases t <;> simp only [Bool.false_eq_true, if_true, if_false, bne_self_eq_false, Bool.bne_false, Bool.bne_true, Bool.not_false, Bool.not_true]
    · norm_num
    · rw [show (1 : ℚ) / -1 * ((a : ℚ) / b) - -1 * k = -((a : ℚ) / b - k) by ring, abs_neg]
    · rw [show (-1 : ℚ) / 1 * ((a : ℚ) / b) - -1 * k = -((a : ℚ) / b - k) by ring, abs_neg]
    · norm_num
  have par : ∀ s : Bool, k % 2 = 0 → sgn s k % 2 = 0 := by
    intro s h
    unfold sgn
    cases s
    · simp only [Bool.false_eq_true, if_false]; omega
    · simp only [if_true]; omega
  refine ⟨sgn (neg dbl x != neg dbl y) k, n1, ?_, ?_, ?_, ?_⟩
  · rw [n2, sgn_cast]
    generalize (2 : ℚ) ^ places dbl = P at *
    cases neg dbl x <;> cases neg dbl y <;> simp only [Bool.false_eq_true, if_true, if_false, bne_self_eq_false, Bool.bne_false, Bool.bne_true, Bool.not_false, Bool.not_true] <;> ring
  · rw [quot]
    have h5 : (2 : ℚ) * (((a : Int) - k * b).natAbs : ℚ) ≤ b := by exact_mod_cast r1
    rw [← habs] at h5
    by_contra hc
    rw [not_le] at hc
    nlinarith
  · rw [quot]
    intro h
    apply par
    apply r2
    have h5 : (2 : ℚ) * (((a : Int) - k * b).natAbs : ℚ) = b := by rw [← habs, h]; ring
    exact_mod_cast h5
  · intro h
    apply n3
    rw [n2] at h
    have h6 : ((a : ℚ) - k * b) / 2 ^ places dbl = 0 := by
      cases hs : neg dbl x <;> rw [hs] at h
      · simpa using h
      · simp only [if_true] at h; linarith
    rw [div_eq_zero_iff] at h6
    rcases h6 with h6 | h6
    · exact_mod_cast h6
    · exact absurd h6 (ne_of_gt hP)

/-- 5 rem 3 = -1; 2.5 rem 1 = 0.5 (the even quotient 2); -4 rem 2 is -0. -/
example : Fin 0x4014000000000000 ∧ number dbl 0x4008000000000000 ≠ 0 ∧ ieeeRemainder 0x4014000000000000 0x4008000000000000 = 0xBFF0000000000000 ∧ ieeeRemainder 0x4004000000000000 0x3FF0000000000000 = 0x3FE0000000000000 ∧
    ieeeRemainder 0xC010000000000000 0x4000000000000000 = 0x8000000000000000 := by
  refine ⟨(fin_iff _).2 (by decide +kernel), ?_⟩; decide +kernel

/-- **C138**: NaN operands, an infinite dividend or a zero divisor give NaN; an infinite divisor leaves a finite dividend. -/
theorem C138_special (x y : Nat) :
    ((classOf dbl x = .nan ∨ classOf dbl y = .nan ∨ classOf dbl x = .infinite ∨ classOf dbl y = .zero) → classOf dbl (ieeeRemainder x y) = .nan) ∧
    (Fin x → classOf dbl y = .infinite → ieeeRemainder x y = x) := by
  have hf := facts libd
  have nanI : classOf dbl (FloatExpr.NaN dbl) = .nan := (nan_class hf _).1 (FloatExpr.NaN_nan libd).1
  constructor
  · intro h
    unfold ieeeRemainder
    rw [← nan_class hf, ← nan_class hf, class_inf hf, class_zero hf] at h
    by_cases c : (nan dbl x || nan dbl y) = true
    · rw [if_pos c]; exact nanI
    · rw [if_neg c]
      rw [Bool.or_eq_true] at c
      rcases h with h | h | h | h
      · exact absurd (Or.inl h) c
      · exact absurd (Or.inr h) c
      · rw [if_pos (show mag dbl x = dbl.I ∨ mag dbl y = 0 from Or.inl h)]; exact nanI
      · rw [if_pos (show mag dbl x = dbl.I ∨ mag dbl y = 0 from Or.inr h)]; exact nanI
  · intro hx hy
    have ix := finite_mag libd hx
    have iy : mag dbl y = dbl.I := (class_inf hf y).1 hy
    have hI : dbl.I ≠ 0 := by decide
    unfold ieeeRemainder
    rw [(nan_false x).2 (le_of_lt ix), (nan_false y).2 (le_of_eq iy), if_neg (show ¬ (mag dbl x = dbl.I ∨ mag dbl y = 0) by omega), if_pos iy]
    simp only [Bool.or_self, Bool.false_eq_true, if_false]

example : ieeeRemainder 0x3FF0000000000000 0 = 0x7FF8000000000000 ∧ ieeeRemainder 0x3FF0000000000000 0x7FF0000000000000 = 0x3FF0000000000000 := by decide +kernel

/-! ### ILogB -/

/-- **C139** (partial: a finite number other than zero): `ILogB(x)` is the exponent of the power of two below the size of `x`, for subnormal numbers too. Missing: `C139_refuted`. -/
theorem C139_exponent_partial (x : Nat) (hx : Fin x) (h0 : number dbl x ≠ 0) : ∃ e : Int, iLogB x = .ok e ∧ (2 : ℚ) ^ e ≤ |number dbl x| ∧ |number dbl x| < 2 ^ (e + 1) := by
  have ix := finite_mag libd hx
  have hx0 : mag dbl x ≠ 0 := by
    intro h; apply h0; rw [number_parts, h, magVal_zero, Nat.cast_zero, zero_div, mul_zero]
  have hv := magVal_pos bin_dbl (Nat.pos_of_ne_zero hx0)
  refine ⟨(Nat.log2 (magVal dbl (mag dbl x)) : Int) - places dbl, ?_, ?_⟩
  · unfold iLogB; rw [if_neg (by omega)]
  · have s1 : |(if neg dbl x = true then (-1 : ℚ) else 1)| = 1 := by cases neg dbl x <;> simp
    have hP := two_pow_places
    rw [number_parts, abs_mul, s1, one_mul, abs_of_nonneg (div_nonneg (Nat.cast_nonneg _) (le_of_lt hP))]
    have l1 := (Nat.le_log2 (Nat.pos_iff_ne_zero.1 hv) (k := Nat.log2 (magVal dbl (mag dbl x)))).1 (Nat.le_refl _)
    have l2 := Nat.lt_log2_self (n := magVal dbl (mag dbl x))
    generalize magVal dbl (mag dbl x) = V at *
    generalize Nat.log2 V = L at *
    have q1 : (2 : ℚ) ^ L ≤ V := by exact_mod_cast l1
    have q2 : (V : ℚ) < 2 ^ (L + 1) := by exact_mod_cast l2
    rw [le_div_iff₀ hP, div_lt_iff₀ hP, ← zpow_natCast (2 : ℚ) (places dbl), ← zpow_add₀ (by norm_num), ← zpow_add₀ (by norm_num), sub_add_cancel,
      show (L : Int) - (places dbl : Int) + 1 + (places dbl : Int) = ((L + 1 : Nat) : Int) by push_cast; ring, zpow_natCast, zpow_natCast]
    exact ⟨q1, q2⟩

/-- 10, 0.1 and the least positive double. -/
example : Fin 0x4024000000000000 ∧ number dbl 0x4024000000000000 ≠ 0 ∧ iLogB 0x4024000000000000 = .ok 3 ∧ iLogB 0x3FB999999999999A = .ok (-4) ∧ iLogB 1 = .ok (-1074) := by
  refine ⟨(fin_iff _).2 (by decide +kernel), ?_⟩; decide +kernel

/-- **C139** (refuted): of zero, an infinity or NaN an infinity or NaN is converted to Int32, which is undefined; .NET gives Int32.MinValue for 0 and Int32.MaxValue for the others. -/
theorem C139_refuted (x : Nat) : iLogB x = .ub ↔ classOf dbl x = .zero ∨ classOf dbl x = .nan ∨ classOf dbl x = .infinite := by
  have hf := facts libd
  rw [← nan_class hf, class_inf hf, class_zero hf, FloatExpr.nan_iff]
  unfold iLogB
  show _ ↔ mag dbl x = 0 ∨ _ ∨ mag dbl x = dbl.I
  split
  · rename_i h
    exact ⟨fun _ => by omega, fun _ => rfl⟩
  · rename_i h
    exact ⟨fun h => (by cases h), fun h' => absurd h' (by omega)⟩

/-! ### ScaleB -/

/-- **C140**: `ScaleB(x, n)` of a finite number is `x * 2^n` rounded once, for every `n`, with the sign of `x`; exact whenever the result is a double. -/
theorem C140_scale (x : Nat) (n : Int) (hx : Fin x) : Rounded dbl (number dbl x * 2 ^ n) (scaleB x n) ∧ neg dbl (scaleB x n) = neg dbl x ∧
    (∀ c, Fin c → number dbl c = number dbl x * 2 ^ n → number dbl (scaleB x n) = number dbl x * 2 ^ n) := by
  have ix := finite_mag libd hx
  have hP := two_pow_places
  have main : Rounded dbl (number dbl x * 2 ^ n) (scaleB x n) ∧ neg dbl (scaleB x n) = neg dbl x := by
    unfold scaleB
    rw [(nan_false x).2 (le_of_lt ix), if_neg (show ¬ mag dbl x = dbl.I by omega)]
    simp only [Bool.false_eq_true, if_false]
    refine ⟨?_, (pack_parts bin_dbl _ _ (by split <;> exact roundMag_le _ _)).1⟩
    by_cases c : n < 0
    · rw [if_pos c]
      have h := FloatExpr.rounded_mag libd (neg dbl x) (magVal dbl (mag dbl x)) (2 ^ n.natAbs) (Nat.two_pow_pos _)
      have e : (2 : ℚ) ^ n = (2 ^ n.natAbs)⁻¹ := by
        have : n = -((n.natAbs : Nat) : Int) := by omega
        conv_lhs => rw [this]
        rw [zpow_neg, zpow_natCast]
      rw [e, number_parts]
      rw [Nat.cast_pow, Nat.cast_ofNat] at h
      have e2 : (if neg dbl x = true then (-1 : ℚ) else 1) * ((magVal dbl (mag dbl x) : ℚ) / 2 ^ n.natAbs / 2 ^ places dbl) = (if neg dbl x = true then -1 else 1) * ((magVal dbl (mag dbl x) : ℚ) / 2 ^ places dbl) * (2 ^ n.natAbs)⁻¹ := by
        generalize (2 : ℚ) ^ n.natAbs = A
        generalize (2 : ℚ) ^ places dbl = P
        rw [div_eq_mul_inv, div_eq_mul_inv, div_eq_mul_inv]; ring
      rw [e2] at h
      exact h
    · rw [if_neg c]
      have h := FloatExpr.rounded_mag libd (neg dbl x) (magVal dbl (mag dbl x) * 2 ^ n.natAbs) 1 Nat.one_pos
      have e : (2 : ℚ) ^ n = 2 ^ n.natAbs := by
        have : n = ((n.natAbs : Nat) : Int) := by omega
        conv_lhs => rw [this]
        rw [zpow_natCast]
      rw [e, number_parts]
      rw [Nat.cast_mul, Nat.cast_pow, Nat.cast_ofNat, Nat.cast_one, div_one] at h
      have e2 : (if neg dbl x = true then (-1 : ℚ) else 1) * ((magVal dbl (mag dbl x) : ℚ) * 2 ^ n.natAbs / 2 ^ places dbl) = (if neg dbl x = true then -1 else 1) * ((magVal dbl (mag dbl x) : ℚ) / 2 ^ places dbl) * 2 ^ n.natAbs := by
        generalize (2 : ℚ) ^ n.natAbs = A
        generalize (2 : ℚ) ^ places dbl = P
        rw [div_eq_mul_inv, div_eq_mul_inv]; ring
      rw [e2] at h
      exact h
  exact ⟨main.1, main.2, fun c hc he => rounded_exact main.1 hc.1 hc.2.1 he⟩

/-- **C140**: infinities are kept, NaN stays NaN. -/
theorem C140_special (x : Nat) (n : Int) : (classOf dbl x = .infinite → scaleB x n = x) ∧ (classOf dbl x = .nan → classOf dbl (scaleB x n) = .nan) := by
  have hf := facts libd
  constructor
  · intro h
    have hi : mag dbl x = dbl.I := (class_inf hf x).1 h
    unfold scaleB
    rw [(nan_false x).2 (le_of_eq hi), if_neg (by decide), if_pos hi]
  · intro h
    unfold scaleB
    rw [if_pos ((nan_class hf x).2 h)]
    exact (nan_class hf _).1 (FloatExpr.NaN_nan libd).1

/-- 3 * 2^-2, and a subnormal result that is rounded. -/
example : scaleB 0x4008000000000000 (-2) = 0x3FE8000000000000 ∧ scaleB 0x4008000000000000 (-1075) = 2 ∧ scaleB 0x3FF0000000000000 1024 = 0x7FF0000000000000 := by decide +kernel

end Verif.MathRound
