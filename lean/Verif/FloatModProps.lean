import Verif.FloatTextProps
/-!
# C132: Double.Modulus and Single.Modulus
-/
namespace Verif.FloatText
open Verif.FltModel Verif.FltSpec Verif.FltProps Verif.Rnd Verif.FloatTextSpec

variable {F : Fmt}

/-- A number with at most `fbits + 1` significant bits is a number of the format (exponents continued). -/
theorem exists_mag (h0 : IsBin F) (k e : Nat) (hk : k ≤ 2 ^ (fbits F + 1)) : ∃ m, magVal F m = k * 2 ^ e := by
  induction e generalizing k with
  | zero => exact ⟨0 * F.M + k, magVal_place h0 0 k hk (Or.inl rfl)⟩
  | succ e ih =>
    rcases Nat.lt_or_ge k (2 ^ fbits F) with c | c
    · obtain ⟨m, hm⟩ := ih (k * 2) (by rw [Nat.pow_succ]; omega)
      exact ⟨m, by rw [hm, Nat.pow_succ, Nat.mul_assoc, Nat.mul_comm 2]⟩
    · exact ⟨(e + 1) * F.M + k, magVal_place h0 (e + 1) k hk (Or.inr c)⟩

/-- Every magnitude has that form, with its own last place. -/
theorem mag_form (h0 : IsBin F) (m : Nat) : ∃ k e, magVal F m = k * 2 ^ e ∧ k < 2 ^ (fbits F + 1) := by
  have hr := Nat.mod_lt m (M0 h0)
  have hM := h0.M
  unfold magVal
  split
  · exact ⟨m % F.M, 0, by simp, by rw [Nat.pow_succ]; omega⟩
  · exact ⟨F.M + m % F.M, m / F.M - 1, rfl, by rw [Nat.pow_succ]; omega⟩

/-- The remainder of two numbers of the format is a number of the format. -/
theorem rem_mag (h0 : IsBin F) (a b : Nat) (hb : 0 < b) : ∃ m, magVal F m = magVal F a % magVal F b ∧ m < b := by
  obtain ⟨A, p, ha, hA⟩ := mag_form h0 a
  obtain ⟨B, q, hb', hB⟩ := mag_form h0 b
  have hbv : 0 < magVal F b := by
    have := magVal_lt F (M0 h0) hb
    rwa [magVal_zero] at this
  have hlt := Nat.mod_lt (magVal F a) hbv
  have hle := Nat.mod_le (magVal F a) (magVal F b)
  have fin : ∀ r e, magVal F a % magVal F b = r * 2 ^ e → r ≤ 2 ^ (fbits F + 1) → ∃ m, magVal F m = magVal F a % magVal F b ∧ m < b := by
    intro r e h1 h2
    obtain ⟨m, hm⟩ := exists_mag h0 r e h2
    refine ⟨m, by rw [hm, h1], ?_⟩
    by_contra hc
    have := (magVal_le F (M0 h0)).2 (show b ≤ m by omega)
    omega
  rcases Nat.le_total p q with c | c
  · obtain ⟨j, rfl⟩ : ∃ j, q = p + j := ⟨q - p, by omega⟩
    have e : magVal F a % magVal F b = (A % (B * 2 ^ j)) * 2 ^ p := by
      rw [ha, hb', Nat.pow_add, Nat.mul_comm (2 ^ p), ← Nat.mul_assoc, Nat.mul_mod_mul_right]
    exact fin _ _ e (Nat.le_trans (Nat.mod_le _ _) (Nat.le_of_lt hA))
  · obtain ⟨j, rfl⟩ : ∃ j, p = q + j := ⟨p - q, by omega⟩
    have e : magVal F a % magVal F b = ((A * 2 ^ j) % B) * 2 ^ q := by
      rw [ha, hb', Nat.pow_add, Nat.mul_comm (2 ^ q), ← Nat.mul_assoc, Nat.mul_mod_mul_right]
    have hB0 : 0 < B := by
      rcases Nat.eq_zero_or_pos B with z | z
      · subst z; rw [Nat.zero_mul] at hb'; omega
      · exact z
    exact fin _ _ e (Nat.le_of_lt (Nat.lt_trans (Nat.mod_lt _ hB0) hB))

/-- **C132**: `Modulus(a, b)` (C#'s `a % b`) is exact. For finite `a` and finite `b ≠ 0` there is an integer `q` with `a = q * b + r` exactly, `|r| < |b|`, the result is the number `r` and has the sign of `a` (also when it
is zero), and the quotient is truncated (`|q * b| ≤ |a|`). -/
theorem C132_modulus (F : Fmt) (hl : Lib F) (a b : Nat) (ha : Finite F a) (hb : Finite F b) (hz : number F b ≠ 0) :
    Finite F (modulus F a b) ∧ neg F (modulus F a b) = neg F a ∧ |number F (modulus F a b)| < |number F b| ∧
    ∃ q : ℤ, number F a = q * number F b + number F (modulus F a b) ∧ |q * number F b| ≤ |number F a| := by
  have h0 := lib_bin hl
  have hma := finite_mag hl ha
  have hmb := finite_mag hl hb
  have hP : (0 : ℚ) < 2 ^ places F := by positivity
  have hb0 : 0 < mag F b := by
    rcases Nat.eq_zero_or_pos (mag F b) with z | z
    · exfalso; apply hz; rw [number_parts, z, magVal_zero]; simp
    · exact z
  obtain ⟨m, hm, hmb'⟩ := rem_mag h0 (mag F a) (mag F b) hb0
  have hI : m ≤ F.I := by omega
  have e : modulus F a b = pack F (neg F a) m := by
    unfold modulus
    rw [if_neg (by
      unfold FltModel.nan
      simp only [Bool.or_eq_true, decide_eq_true_eq]; omega), if_neg (by omega), if_neg (by omega), ← hm]
    have := roundMag_exact h0 m 1 (by omega) hI
    rw [Nat.mul_one] at this
    rw [this]
  obtain ⟨p1, p2, p3⟩ := pack_parts h0 (neg F a) m hI
  rw [e]
  have hbv : 0 < magVal F (mag F b) := by
    have := magVal_lt F (M0 h0) hb0
    rwa [magVal_zero] at this
  refine ⟨⟨p3, (class_fin (facts hl) _).2 (by have := p2; unfold mag at this; omega)⟩, p1, ?_, ?_⟩
  · rw [number_parts, number_parts, p1, p2, abs_mul, abs_mul]
    have s1 : ∀ s : Bool, |(if s = true then (-1 : ℚ) else 1)| = 1 := by intro s; cases s <;> simp
    rw [s1, s1, one_mul, one_mul, abs_of_nonneg (by positivity), abs_of_nonneg (by positivity), div_lt_div_iff_of_pos_right hP]
    exact_mod_cast magVal_lt F (M0 h0) hmb'
  · have hdm := Nat.div_add_mod (magVal F (mag F a)) (magVal F (mag F b))
    rw [← hm] at hdm
    have hdm' : (magVal F (mag F a) : ℚ) = magVal F (mag F b) * ((magVal F (mag F a) / magVal F (mag F b) : Nat) : ℚ) + magVal F m := by exact_mod_cast hdm.symm
    clear hdm hm
    generalize magVal F (mag F a) / magVal F (mag F b) = t at hdm'
    refine ⟨(if neg F a = neg F b then 1 else -1) * (t : ℤ), ?_, ?_⟩
    · rw [number_parts, number_parts, number_parts, p1, p2, hdm']
      push_cast
      cases neg F a <;> cases neg F b <;> simp <;> ring
    · rw [number_parts, number_parts, abs_mul, abs_mul, abs_mul]
      have s1 : ∀ s : Bool, |(if s = true then (-1 : ℚ) else 1)| = 1 := by intro s; cases s <;> simp
      rw [s1, s1, one_mul, one_mul, abs_of_nonneg (a := (magVal F (mag F b) : ℚ) / _) (by positivity), abs_of_nonneg (a := (magVal F (mag F a) : ℚ) / _) (by positivity)]
      have s2 : |(((if neg F a = neg F b then 1 else -1) * (t : ℤ) : ℤ) : ℚ)| = (t : ℚ) := by
        push_cast
        rw [abs_mul, abs_of_nonneg (a := (t : ℚ)) (by positivity)]
        split <;> simp
      rw [s2, mul_div_assoc', div_le_div_iff_of_pos_right hP, hdm', mul_comm]
      have : (0 : ℚ) ≤ magVal F m := by positivity
      linarith

/-- 5.5 % -2 = 1.5, -5.5 % 2 = -1.5; 1e308 % 0.1 is computed exactly too. -/
example : Finite dbl 0x4016000000000000 ∧ number dbl 0xC000000000000000 ≠ 0 ∧ modulus dbl 0x4016000000000000 0xC000000000000000 = 0x3FF8000000000000 ∧ modulus dbl 0xC016000000000000 0x4000000000000000 = 0xBFF8000000000000 := by
  refine ⟨⟨by decide, by decide, by decide⟩, ?_, by decide +kernel⟩
  unfold number
  rw [show val dbl 0xC000000000000000 = -2 ^ 1075 by decide +kernel]
  simp

/-- The special values, as IEEE 754 and C# require: NaN operands, an infinite dividend or a zero divisor give NaN; an infinite divisor leaves a finite dividend unchanged. -/
theorem C132_special (F : Fmt) (hl : Lib F) (a b : Nat) (_ha : a < 2 * F.S) (_hb : b < 2 * F.S) :
    ((classOf F a = .nan ∨ classOf F b = .nan ∨ classOf F a = .infinite ∨ classOf F b = .zero) → classOf F (modulus F a b) = .nan) ∧
    (Finite F a → classOf F b = .infinite → modulus F a b = a) := by
  have hf := facts hl
  have nanI : classOf F (F.I + F.M / 2) = .nan := by rcases hl with rfl | rfl <;> decide
  constructor
  · intro h
    unfold modulus
    rw [← nan_class hf, ← nan_class hf, class_inf hf, class_zero hf] at h
    by_cases c : (FltModel.nan F a || FltModel.nan F b) = true
    · rw [if_pos c]; exact nanI
    · rw [if_neg c]
      rw [Bool.or_eq_true] at c
      rcases h with h | h | h | h
      · exact absurd (Or.inl h) c
      · exact absurd (Or.inr h) c
      · have h : mag F a = F.I := h
        rw [if_pos (Or.inl h)]; exact nanI
      · have h : mag F b = 0 := h
        rw [if_pos (Or.inr h)]; exact nanI
  · intro h1 h2
    rw [class_inf hf] at h2
    have hma := finite_mag hl h1
    have hI : 0 < F.I := by have := hf.MI; have := hf.M0; omega
    have hmb : mag F b = F.I := h2
    unfold modulus
    rw [if_neg (by unfold FltModel.nan; simp only [Bool.or_eq_true, decide_eq_true_eq]; omega), if_neg (by omega), if_pos hmb]

example : modulus dbl 0x3FF0000000000000 0 = 0x7FF8000000000000 ∧ modulus dbl 0x3FF0000000000000 0x7FF0000000000000 = 0x3FF0000000000000 := by decide +kernel

end Verif.FloatText
