import Verif.MathMoreProps
/-!
# C187: what Math.Round with digits, Math.ILogB and Math.FusedMultiplyAdd give, for every argument
-/
namespace Verif.MathRound
open Verif.FltModel Verif.FltSpec Verif.FltProps Verif.Rnd Verif.FloatTextSpec
open Verif.FloatText (finite_mag number_parts)
open Verif.FloatExpr (nan_false)

/-- An infinity is not below 10^16. -/
theorem infinite_large (v : Nat) (hv : v < 2 * dbl.S) (h : classOf dbl v = .infinite) : 10 ^ 16 ≤ |number dbl v| := by
  rw [← not_lt]
  intro c2
  have hi : mag dbl v = dbl.I := (class_inf (facts libd) v).1 h
  have hn : nan dbl v = false := (nan_false _).2 (le_of_eq hi)
  have h2 := (below_limit v hv hn).2 c2
  unfold flt at h2
  rw [(abs_val v hv).1, hi, limit_spec.2.2] at h2
  revert h2
  rw [(abs_val v hv).2, hn, limit_spec.2.1]
  decide +kernel

/-- **C187**: `Math.Round(value, digits, mode)` of every double, every number of digits and every mode. First digits outside 0 to 15, then modes outside the five, are rejected; NaN, the infinities and everything of size 10^16 or more come back
unchanged; every other value is multiplied by the power of ten (rounded to a double `y`), the mode chooses the integer `k` for `y`, and the result is the double nearest to `k / 10^digits`, with the sign bit of the value. -/
theorem C187_round (v : Nat) (hv : v < 2 * dbl.S) (digits mode : Int) :
    if digits < 0 ∨ 15 < digits then roundDigits v digits mode = .throw .argumentOutOfRange
    else if mode < 0 ∨ 4 < mode then roundDigits v digits mode = .throw .argument
    else if classOf dbl v = .nan ∨ 10 ^ 16 ≤ |number dbl v| then roundDigits v digits mode = .ok v
    else ∃ (r y : Nat) (k : Int), roundDigits v digits mode = .ok r ∧ Rounded dbl (number dbl v * 10 ^ digits.toNat) y ∧ ByMode mode (number dbl y) k ∧ Rounded dbl (k / 10 ^ digits.toNat) r ∧ neg dbl r = neg dbl v := by
  by_cases hd : digits < 0 ∨ 15 < digits
  · rw [if_pos hd]; exact (C136_arguments v digits mode hv).1.2 hd
  rw [if_neg hd]
  by_cases hm : mode < 0 ∨ 4 < mode
  · rw [if_pos hm]; exact (C136_arguments v digits mode hv).2.1.2 ⟨by omega, hm⟩
  rw [if_neg hm]
  by_cases c : classOf dbl v = .nan ∨ 10 ^ 16 ≤ |number dbl v|
  · rw [if_pos c]; exact C136_unchanged v digits mode hv (by omega) (by omega) c
  · rw [if_neg c]
    obtain ⟨c1, c2⟩ := not_or.1 c
    rw [not_le] at c2
    exact C136_round_partial v digits mode ⟨hv, c1, fun h => absurd (infinite_large v hv h) (not_le.2 c2)⟩ c2 (by omega) (by omega)

/-- 0.125 to two digits to even, the same to 16 digits, an unknown mode, an infinity. -/
example : roundDigits 0x3FC0000000000000 2 0 = .ok 0x3FBEB851EB851EB8 ∧ roundDigits 0x3FC0000000000000 16 0 = .throw .argumentOutOfRange ∧ roundDigits 0x3FC0000000000000 2 5 = .throw .argument ∧
    roundDigits (posInf dbl) 2 0 = .ok (posInf dbl) := by decide +kernel

/-- **C187**: `Math.ILogB` of every double: undefined for zero, NaN and the infinities, otherwise the exponent of the power of two below the size. -/
theorem C187_exponent (x : Nat) (hx : x < 2 * dbl.S) :
    if classOf dbl x = .zero ∨ classOf dbl x = .nan ∨ classOf dbl x = .infinite then iLogB x = .ub
    else ∃ e : Int, iLogB x = .ok e ∧ (2 : ℚ) ^ e ≤ |number dbl x| ∧ |number dbl x| < 2 ^ (e + 1) := by
  by_cases c : classOf dbl x = .zero ∨ classOf dbl x = .nan ∨ classOf dbl x = .infinite
  · rw [if_pos c]; exact (C139_refuted x).2 c
  · rw [if_neg c]
    obtain ⟨c1, c2⟩ := not_or.1 c
    obtain ⟨c2, c3⟩ := not_or.1 c2
    refine C139_exponent_partial x ⟨hx, c2, c3⟩ ?_
    intro h0
    have hm : mag dbl x ≠ 0 := fun h => c1 ((class_zero (facts libd) x).2 h)
    have hv := FloatExpr.magVal_pos bin_dbl (Nat.pos_of_ne_zero hm)
    have hP := two_pow_places
    rw [number_parts] at h0
    rcases mul_eq_zero.1 h0 with h | h
    · cases hn : neg dbl x <;> rw [hn] at h <;> simp at h
    · rcases div_eq_zero_iff.1 h with h | h
      · have : magVal dbl (mag dbl x) = 0 := by exact_mod_cast h
        omega
      · exact absurd h (ne_of_gt hP)

/-- 10, the least positive double, zero and infinity. -/
example : iLogB 0x4024000000000000 = .ok 3 ∧ iLogB 1 = .ok (-1074) ∧ iLogB 0 = .ub ∧ iLogB (posInf dbl) = .ub := by decide +kernel

/-- **C187**: `Math.FusedMultiplyAdd(x, y, z)` of finite numbers rounds twice: to `p`, the double nearest to the product, then to the double nearest to `p + z`; once `p` is infinite it is the result, whatever `z` is. -/
theorem C187_multiply_add (x y z : Nat) (hx : Fin x) (hy : Fin y) (hz : Fin z) :
    ∃ p, Rounded dbl (number dbl x * number dbl y) p ∧ (if classOf dbl p = .infinite then fusedMultiplyAdd x y z = p else Rounded dbl (number dbl p + number dbl z) (fusedMultiplyAdd x y z)) := by
  have h1 := FloatExpr.mul_rounded libd x y hx hy
  refine ⟨FloatExpr.mul dbl x y, h1, ?_⟩
  by_cases c : classOf dbl (FloatExpr.mul dbl x y) = .infinite
  · rw [if_pos c]
    have hi := (class_inf (facts libd) _).1 c
    have iz := finite_mag libd hz
    have hi' : mag dbl (FloatExpr.mul dbl x y) = dbl.I := hi
    show FloatExpr.add dbl (FloatExpr.mul dbl x y) z = _
    generalize FloatExpr.mul dbl x y = p at *
    unfold FloatExpr.add
    rw [(nan_false p).2 (le_of_eq hi'), (nan_false z).2 (le_of_lt iz), if_neg (by decide), if_pos hi', if_neg (fun h => absurd h.1 (by omega))]
  · rw [if_neg c]
    exact FloatExpr.add_rounded libd _ z ⟨h1.1, h1.2.1, c⟩ hz

/-- 3 * 0.5 + 1e-20, and 2^1023 * 2 - 2^1023, which is infinite. -/
example : Fin 0x4008000000000000 ∧ Fin 0x3FE0000000000000 ∧ Fin 0x3BC79CA10C924223 ∧ fusedMultiplyAdd 0x4008000000000000 0x3FE0000000000000 0x3BC79CA10C924223 = 0x3FF8000000000000 ∧
    Fin 0x7FE0000000000000 ∧ Fin 0xFFE0000000000000 ∧ fusedMultiplyAdd 0x7FE0000000000000 0x4000000000000000 0xFFE0000000000000 = posInf dbl := by
  refine ⟨(fin_iff _).2 (by decide +kernel), (fin_iff _).2 (by decide +kernel), (fin_iff _).2 (by decide +kernel), by decide +kernel, (fin_iff _).2 (by decide +kernel), (fin_iff _).2 (by decide +kernel), by decide +kernel⟩

end Verif.MathRound
