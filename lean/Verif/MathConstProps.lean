import Verif.MathConstModel
import Verif.FloatScanProps
import Mathlib.Analysis.Real.Pi.Bounds
import Mathlib.Analysis.Complex.ExponentialBounds
/-!
# C177: Math.PI and Math.E
-/
namespace Verif.MathConst
open FltModel FltSpec FloatTextSpec

/-- `b` is the double nearest to `x`. -/
def Nearest (x : ℝ) (b : Nat) : Prop :=
  b < 2 * dbl.S ∧ classOf dbl b ≠ .nan ∧ ∀ c, c < 2 * dbl.S → classOf dbl c ≠ .nan → |(number dbl b : ℝ) - x| ≤ |(number dbl c : ℝ) - x|

theorem pi_bits : mathPI = 0x400921FB54442D11 := by decide +kernel
theorem e_bits : mathE = 0x4005BF0A8B145774 := by decide +kernel

theorem number_small (b : Nat) (n k : Nat) (h : magVal dbl (mag dbl b) = n * 2 ^ k) (hn : neg dbl b = false) (hk : k ≤ 1074) : number dbl b = (n : ℚ) / 2 ^ (1074 - k) := by
  unfold number val
  rw [hn, show dbl.I / dbl.M / 2 - 1 + Nat.log2 dbl.M = 1074 from by decide +kernel]
  simp only [Bool.false_eq_true, if_false]
  rw [h]
  push_cast
  obtain ⟨j, hj⟩ : ∃ j, 1074 = k + j := ⟨1074 - k, by omega⟩
  rw [hj, Nat.add_sub_cancel_left, pow_add, mul_comm ((2 : ℚ) ^ k) (2 ^ j), mul_div_mul_right _ _ (by positivity)]

/-- The values: whole multiples of 2^-51. -/
theorem pi_number : number dbl mathPI = 7074237752028433 / 2 ^ 51 := by
  have := number_small mathPI 7074237752028433 1023 (by rw [pi_bits]; decide +kernel) (by rw [pi_bits]; decide +kernel) (by decide)
  rw [this]; norm_num
theorem e_number : number dbl mathE = 6121026514868084 / 2 ^ 51 := by
  have := number_small mathE 6121026514868084 1023 (by rw [e_bits]; decide +kernel) (by rw [e_bits]; decide +kernel) (by decide)
  rw [this]; norm_num

/-- The doubles 3.141592653589793 and 2.718281828459045 of .NET. -/
theorem pi_better : number dbl 0x400921FB54442D18 = 7074237752028440 / 2 ^ 51 := by
  have := number_small 0x400921FB54442D18 7074237752028440 1023 (by decide +kernel) (by decide +kernel) (by decide)
  rw [this]; norm_num
theorem e_better : number dbl 0x4005BF0A8B145769 = 6121026514868073 / 2 ^ 51 := by
  have := number_small 0x4005BF0A8B145769 6121026514868073 1023 (by decide +kernel) (by decide +kernel) (by decide)
  rw [this]; norm_num

theorem e_bounds : (2.7182818284590452353 : ℝ) < Real.exp 1 ∧ Real.exp 1 < 2.7182818284590452354 := by
  have h := abs_le.mp Real.exp_one_near_20
  constructor <;> [have := h.1; have := h.2] <;> norm_num at this ⊢ <;> linarith

/-- **C177** (partial: fifteen digits). `Math.PI` and `Math.E` are the doubles nearest to the decimals with 14 places that are nearest to π and e. Missing: the doubles nearest to π and e themselves (C177_refuted). -/
theorem C177_constants_partial :
    (∃ d : ℤ, (∀ d' : ℤ, |(d : ℝ) / 10 ^ 14 - Real.pi| ≤ |(d' : ℝ) / 10 ^ 14 - Real.pi|) ∧ Rounded dbl (d / 10 ^ 14) mathPI ∧ |(number dbl mathPI : ℝ) - Real.pi| < 4 / 10 ^ 15) ∧
    (∃ d : ℤ, (∀ d' : ℤ, |(d : ℝ) / 10 ^ 14 - Real.exp 1| ≤ |(d' : ℝ) / 10 ^ 14 - Real.exp 1|) ∧ Rounded dbl (d / 10 ^ 14) mathE ∧ |(number dbl mathE : ℝ) - Real.exp 1| < 5 / 10 ^ 15) := by
  have near : ∀ (d : ℤ) (x : ℝ), |(d : ℝ) / 10 ^ 14 - x| ≤ 1 / 2 / 10 ^ 14 → ∀ d' : ℤ, |(d : ℝ) / 10 ^ 14 - x| ≤ |(d' : ℝ) / 10 ^ 14 - x| := by
    intro d x h d'
    by_cases e : d' = d
    · rw [e]
    · have h1 : (1 : ℝ) ≤ |(d' : ℝ) - d| := by
        have : (1 : ℤ) ≤ |d' - d| := Int.one_le_abs (sub_ne_zero.mpr e)
        exact_mod_cast this
      have h2 : |(d' : ℝ) / 10 ^ 14 - d / 10 ^ 14| = |(d' : ℝ) - d| / 10 ^ 14 := by
        rw [← sub_div, abs_div, abs_of_pos (by positivity : (0 : ℝ) < 10 ^ 14)]
      have h3 : |(d' : ℝ) / 10 ^ 14 - d / 10 ^ 14| ≤ |(d' : ℝ) / 10 ^ 14 - x| + |(d : ℝ) / 10 ^ 14 - x| := by
        have := abs_sub_le ((d' : ℝ) / 10 ^ 14) x ((d : ℝ) / 10 ^ 14)
        rwa [abs_sub_comm x] at this
      have h4 : (1 : ℝ) / 10 ^ 14 ≤ |(d' : ℝ) - d| / 10 ^ 14 := div_le_div_of_nonneg_right h1 (by positivity)
      rw [h2] at h3
      have h5 : (1 : ℝ) / 10 ^ 14 = 1 / 2 / 10 ^ 14 + 1 / 2 / 10 ^ 14 := by norm_num
      linarith
  have p1 := Real.pi_gt_d20
  have p2 := Real.pi_lt_d20
  obtain ⟨q1, q2⟩ := e_bounds
  refine ⟨⟨314159265358979, near _ _ ?_, ?_, ?_⟩, ⟨271828182845905, near _ _ ?_, ?_, ?_⟩⟩
  · rw [abs_le]; constructor <;> norm_num at p1 p2 ⊢ <;> linarith
  · have := FloatText.place_rounded (F := dbl) (.inl rfl) false 314159265358979 (-14)
    rw [show decimal false 314159265358979 (-14) = ((314159265358979 : ℤ) : ℚ) / 10 ^ 14 from by unfold decimal; norm_num] at this
    exact this
  · rw [pi_number, abs_lt]; constructor <;> norm_num at p1 p2 ⊢ <;> linarith
  · rw [abs_le]; constructor <;> norm_num at q1 q2 ⊢ <;> linarith
  · have := FloatText.place_rounded (F := dbl) (.inl rfl) false 271828182845905 (-14)
    rw [show decimal false 271828182845905 (-14) = ((271828182845905 : ℤ) : ℚ) / 10 ^ 14 from by unfold decimal; norm_num] at this
    exact this
  · rw [e_number, abs_lt]; constructor <;> norm_num at q1 q2 ⊢ <;> linarith

/-- **C177**, the rest refuted: the doubles that .NET has are nearer to π and e. -/
theorem C177_refuted : ¬ Nearest Real.pi mathPI ∧ ¬ Nearest (Real.exp 1) mathE ∧
    |(number dbl 0x400921FB54442D18 : ℝ) - Real.pi| < 2 / 10 ^ 16 ∧ 3 / 10 ^ 15 < |(number dbl mathPI : ℝ) - Real.pi| := by
  have p1 := Real.pi_gt_d20
  have p2 := Real.pi_lt_d20
  obtain ⟨q1, q2⟩ := e_bounds
  have a1 : |(number dbl 0x400921FB54442D18 : ℝ) - Real.pi| < 2 / 10 ^ 16 := by
    rw [pi_better, abs_lt]; constructor <;> norm_num at p1 p2 ⊢ <;> linarith
  have a2 : 3 / 10 ^ 15 < |(number dbl mathPI : ℝ) - Real.pi| := by
    rw [pi_number, lt_abs]; right; norm_num at p1 p2 ⊢; linarith
  have b1 : |(number dbl 0x4005BF0A8B145769 : ℝ) - Real.exp 1| < 3 / 10 ^ 16 := by
    rw [e_better, abs_lt]; constructor <;> norm_num at q1 q2 ⊢ <;> linarith
  have b2 : 4 / 10 ^ 15 < |(number dbl mathE : ℝ) - Real.exp 1| := by
    rw [e_number, lt_abs]; left; norm_num at q1 q2 ⊢; linarith
  refine ⟨fun h => ?_, fun h => ?_, a1, a2⟩
  · have := h.2.2 0x400921FB54442D18 (by decide +kernel) (by decide +kernel)
    linarith
  · have := h.2.2 0x4005BF0A8B145769 (by decide +kernel) (by decide +kernel)
    linarith

end Verif.MathConst
