import Verif.FloatExprLemmas
import Verif.FloatTextProps
/-!
# C133: the arithmetic of the model of floating-point expressions is IEEE 754's
-/
namespace Verif.FloatExpr
open Verif.FltModel Verif.FltSpec Verif.FltProps Verif.Rnd Verif.FloatText Verif.FloatTextSpec

/-! ## The operations of the model are IEEE 754's -/

theorem rounded_mag {F : Fmt} (hl : Lib F) (s : Bool) (n d : Nat) (hd : 0 < d) : Rounded F ((if s = true then -1 else 1) * ((n : ℚ) / d / 2 ^ places F)) (pack F s (roundMag F n d)) :=
  rounded_of_near hl s _ (by positivity) _ (near_roundMag (lib_bin hl) n d hd)

theorem number_val (F : Fmt) (a : Nat) : number F a = (val F a : ℚ) / 2 ^ places F := by unfold number; rw [exp_eq]

theorem sign_xor (s t : Bool) : (if (s != t) = true then (-1 : ℚ) else 1) = (if s = true then -1 else 1) * (if t = true then -1 else 1) := by
  cases s <;> cases t <;> norm_num

theorem finite_facts {F : Fmt} (hl : Lib F) {a : Nat} (h : FloatText.Finite F a) : nan F a = false ∧ mag F a ≠ F.I := ⟨(nan_false _).2 (le_of_lt (finite_mag hl h)), Nat.ne_of_lt (finite_mag hl h)⟩

theorem add_rounded {F : Fmt} (hl : Lib F) (a b : Nat) (ha : FloatText.Finite F a) (hb : FloatText.Finite F b) : Rounded F (number F a + number F b) (add F a b) := by
  obtain ⟨na, ia⟩ := finite_facts hl ha
  obtain ⟨nb, ib⟩ := finite_facts hl hb
  have key : number F a + number F b = ((val F a + val F b : Int) : ℚ) / 2 ^ places F := by rw [number_val, number_val, Int.cast_add]; ring
  rw [key]
  unfold add
  rw [na, nb, if_neg ia, if_neg ib]
  simp only [Bool.or_self, Bool.false_eq_true, if_false]
  generalize val F a + val F b = z
  by_cases hz : z = 0
  · rw [if_pos hz, hz]
    have := rounded_mag hl (neg F a && neg F b) 0 1 Nat.one_pos
    rw [roundMag_zero (lib_bin hl) 1 Nat.one_pos] at this
    simpa using this
  · rw [if_neg hz]
    have h1 := rounded_mag hl (decide (z < 0)) z.natAbs 1 Nat.one_pos
    have h2 : (if decide (z < 0) = true then (-1 : ℚ) else 1) * ((z.natAbs : ℚ) / (1 : Nat) / 2 ^ places F) = (z : ℚ) / 2 ^ places F := by
      have h3 : (if decide (z < 0) = true then (-1 : ℚ) else 1) * (z.natAbs : ℚ) = z := by
        by_cases c : z < 0
        · rw [if_pos (decide_eq_true c)]
          have e1 : ((z.natAbs : Int)) = -z := by omega
          have : (z.natAbs : ℚ) = ((-z : Int) : ℚ) := (Int.cast_natCast _).symm.trans (congrArg _ e1)
          rw [this, Int.cast_neg]; ring
        · rw [if_neg (by simpa using c)]
          have e1 : ((z.natAbs : Int)) = z := by omega
          have : (z.natAbs : ℚ) = ((z : Int) : ℚ) := (Int.cast_natCast _).symm.trans (congrArg _ e1)
          rw [this]; ring
      rw [Nat.cast_one, div_one, ← mul_div_assoc, h3]
    rw [h2] at h1
    exact h1

theorem mul_rounded {F : Fmt} (hl : Lib F) (a b : Nat) (ha : FloatText.Finite F a) (hb : FloatText.Finite F b) : Rounded F (number F a * number F b) (mul F a b) := by
  obtain ⟨na, ia⟩ := finite_facts hl ha
  obtain ⟨nb, ib⟩ := finite_facts hl hb
  unfold mul
  rw [na, nb, if_neg (show ¬ (mag F a = F.I ∨ mag F b = F.I) by tauto)]
  simp only [Bool.or_self, Bool.false_eq_true, if_false]
  have h := rounded_mag hl (neg F a != neg F b) (magVal F (mag F a) * magVal F (mag F b)) (2 ^ places F) (Nat.two_pow_pos _)
  have e : (if (neg F a != neg F b) = true then (-1 : ℚ) else 1) * (((magVal F (mag F a) * magVal F (mag F b) : Nat) : ℚ) / ((2 ^ places F : Nat) : ℚ) / 2 ^ places F) = number F a * number F b := by
    rw [number_parts, number_parts, sign_xor, Nat.cast_mul, Nat.cast_pow, Nat.cast_ofNat]
    generalize (2 : ℚ) ^ places F = W
    ring
  rw [e] at h
  exact h

theorem div_rounded {F : Fmt} (hl : Lib F) (a b : Nat) (ha : FloatText.Finite F a) (hb : FloatText.Finite F b) (hz : number F b ≠ 0) : Rounded F (number F a / number F b) (div F a b) := by
  obtain ⟨na, ia⟩ := finite_facts hl ha
  obtain ⟨nb, ib⟩ := finite_facts hl hb
  have hb0 : mag F b ≠ 0 := by
    intro h; apply hz; rw [number_parts, h, magVal_zero]; simp
  have hv := magVal_pos (lib_bin hl) (Nat.pos_of_ne_zero hb0)
  unfold div
  rw [na, nb, if_neg ia, if_neg ib, if_neg hb0]
  simp only [Bool.or_self, Bool.false_eq_true, if_false]
  have h := rounded_mag hl (neg F a != neg F b) (magVal F (mag F a) * 2 ^ places F) (magVal F (mag F b)) hv
  have e : (if (neg F a != neg F b) = true then (-1 : ℚ) else 1) * (((magVal F (mag F a) * 2 ^ places F : Nat) : ℚ) / (magVal F (mag F b) : ℚ) / 2 ^ places F) = number F a / number F b := by
    rw [number_parts, number_parts, sign_xor, Nat.cast_mul, Nat.cast_pow, Nat.cast_ofNat]
    have hW : (2 : ℚ) ^ places F ≠ 0 := by positivity
    generalize (2 : ℚ) ^ places F = W at *
    have hq : (magVal F (mag F b) : ℚ) ≠ 0 := by exact_mod_cast Nat.pos_iff_ne_zero.1 hv
    generalize (magVal F (mag F b) : ℚ) = B at *
    cases neg F b
    · simp only [Bool.false_eq_true, if_false]; field_simp
    · simp only [if_true]; field_simp
  rw [e] at h
  exact h

theorem conv_rounded {F G : Fmt} (hl : Lib F) (hg : Lib G) (a : Nat) (ha : FloatText.Finite F a) : Rounded G (number F a) (conv G F a) := by
  obtain ⟨na, ia⟩ := finite_facts hl ha
  unfold conv
  rw [na, if_neg ia]
  simp only [Bool.false_eq_true, if_false]
  have h := rounded_mag hg (neg F a) (magVal F (mag F a) * 2 ^ places G) (2 ^ places F) (Nat.two_pow_pos _)
  have e : (if neg F a = true then (-1 : ℚ) else 1) * (((magVal F (mag F a) * 2 ^ places G : Nat) : ℚ) / ((2 ^ places F : Nat) : ℚ) / 2 ^ places G) = number F a := by
    rw [number_parts, Nat.cast_mul, Nat.cast_pow, Nat.cast_pow, Nat.cast_ofNat]
    have hW : (2 : ℚ) ^ places G ≠ 0 := by positivity
    generalize (2 : ℚ) ^ places G = W at *
    generalize (2 : ℚ) ^ places F = U at *
    field_simp
  rw [e] at h
  exact h

theorem ofInt_rounded {F : Fmt} (hl : Lib F) (i : Int) : Rounded F i (ofInt F i) := by
  unfold ofInt
  have h := rounded_mag hl (decide (i < 0)) (i.natAbs * 2 ^ places F) 1 Nat.one_pos
  have e : (if decide (i < 0) = true then (-1 : ℚ) else 1) * (((i.natAbs * 2 ^ places F : Nat) : ℚ) / ((1 : Nat) : ℚ) / 2 ^ places F) = i := by
    have h3 : (if decide (i < 0) = true then (-1 : ℚ) else 1) * (i.natAbs : ℚ) = i := by
      by_cases c : i < 0
      · rw [if_pos (decide_eq_true c)]
        have e1 : ((i.natAbs : Int)) = -i := by omega
        have : (i.natAbs : ℚ) = ((-i : Int) : ℚ) := (Int.cast_natCast _).symm.trans (congrArg _ e1)
        rw [this, Int.cast_neg]; ring
      · rw [if_neg (by simpa using c)]
        have e1 : ((i.natAbs : Int)) = i := by omega
        have : (i.natAbs : ℚ) = ((i : Int) : ℚ) := (Int.cast_natCast _).symm.trans (congrArg _ e1)
        rw [this]; ring
    rw [Nat.cast_one, div_one, Nat.cast_mul, Nat.cast_pow, Nat.cast_ofNat]
    have hW : (2 : ℚ) ^ places F ≠ 0 := by positivity
    generalize (2 : ℚ) ^ places F = W at *
    rw [mul_div_assoc, div_self hW, mul_one, h3]
  rw [e] at h
  exact h

/-- C133: on finite numbers the operations of the model (of either format) give the exact result rounded to nearest, ties to even; so do the conversions between formats and from integers. -/
theorem C133_operations (F : Fmt) (hl : Lib F) (a b : Nat) (ha : FloatText.Finite F a) (hb : FloatText.Finite F b) :
    Rounded F (number F a + number F b) (op F .add a b) ∧ Rounded F (number F a - number F b) (op F .sub a b) ∧ Rounded F (number F a * number F b) (op F .mul a b) ∧
    (number F b ≠ 0 → Rounded F (number F a / number F b) (op F .div a b)) ∧
    (∀ G, Lib G → Rounded G (number F a) (conv G F a)) ∧ ∀ i : Int, Rounded F i (ofInt F i) := by
  refine ⟨add_rounded hl a b ha hb, ?_, mul_rounded hl a b ha hb, div_rounded hl a b ha hb, fun G hg => conv_rounded hl hg a ha, ofInt_rounded hl⟩
  obtain ⟨nb, ib⟩ := finite_facts hl hb
  obtain ⟨n1, n2, n3, n4⟩ := negate_parts hl b nb
  have h := add_rounded hl a (negate F b) ha ⟨n4, (class_fin (facts hl) _).2 (lt_of_eq_of_lt n3 (finite_mag hl hb))⟩
  have e : number F a + number F (negate F b) = number F a - number F b := by
    rw [number_parts (negate F b), number_parts b, n2, n3]
    cases neg F b <;> norm_num; ring
  rw [e] at h
  show Rounded F _ (sub F a b)
  unfold sub
  rw [nb, if_neg (by decide)]
  exact h

/-- 0.1 + 0.2 is 0.30000000000000004; 1f / 3f rounds up; 0.1 becomes a float; 16777217 is no float. -/
example : op dbl .add 0x3FB999999999999A 0x3FC999999999999A = 0x3FD3333333333334 ∧ op sgl .div 0x3F800000 0x40400000 = 0x3EAAAAAB ∧ conv sgl dbl 0x3FB999999999999A = 0x3DCCCCCD ∧
    ofInt sgl 16777217 = 0x4B800000 ∧ op dbl .sub 0x3FF0000000000000 0x3FF0000000000000 = 0 := by decide +kernel

example : FloatText.Finite dbl 0x3FB999999999999A ∧ FloatText.Finite sgl 0x40400000 ∧ Lib dbl ∧ Lib sgl := ⟨⟨by decide, by decide, by decide⟩, ⟨by decide, by decide, by decide⟩, Or.inl rfl, Or.inr rfl⟩

end Verif.FloatExpr
