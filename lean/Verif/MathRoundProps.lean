import Verif.MathRoundLemmas
/-!
# C135: Math.Floor, Ceiling, Truncate; C136: Math.Round with digits
-/
namespace Verif.MathRound
open Verif.FltModel Verif.FltSpec Verif.FltProps Verif.Rnd Verif.FloatTextSpec
open Verif.FloatText (finite_mag number_parts lib_bin exists_mag mag_form rem_mag near_roundMag)
open Verif.FloatExpr (nan_false wparts magVal_pos number_val near_le)

/-- **C135**: `Math.Truncate`, `Math.Floor` and `Math.Ceiling` of a finite double give a finite double that is exactly the number without its fraction, the greatest integer not above it, the least not below it, with the sign bit of the
argument. -/
theorem C135_integral_part (a : Nat) (ha : Fin a) :
    (∃ n : Int, Fin (truncate a) ∧ neg dbl (truncate a) = neg dbl a ∧ number dbl (truncate a) = n ∧ IsTrunc (number dbl a) n) ∧
    (∃ n : Int, Fin (floor a) ∧ neg dbl (floor a) = neg dbl a ∧ number dbl (floor a) = n ∧ IsFloor (number dbl a) n) ∧
    (∃ n : Int, Fin (ceiling a) ∧ neg dbl (ceiling a) = neg dbl a ∧ number dbl (ceiling a) = n ∧ IsCeil (number dbl a) n) :=
  ⟨⟨_, truncate_spec a ha⟩, floor_spec a ha, ceiling_spec a ha⟩

/-- **C135**: NaN and the infinities are returned unchanged. -/
theorem C135_special (a : Nat) (h : classOf dbl a = .nan ∨ classOf dbl a = .infinite) : truncate a = a ∧ floor a = a ∧ ceiling a = a := by
  have hI : dbl.I ≤ mag dbl a := by
    rcases h with h | h
    · have := (nan_class (facts libd) a).2 h
      exact le_of_lt ((FloatExpr.nan_iff a).1 this)
    · exact le_of_eq ((class_inf (facts libd) a).1 h).symm
  exact ⟨by unfold truncate; rw [if_pos hI], by unfold floor; rw [if_pos hI], by unfold ceiling; rw [if_pos hI]⟩

/-- -2.5: -2, -3, -2; -0.5: -0, -1, -0. -/
example : Fin 0xC004000000000000 ∧ truncate 0xC004000000000000 = 0xC000000000000000 ∧ floor 0xC004000000000000 = 0xC008000000000000 ∧ ceiling 0xC004000000000000 = 0xC000000000000000 ∧
    truncate 0xBFE0000000000000 = 0x8000000000000000 ∧ floor 0xBFE0000000000000 = 0xBFF0000000000000 ∧ ceiling 0xBFE0000000000000 = 0x8000000000000000 := by
  refine ⟨⟨by decide, by decide, by decide⟩, ?_⟩; decide +kernel

/-! ### Round -/

/-- The integer `k` the mode (0 to even, 1 away from zero, 2 to zero, 3 down, 4 up) chooses for `q`. -/
def ByMode (mode : Int) (q : ℚ) (k : Int) : Prop :=
  (mode = 0 → |q - k| ≤ 1 / 2 ∧ (|q - k| = 1 / 2 → k % 2 = 0)) ∧
  (mode = 1 → |q - k| ≤ 1 / 2 ∧ (|q - k| = 1 / 2 → |q| < |(k : ℚ)|)) ∧
  (mode = 2 → IsTrunc q k) ∧ (mode = 3 → IsFloor q k) ∧ (mode = 4 → IsCeil q k)

theorem one_mag : magVal dbl 0x3FF0000000000000 = 2 ^ places dbl := by decide +kernel
theorem half_val : val dbl 0x3FE0000000000000 * 2 = 2 ^ places dbl := by decide +kernel
theorem half_nan : nan dbl 0x3FE0000000000000 = false := by decide

/-- The fraction is exact. -/
theorem fraction_spec (a : Nat) : ∃ m, m < dbl.I ∧ fraction a = pack dbl (neg dbl a) m ∧ magVal dbl m = magVal dbl (mag dbl a) % 2 ^ places dbl := by
  obtain ⟨m, h1, h2⟩ := rem_mag bin_dbl (mag dbl a) 0x3FF0000000000000 (by decide)
  rw [one_mag] at h1
  have hI : m < dbl.I := lt_trans h2 (by decide)
  refine ⟨m, hI, ?_, h1⟩
  unfold fraction
  rw [← h1]
  have := roundMag_exact bin_dbl m 1 Nat.one_pos (le_of_lt hI)
  rw [Nat.mul_one] at this
  rw [this]

theorem abs_val (a : Nat) (h : a < 2 * dbl.S) : val dbl (FltModel.abs dbl a) = magVal dbl (mag dbl a) ∧ nan dbl (FltModel.abs dbl a) = nan dbl a := by
  have hS : dbl.S = 0x8000000000000000 := rfl
  have hm : mag dbl a < dbl.S := Nat.mod_lt _ (by decide)
  have h1 : mag dbl (FltModel.abs dbl a) = mag dbl a := Nat.mod_eq_of_lt hm
  have h2 : neg dbl (FltModel.abs dbl a) = false := by
    unfold neg FltModel.abs
    exact decide_eq_false (by omega)
  refine ⟨?_, ?_⟩
  · rw [FloatExpr.val_signed, h1, h2]; rfl
  · unfold nan; rw [h1]

theorem sign_number (b : Nat) : (number dbl b < 0 → neg dbl b = true) ∧ (0 < number dbl b → neg dbl b = false) := by
  have h0 : (0 : ℚ) ≤ (magVal dbl (mag dbl b) : ℚ) / 2 ^ places dbl := div_nonneg (Nat.cast_nonneg _) (le_of_lt two_pow_places)
  rw [number_parts]
  generalize (magVal dbl (mag dbl b) : ℚ) / 2 ^ places dbl = X at *
  cases neg dbl b
  · simp only [Bool.false_eq_true, if_false, one_mul]; exact ⟨fun h => absurd h (not_lt.2 h0), fun _ => trivial⟩
  · simp only [if_true]; exact ⟨fun _ => trivial, fun h => absurd h (by linarith)⟩

theorem ofInt_unit (s : Bool) : Fin (FloatExpr.ofInt dbl (sgn s 1)) ∧ number dbl (FloatExpr.ofInt dbl (sgn s 1)) = (if s = true then -1 else 1) := by
  cases s
  · refine ⟨(fin_iff _).2 (by decide +kernel), ?_⟩
    simp only [Bool.false_eq_true, if_false]
    decide +kernel
  · refine ⟨(fin_iff _).2 (by decide +kernel), ?_⟩
    simp only [if_true]
    decide +kernel

/-- The fraction has the argument's sign, unless it is zero. -/
theorem fraction_sign (a : Nat) (h : magVal dbl (mag dbl a) % 2 ^ places dbl ≠ 0) : sign dbl (fraction a) = .ok (sgn (neg dbl a) 1) := by
  obtain ⟨m, h1, h2, h3⟩ := fraction_spec a
  obtain ⟨w1, w2, w3⟩ := wparts (F := dbl) (m := m) (neg dbl a) (le_of_lt h1) bin_dbl
  have hv : val dbl (fraction a) = FloatExpr.signed (neg dbl a) (magVal dbl m) := by rw [h2, FloatExpr.val_pack bin_dbl _ _ (le_of_lt h1)]
  have hp : 0 < magVal dbl m := by omega
  have v0 : val dbl 0 = 0 := by decide +kernel
  have n0 : nan dbl 0 = false := by decide
  unfold sign flt feq
  rw [show nan dbl (fraction a) = false by rw [h2]; exact w1, n0, hv, v0]
  generalize magVal dbl m = x at *
  cases neg dbl a
  · have : FloatExpr.signed false x = (x : Int) := rfl
    rw [this]
    have c1 : ¬ ((x : Int) < 0) := by omega
    have c2 : (0 : Int) < x := by omega
    simp [c1, sgn, hp]
  · have : FloatExpr.signed true x = -(x : Int) := rfl
    rw [this]
    have c1 : (-(x : Int) < 0) := by omega
    simp [hp, sgn]

/-- A half integer is below 2^52. -/
theorem half_small (a : Nat) (h : magVal dbl (mag dbl a) % 2 ^ places dbl ≠ 0) : down a + 1 ≤ 2 ^ 53 := by
  obtain ⟨k, e, h1, h2⟩ := mag_form bin_dbl (mag dbl a)
  rw [fbits_dbl] at h2
  have hlt : e < places dbl := by
    by_contra hc
    obtain ⟨j, rfl⟩ : ∃ j, e = j + places dbl := ⟨e - places dbl, by omega⟩
    rw [Nat.pow_add, ← Nat.mul_assoc] at h1
    rw [h1, Nat.mul_mod_left] at h
    exact h rfl
  obtain ⟨j, hj⟩ : ∃ j, places dbl = j + e := ⟨places dbl - e, by omega⟩
  unfold down
  rw [h1, hj, Nat.pow_add, Nat.mul_div_mul_right _ _ (Nat.two_pow_pos e)]
  have := Nat.div_le_self k (2 ^ j)
  omega

theorem away_spec (a : Nat) (ha : Fin a) : ∃ (r : Nat) (k : Int), away a = .ok r ∧ Fin r ∧ neg dbl r = neg dbl a ∧ number dbl r = k ∧ |number dbl a - k| ≤ 1 / 2 ∧ (|number dbl a - k| = 1 / 2 → |number dbl a| < |(k : ℚ)|) := by
  obtain ⟨m, f1, f2, f3⟩ := fraction_spec a
  obtain ⟨w1, w2, w3⟩ := wparts (F := dbl) (m := m) (neg dbl a) (le_of_lt f1) bin_dbl
  obtain ⟨t1, t2, t3, t4⟩ := truncate_spec a ha
  have hpat : fraction a < 2 * dbl.S := by rw [f2]; exact (pack_parts bin_dbl _ _ (le_of_lt f1)).2.2
  obtain ⟨a1, a2⟩ := abs_val (fraction a) hpat
  have nf : nan dbl (fraction a) = false := by rw [f2]; exact w1
  have mf : mag dbl (fraction a) = m := by rw [f2]; exact w3
  have hP := two_pow_places
  have hc : ((2 ^ places dbl : Nat) : ℚ) = 2 ^ places dbl := by rw [Nat.cast_pow, Nat.cast_ofNat]
  -- |x| = down + fraction
  have hx : (magVal dbl (mag dbl a) : ℚ) / 2 ^ places dbl = down a + (magVal dbl m : ℚ) / 2 ^ places dbl := by
    rw [eq_comm, ← sub_eq_zero]
    have h := Nat.div_add_mod (magVal dbl (mag dbl a)) (2 ^ places dbl)
    rw [← f3] at h
    have h' : (2 ^ places dbl : ℚ) * (down a : ℚ) + magVal dbl m = magVal dbl (mag dbl a) := by
      rw [← hc, ← Nat.cast_mul, ← Nat.cast_add]; unfold down; rw [h]
    rw [← h']
    field_simp
    ring
  have hnum : number dbl a = (if neg dbl a = true then -1 else 1) * (down a + (magVal dbl m : ℚ) / 2 ^ places dbl) := by rw [number_parts a, hx]
  have test : (flt dbl (FltModel.abs dbl (fraction a)) 0x3FE0000000000000 || isNaN dbl (fraction a)) = true ↔ (magVal dbl m : ℚ) / 2 ^ places dbl < 1 / 2 := by
    unfold flt
    rw [isNaN_nan, nf, a2, nf, half_nan, a1, mf, Bool.or_false, div_lt_iff₀ hP]
    simp only [Bool.not_false, Bool.true_and, decide_eq_true_eq]
    have h2 : (val dbl 0x3FE0000000000000 : ℚ) = 1 / 2 * 2 ^ places dbl := by
      have := half_val
      have h3 : ((val dbl 0x3FE0000000000000 * 2 : Int) : ℚ) = ((2 ^ places dbl : Int) : ℚ) := by rw [this]
      rw [Int.cast_mul, Int.cast_pow, Int.cast_ofNat] at h3
      linarith
    rw [← h2]
    exact_mod_cast Iff.rfl
  have f0 : (0 : ℚ) ≤ (magVal dbl m : ℚ) / 2 ^ places dbl := div_nonneg (Nat.cast_nonneg _) (le_of_lt hP)
  have fl1 : (magVal dbl m : ℚ) / 2 ^ places dbl < 1 := by
    rw [div_lt_one hP, ← hc, f3]
    exact_mod_cast Nat.mod_lt _ (Nat.two_pow_pos _)
  have hd0 : (0 : ℚ) ≤ down a := Nat.cast_nonneg _
  unfold away
  by_cases c : (magVal dbl m : ℚ) / 2 ^ places dbl < 1 / 2
  · rw [if_pos (test.2 c)]
    refine ⟨_, sgn (neg dbl a) (down a), rfl, t1, t2, t3, ?_, ?_⟩
    · rw [hnum, sgn_cast, ← mul_sub, add_sub_cancel_left, abs_mul, abs_of_nonneg f0]
      have : |(if neg dbl a = true then (-1 : ℚ) else 1)| = 1 := by cases neg dbl a <;> simp
      rw [this, one_mul]; exact le_of_lt c
    · intro h
      exfalso
      rw [hnum, sgn_cast, ← mul_sub, add_sub_cancel_left, abs_mul, abs_of_nonneg f0] at h
      have : |(if neg dbl a = true then (-1 : ℚ) else 1)| = 1 := by cases neg dbl a <;> simp
      rw [this, one_mul] at h
      linarith
  · rw [if_neg (by rw [test]; exact c)]
    have hne : magVal dbl (mag dbl a) % 2 ^ places dbl ≠ 0 := by
      intro h
      rw [← f3] at h
      rw [h] at c
      apply c; simp
    rw [fraction_sign a hne]
    simp only []
    obtain ⟨u1, u2⟩ := ofInt_unit (neg dbl a)
    have hr := FloatExpr.add_rounded libd (truncate a) (FloatExpr.ofInt dbl (sgn (neg dbl a) 1)) t1 u1
    rw [t3, u2, sgn_cast, ← mul_add_one] at hr
    obtain ⟨m', g1, g2⟩ := small_mag (down a + 1) (half_small a hne)
    obtain ⟨q1, q2, q3⟩ := whole_spec (neg dbl a) (down a + 1) m' g1 g2
    rw [Nat.cast_add, Nat.cast_one] at q3
    have hex := rounded_exact hr q1.1 q1.2.1 q3
    generalize FloatExpr.add dbl (truncate a) (FloatExpr.ofInt dbl (sgn (neg dbl a) 1)) = r at *
    have hsig : neg dbl r = neg dbl a := by
      obtain ⟨s1, s2⟩ := sign_number r
      rw [hex] at s1 s2
      cases hs : neg dbl a
      · rw [hs] at s2; apply s2; simp only [Bool.false_eq_true, if_false, one_mul]; linarith
      · rw [hs] at s1; apply s1; simp only [if_true]; linarith
    have hfin : Fin r := by
      refine ⟨hr.1, hr.2.1, ?_⟩
      intro hi
      have hi' : mag dbl r = dbl.I := (class_inf (facts libd) r).1 hi
      rw [number_parts, hsig, hi'] at hex
      have : (magVal dbl dbl.I : ℚ) / 2 ^ places dbl = (down a : ℚ) + 1 := by
        cases hs : neg dbl a <;> rw [hs] at hex
        · simpa using hex
        · simp only [if_true] at hex; linarith
      rw [div_eq_iff (ne_of_gt hP), ← hc] at this
      have h5 : magVal dbl dbl.I = (down a + 1) * 2 ^ places dbl := by exact_mod_cast this
      have h6 := I_large
      have h7 := Nat.mul_le_mul_right (2 ^ places dbl) (half_small a hne)
      rw [h5] at h6
      exact absurd h6 (not_lt.2 h7)
    have hcast : ((sgn (neg dbl a) (down a + 1) : Int) : ℚ) = (if neg dbl a = true then -1 else 1) * ((down a : ℚ) + 1) := by rw [sgn_cast, Nat.cast_add, Nat.cast_one]
    have s1 : |(if neg dbl a = true then (-1 : ℚ) else 1)| = 1 := by cases neg dbl a <;> simp
    refine ⟨r, sgn (neg dbl a) (down a + 1), rfl, hfin, hsig, by rw [hex, hcast], ?_, ?_⟩
    · rw [hnum, hcast, ← mul_sub, abs_mul, s1, one_mul, abs_le]
      constructor <;> linarith
    · intro _
      rw [hnum, hcast, abs_mul, abs_mul, s1, one_mul, one_mul, abs_of_nonneg (by linarith), abs_of_nonneg (by linarith)]
      linarith

theorem one_cast : ((one : Int) : ℚ) = 2 ^ places dbl := by
  have h : one = 2 ^ places dbl := by decide +kernel
  rw [h, Int.cast_pow, Int.cast_ofNat]

theorem half_le (w : Nat) (o : Int) (h : 2 * (w : Int) ≤ o) : (w : ℚ) ≤ 1 / 2 * (o : ℚ) := by
  have : (2 : ℚ) * (w : ℚ) ≤ (o : ℚ) := by exact_mod_cast h
  linarith

theorem half_eq (w : Nat) (o : Int) (h : (w : ℚ) = 1 / 2 * (o : ℚ)) : 2 * (w : Int) = o := by
  have : (2 : ℚ) * (w : ℚ) = (o : ℚ) := by linarith
  exact_mod_cast this

theorem mode0 (v : Nat) : roundMode 0 v = .ok (round v) := by unfold roundMode; rw [if_pos rfl]
theorem mode1 (v : Nat) : roundMode 1 v = away v := by unfold roundMode; rw [if_neg (by decide), if_pos rfl]
theorem mode2 (v : Nat) : roundMode 2 v = .ok (truncate v) := by unfold roundMode; rw [if_neg (by decide), if_neg (by decide), if_pos rfl]
theorem mode3 (v : Nat) : roundMode 3 v = .ok (floor v) := by unfold roundMode; rw [if_neg (by decide), if_neg (by decide), if_neg (by decide), if_pos rfl]
theorem mode4 (v : Nat) : roundMode 4 v = .ok (ceiling v) := by unfold roundMode; rw [if_neg (by decide), if_neg (by decide), if_neg (by decide), if_neg (by decide), if_pos rfl]

theorem round_spec (a : Nat) (ha : Fin a) : ∃ k : Int, Fin (round a) ∧ neg dbl (round a) = neg dbl a ∧ number dbl (round a) = k ∧ |number dbl a - k| ≤ 1 / 2 ∧ (|number dbl a - k| = 1 / 2 → k % 2 = 0) := by
  obtain ⟨n, h1, h2, h3, h4, h5⟩ := C74_round_nearest_even a ha.1 ha.2
  have hP := two_pow_places
  have hv : number dbl (round a) = n := by
    rw [number_val, h2, Int.cast_mul, one_cast, mul_div_assoc, div_self (ne_of_gt hP), mul_one]
  have hd : |number dbl a - n| = ((val dbl a - n * one).natAbs : ℚ) / 2 ^ places dbl := by
    have e : number dbl a - n = ((val dbl a - n * one : Int) : ℚ) / 2 ^ places dbl := by
      rw [number_val, Int.cast_sub, Int.cast_mul, one_cast, sub_div, mul_div_assoc, div_self (ne_of_gt hP), mul_one]
    rw [e, abs_div, abs_of_pos hP]
    generalize val dbl a - n * one = z
    rw [Nat.cast_natAbs, Int.cast_abs]
  refine ⟨n, ⟨h4, h5⟩, h3, hv, ?_, ?_⟩
  · rw [hd, div_le_iff₀ hP, ← one_cast]
    exact half_le _ _ h1.1
  · intro h
    apply h1.2
    rw [hd, div_eq_iff (ne_of_gt hP), ← one_cast] at h
    exact half_eq _ _ h

theorem roundMode_spec (mode : Int) (hm : 0 ≤ mode ∧ mode ≤ 4) (a : Nat) (ha : Fin a) : ∃ (r : Nat) (k : Int), roundMode mode a = .ok r ∧ Fin r ∧ neg dbl r = neg dbl a ∧ number dbl r = k ∧ ByMode mode (number dbl a) k := by
  have hm5 : mode = 0 ∨ mode = 1 ∨ mode = 2 ∨ mode = 3 ∨ mode = 4 := by omega
  unfold ByMode
  rcases hm5 with rfl | rfl | rfl | rfl | rfl
  · obtain ⟨k, h1, h2, h3, h4⟩ := round_spec a ha
    exact ⟨_, k, mode0 a, h1, h2, h3, fun _ => h4, fun h => absurd h (by decide), fun h => absurd h (by decide), fun h => absurd h (by decide), fun h => absurd h (by decide)⟩
  · obtain ⟨r, k, h0, h1, h2, h3, h4⟩ := away_spec a ha
    exact ⟨r, k, (mode1 a).trans h0, h1, h2, h3, fun h => absurd h (by decide), fun _ => h4, fun h => absurd h (by decide), fun h => absurd h (by decide), fun h => absurd h (by decide)⟩
  · obtain ⟨h1, h2, h3, h4⟩ := truncate_spec a ha
    exact ⟨_, _, mode2 a, h1, h2, h3, fun h => absurd h (by decide), fun h => absurd h (by decide), fun _ => h4, fun h => absurd h (by decide), fun h => absurd h (by decide)⟩
  · obtain ⟨k, h1, h2, h3, h4⟩ := floor_spec a ha
    exact ⟨_, k, mode3 a, h1, h2, h3, fun h => absurd h (by decide), fun h => absurd h (by decide), fun h => absurd h (by decide), fun _ => h4, fun h => absurd h (by decide)⟩
  · obtain ⟨k, h1, h2, h3, h4⟩ := ceiling_spec a ha
    exact ⟨_, k, mode4 a, h1, h2, h3, fun h => absurd h (by decide), fun h => absurd h (by decide), fun h => absurd h (by decide), fun h => absurd h (by decide), fun _ => h4⟩

/-- The powers of ten are exact. -/
theorem power10_spec (d : Nat) (h : d ≤ 15) : Fin (power10 d) ∧ neg dbl (power10 d) = false ∧ number dbl (power10 d) = 10 ^ d := by
  obtain ⟨m, h1, h2⟩ := small_mag (10 ^ d) (by
    have := Nat.pow_le_pow_right (show 0 < 10 by decide) h
    have h3 : 10 ^ 15 ≤ 2 ^ 53 := by decide
    omega)
  have e : power10 d = whole false (10 ^ d) := by
    unfold power10 whole FloatExpr.ofInt
    have hc : ((10 : Int) ^ d) = ((10 ^ d : Nat) : Int) := by rw [Nat.cast_pow]; rfl
    rw [hc, Int.natAbs_natCast, decide_eq_false (not_lt.2 (Int.natCast_nonneg _))]
  obtain ⟨w1, w2, w3⟩ := whole_spec false (10 ^ d) m h1 h2
  rw [e]
  refine ⟨w1, w2, ?_⟩
  rw [w3]; simp

theorem limit_spec : number dbl roundLimit = 10 ^ 16 ∧ nan dbl roundLimit = false ∧ val dbl roundLimit = 10 ^ 16 * 2 ^ places dbl := by decide +kernel

/-- `Abs(value) < 1e16`. -/
theorem below_limit (v : Nat) (hp : v < 2 * dbl.S) (hn : nan dbl v = false) : flt dbl (FltModel.abs dbl v) roundLimit = true ↔ |number dbl v| < 10 ^ 16 := by
  obtain ⟨a1, a2⟩ := abs_val v hp
  obtain ⟨_, l2, l3⟩ := limit_spec
  unfold flt
  rw [a2, hn, l2, a1, l3]
  simp only [Bool.not_false, Bool.true_and, decide_eq_true_eq]
  have s1 : |(if neg dbl v = true then (-1 : ℚ) else 1)| = 1 := by cases neg dbl v <;> simp
  have hP := two_pow_places
  rw [number_parts, abs_mul, s1, one_mul, abs_of_nonneg (div_nonneg (Nat.cast_nonneg _) (le_of_lt hP)), div_lt_iff₀ hP]
  have hc : (((10 : Int) ^ 16 * 2 ^ places dbl : Int) : ℚ) = 10 ^ 16 * 2 ^ places dbl := by rw [Int.cast_mul, Int.cast_pow, Int.cast_pow]; norm_num
  rw [← hc]
  generalize (10 : Int) ^ 16 * 2 ^ places dbl = Z
  generalize magVal dbl (mag dbl v) = V
  exact ⟨fun h => by exact_mod_cast h, fun h => by exact_mod_cast h⟩

theorem big_mag : magVal dbl 0x4660000000000000 = 2 ^ 103 * 2 ^ places dbl := by decide +kernel

/-- The product is finite and has the argument's sign. -/
theorem product_spec (v d : Nat) (hv : Fin v) (hd : d ≤ 15) (hl : |number dbl v| < 10 ^ 16) : Fin (FloatExpr.mul dbl v (power10 d)) ∧ neg dbl (FloatExpr.mul dbl v (power10 d)) = neg dbl v := by
  obtain ⟨p1, p2, p3⟩ := power10_spec d hd
  have iv := finite_mag libd hv
  have ip := finite_mag libd p1
  have hP := two_pow_places
  have s1 : |(if neg dbl v = true then (-1 : ℚ) else 1)| = 1 := by cases neg dbl v <;> simp
  have hV : (magVal dbl (mag dbl v) : ℚ) < 10 ^ 16 * 2 ^ places dbl := by
    rw [number_parts, abs_mul, s1, one_mul, abs_of_nonneg (div_nonneg (Nat.cast_nonneg _) (le_of_lt hP)), div_lt_iff₀ hP] at hl
    exact hl
  have hT : (magVal dbl (mag dbl (power10 d)) : ℚ) ≤ 10 ^ 15 * 2 ^ places dbl := by
    rw [number_parts, p2] at p3
    simp only [Bool.false_eq_true, if_false, one_mul] at p3
    rw [div_eq_iff (ne_of_gt hP)] at p3
    rw [p3]
    exact mul_le_mul_of_nonneg_right (pow_le_pow_right₀ (by norm_num) hd) (le_of_lt hP)
  have key : roundMag dbl (magVal dbl (mag dbl v) * magVal dbl (mag dbl (power10 d))) (2 ^ places dbl) ≤ 0x4660000000000000 := by
    refine near_le bin_dbl (near_roundMag bin_dbl _ _ (Nat.two_pow_pos _)) (by decide) ?_
    rw [big_mag, Nat.cast_mul, Nat.cast_mul, Nat.cast_pow, Nat.cast_pow, Nat.cast_ofNat]
    have h0 : (0 : ℚ) ≤ magVal dbl (mag dbl v) := Nat.cast_nonneg _
    have h1 : (0 : ℚ) ≤ magVal dbl (mag dbl (power10 d)) := Nat.cast_nonneg _
    generalize (magVal dbl (mag dbl v) : ℚ) = V at *
    generalize (magVal dbl (mag dbl (power10 d)) : ℚ) = T at *
    generalize (2 : ℚ) ^ places dbl = P at *
    rw [div_le_iff₀ hP]
    have h2 : V * T ≤ (10 ^ 16 * P) * (10 ^ 15 * P) := mul_le_mul (le_of_lt hV) hT h1 (by positivity)
    have h3 : (10 ^ 16 * P) * (10 ^ 15 * P) ≤ 2 ^ 103 * P * P := by
      have : (10 : ℚ) ^ 16 * 10 ^ 15 ≤ 2 ^ 103 := by norm_num
      nlinarith [mul_pos hP hP]
    linarith
  have e : FloatExpr.mul dbl v (power10 d) = pack dbl (neg dbl v) (roundMag dbl (magVal dbl (mag dbl v) * magVal dbl (mag dbl (power10 d))) (2 ^ places dbl)) := by
    unfold FloatExpr.mul
    rw [(nan_false v).2 (le_of_lt iv), (nan_false (power10 d)).2 (le_of_lt ip), if_neg (show ¬ (mag dbl v = dbl.I ∨ mag dbl (power10 d) = dbl.I) by omega), p2]
    simp only [Bool.or_self, Bool.false_eq_true, if_false, Bool.bne_false]
  obtain ⟨q1, q2, _⟩ := pack_fin (neg dbl v) _ (lt_of_le_of_lt key (by decide))
  rw [e]
  exact ⟨q1, q2⟩

theorem div_sign (k d : Nat) (hk : Fin k) (hd : d ≤ 15) : neg dbl (FloatExpr.div dbl k (power10 d)) = neg dbl k := by
  obtain ⟨p1, p2, p3⟩ := power10_spec d hd
  have iv := finite_mag libd hk
  have ip := finite_mag libd p1
  have hne : mag dbl (power10 d) ≠ 0 := by
    intro h
    rw [number_parts, h, magVal_zero, Nat.cast_zero, zero_div, mul_zero] at p3
    exact absurd p3.symm (by positivity)
  unfold FloatExpr.div
  rw [(nan_false k).2 (le_of_lt iv), (nan_false (power10 d)).2 (le_of_lt ip), if_neg (show ¬ mag dbl k = dbl.I by omega), if_neg (show ¬ mag dbl (power10 d) = dbl.I by omega), if_neg hne, p2]
  simp only [Bool.or_self, Bool.false_eq_true, if_false, Bool.bne_false]
  exact (pack_parts bin_dbl _ _ (roundMag_le _ _)).1

/-- **C136** (partial: this is not the decimal nearest to the value, see `C136_decimal_refuted`): for 0 to 15 digits, every mode and every finite double below 10^16 in size, `Math.Round(value, digits, mode)` multiplies by the power of ten and
rounds that product to a double, chooses the integer `k` the mode asks for, and returns the double nearest to `k / 10^digits`, with the sign bit of the value. -/
theorem C136_round_partial (v : Nat) (digits mode : Int) (hv : Fin v) (hl : |number dbl v| < 10 ^ 16) (hd : 0 ≤ digits ∧ digits ≤ 15) (hm : 0 ≤ mode ∧ mode ≤ 4) :
    ∃ (r y : Nat) (k : Int), roundDigits v digits mode = .ok r ∧ Rounded dbl (number dbl v * 10 ^ digits.toNat) y ∧ ByMode mode (number dbl y) k ∧ Rounded dbl (k / 10 ^ digits.toNat) r ∧ neg dbl r = neg dbl v := by
  have hd' : digits.toNat ≤ 15 := by omega
  generalize hdn : digits.toNat = d at *
  obtain ⟨p1, p2, p3⟩ := power10_spec d hd'
  obtain ⟨y1, y2⟩ := product_spec v d hv hd' hl
  obtain ⟨r, k, h1, h2, h3, h4, h5⟩ := roundMode_spec mode hm _ y1
  refine ⟨FloatExpr.div dbl r (power10 d), FloatExpr.mul dbl v (power10 d), k, ?_, ?_, h5, ?_, ?_⟩
  · unfold roundDigits
    have hn := (nan_false v).2 (le_of_lt (finite_mag libd hv))
    rw [if_neg (by omega), if_neg (by omega), if_pos ((below_limit v hv.1 hn).2 hl), hdn, h1]
  · have := FloatExpr.mul_rounded libd v (power10 d) hv p1
    rw [p3] at this
    exact this
  · have := FloatExpr.div_rounded libd r (power10 d) h2 p1 (by rw [p3]; positivity)
    rw [p3, h4] at this
    exact this
  · rw [div_sign r d h2 hd', h3, y2]

/-- **C136**: when the product with the power of ten is a double (always for 0 digits), the integer is chosen for the exact value. -/
theorem C136_exact_partial (v : Nat) (digits mode : Int) (hv : Fin v) (hl : |number dbl v| < 10 ^ 16) (hd : 0 ≤ digits ∧ digits ≤ 15) (hm : 0 ≤ mode ∧ mode ≤ 4)
    (c : Nat) (hc : Fin c) (he : number dbl c = number dbl v * 10 ^ digits.toNat) :
    ∃ (r : Nat) (k : Int), roundDigits v digits mode = .ok r ∧ ByMode mode (number dbl v * 10 ^ digits.toNat) k ∧ Rounded dbl (k / 10 ^ digits.toNat) r ∧ neg dbl r = neg dbl v := by
  obtain ⟨r, y, k, h1, h2, h3, h4, h5⟩ := C136_round_partial v digits mode hv hl hd hm
  rw [rounded_exact h2 hc.1 hc.2.1 he] at h3
  exact ⟨r, k, h1, h3, h4, h5⟩

/-- **C136**: for 0 digits the result is exactly the integer the mode asks for. -/
theorem C136_integer (v : Nat) (mode : Int) (hv : Fin v) (hl : |number dbl v| < 10 ^ 16) (hm : 0 ≤ mode ∧ mode ≤ 4) :
    ∃ (r : Nat) (k : Int), roundDigits v 0 mode = .ok r ∧ number dbl r = k ∧ ByMode mode (number dbl v) k ∧ neg dbl r = neg dbl v := by
  obtain ⟨p1, p2, p3⟩ := power10_spec 0 (by decide)
  obtain ⟨y1, y2⟩ := product_spec v 0 hv (by decide) hl
  obtain ⟨r, k, h1, h2, h3, h4, h5⟩ := roundMode_spec mode hm _ y1
  have hn := (nan_false v).2 (le_of_lt (finite_mag libd hv))
  have hy : number dbl (FloatExpr.mul dbl v (power10 0)) = number dbl v := by
    have := FloatExpr.mul_rounded libd v (power10 0) hv p1
    rw [p3, pow_zero, mul_one] at this
    exact rounded_exact this hv.1 hv.2.1 rfl
  rw [hy] at h5
  refine ⟨FloatExpr.div dbl r (power10 0), k, ?_, ?_, h5, ?_⟩
  · unfold roundDigits
    rw [if_neg (by omega), if_neg (by omega), if_pos ((below_limit v hv.1 hn).2 hl), show (0 : Int).toNat = 0 from rfl, h1]
  · have := FloatExpr.div_rounded libd r (power10 0) h2 p1 (by rw [p3]; positivity)
    rw [p3, pow_zero, div_one] at this
    rw [← h4]
    exact rounded_exact this h2.1 h2.2.1 rfl
  · rw [div_sign r 0 h2 (by decide), h3, y2]

/-- **C136** (partial as `C136_round_partial`): `Math.Round(value, digits)` chooses the nearest integer, the even one of two equally near. -/
theorem C136_no_mode_partial (v : Nat) (digits : Int) (hv : Fin v) (hl : |number dbl v| < 10 ^ 16) (hd : 0 ≤ digits ∧ digits ≤ 15) :
    ∃ (r y : Nat) (k : Int), roundDigits2 v digits = .ok r ∧ Rounded dbl (number dbl v * 10 ^ digits.toNat) y ∧ |number dbl y - k| ≤ 1 / 2 ∧ (|number dbl y - k| = 1 / 2 → k % 2 = 0) ∧ Rounded dbl (k / 10 ^ digits.toNat) r ∧
      neg dbl r = neg dbl v := by
  obtain ⟨r, y, k, h1, h2, h3, h4, h5⟩ := C136_round_partial v digits 0 hv hl hd ⟨by decide, by decide⟩
  exact ⟨r, y, k, h1, h2, (h3.1 rfl).1, (h3.1 rfl).2, h4, h5⟩

/-- `Math.Round(0.125, 2)` is 0.12. -/
example : Fin 0x3FC0000000000000 ∧ roundDigits2 0x3FC0000000000000 2 = .ok 0x3FBEB851EB851EB8 := by
  refine ⟨(fin_iff _).2 (by decide +kernel), ?_⟩; decide +kernel

/-- **C136**: NaN, the infinities and everything of size 10^16 or more are returned unchanged. -/
theorem C136_unchanged (v : Nat) (digits mode : Int) (hp : v < 2 * dbl.S) (hd : 0 ≤ digits ∧ digits ≤ 15) (hm : 0 ≤ mode ∧ mode ≤ 4) (h : classOf dbl v = .nan ∨ 10 ^ 16 ≤ |number dbl v|) : roundDigits v digits mode = .ok v := by
  unfold roundDigits
  rw [if_neg (by omega), if_neg (by omega)]
  have : ¬ flt dbl (FltModel.abs dbl v) roundLimit = true := by
    cases hn : nan dbl v with
    | true =>
      unfold flt
      rw [(abs_val v hp).2, hn]
      simp
    | false =>
      rw [below_limit v hp hn, not_lt]
      rcases h with h | h
      · rw [(nan_class (facts libd) v).2 h] at hn; cases hn
      · exact h
  rw [if_neg this]

/-- **C136**: exactly the digits outside 0 to 15 and, then, the modes outside the five raise their exceptions. -/
theorem C136_arguments (v : Nat) (digits mode : Int) (hv : v < 2 * dbl.S) :
    (roundDigits v digits mode = .throw .argumentOutOfRange ↔ digits < 0 ∨ 15 < digits) ∧ (roundDigits v digits mode = .throw .argument ↔ (0 ≤ digits ∧ digits ≤ 15) ∧ (mode < 0 ∨ 4 < mode)) ∧
    (roundDigits v digits mode ≠ .ub) := by
  by_cases hd : digits < 0 ∨ digits > 15
  · have : roundDigits v digits mode = .throw .argumentOutOfRange := by unfold roundDigits; rw [if_pos hd]
    rw [this]
    refine ⟨⟨fun _ => hd, fun _ => rfl⟩, ⟨fun h => (by cases h), fun h => (by omega)⟩, fun h => (by cases h)⟩
  · by_cases hm : mode < 0 ∨ mode > 4
    · have : roundDigits v digits mode = .throw .argument := by unfold roundDigits; rw [if_neg hd, if_pos hm]
      rw [this]
      refine ⟨⟨fun h => (by cases h), fun h => absurd h hd⟩, ⟨fun _ => ⟨by omega, hm⟩, fun _ => rfl⟩, fun h => (by cases h)⟩
    · have ok : ∃ r, roundDigits v digits mode = .ok r := by
        by_cases c : classOf dbl v = .nan ∨ 10 ^ 16 ≤ |number dbl v|
        · exact ⟨_, C136_unchanged v digits mode hv (by omega) (by omega) c⟩
        · obtain ⟨c1, c2⟩ := not_or.1 c
          rw [not_le] at c2
          have hinf : classOf dbl v ≠ .infinite := by
            intro h
            have hi : mag dbl v = dbl.I := (class_inf (facts libd) v).1 h
            have hn : nan dbl v = false := (nan_false _).2 (le_of_eq hi)
            have h2 := (below_limit v hv hn).2 c2
            unfold flt at h2
            rw [(abs_val v hv).1, hi, limit_spec.2.2] at h2
            revert h2
            rw [(abs_val v hv).2, hn, limit_spec.2.1]
            decide +kernel
          obtain ⟨r, _, _, h1, _⟩ := C136_round_partial v digits mode ⟨hv, c1, hinf⟩ c2 (by omega) (by omega)
          exact ⟨r, h1⟩
      obtain ⟨r, hr⟩ := ok
      rw [hr]
      refine ⟨⟨fun h => (by cases h), fun h => absurd h hd⟩, ⟨fun h => (by cases h), fun h => absurd h.2 hm⟩, fun h => (by cases h)⟩

/-- `Math.Round(-2.5, 0, mode)` for the five modes. -/
example : Fin 0xC004000000000000 ∧ roundDigits 0xC004000000000000 0 0 = .ok 0xC000000000000000 ∧ roundDigits 0xC004000000000000 0 1 = .ok 0xC008000000000000 ∧ roundDigits 0xC004000000000000 0 2 = .ok 0xC000000000000000 ∧
    roundDigits 0xC004000000000000 0 3 = .ok 0xC008000000000000 ∧ roundDigits 0xC004000000000000 0 4 = .ok 0xC000000000000000 := by
  refine ⟨⟨by decide, by decide, by decide⟩, ?_⟩; decide +kernel

/-- 2.346 to two digits is the double 2.35; the exact case: 0.125 to two digits, to even, is 0.12. -/
example : roundDigits 0x4002C49BA5E353F8 2 0 = .ok 0x4002CCCCCCCCCCCD ∧ roundDigits2 0x3FC0000000000000 2 = .ok 0x3FBEB851EB851EB8 ∧ number dbl 0x4029000000000000 = number dbl 0x3FC0000000000000 * 10 ^ (2 : Int).toNat := by
  decide +kernel

/-- **C136** (refuted): the product is rounded first, so the result is not always the nearest decimal: the double 0.045 is below 0.045, the nearest decimal with two digits is 0.04; `Math.Round(0.045, 2, AwayFromZero)` is 0.05. -/
theorem C136_decimal_refuted : roundDigits 0x3FA70A3D70A3D70A 2 1 = .ok 0x3FA999999999999A ∧ number dbl 0x3FA70A3D70A3D70A < 45 / 1000 ∧
    Rounded dbl (5 / 100) 0x3FA999999999999A ∧ |number dbl 0x3FA70A3D70A3D70A - 4 / 100| < |number dbl 0x3FA70A3D70A3D70A - 5 / 100| := by
  refine ⟨by decide +kernel, by decide +kernel, ?_, by decide +kernel⟩
  have h := FloatExpr.div_rounded libd (FloatExpr.ofInt dbl 5) (FloatExpr.ofInt dbl 100) ((fin_iff _).2 (by decide +kernel)) ((fin_iff _).2 (by decide +kernel)) (by decide +kernel)
  rw [show number dbl (FloatExpr.ofInt dbl 5) = 5 by decide +kernel, show number dbl (FloatExpr.ofInt dbl 100) = 100 by decide +kernel,
    show FloatExpr.div dbl (FloatExpr.ofInt dbl 5) (FloatExpr.ofInt dbl 100) = 0x3FA999999999999A by decide +kernel] at h
  exact h

end Verif.MathRound
