import Verif.FloatSpanProps
set_option linter.unusedVariables false
/-!
# C126: TimeSpan.Multiply and Divide; C127: the Total properties
-/
namespace Verif.FloatTime
open Verif.FltModel Verif.FltSpec Verif.FltProps Verif.Arith

/-! ### Rounding to a whole number of ticks -/

theorem nearestEven_le {v n K : Int} (h : NearestEven v n) : (v ≤ K * one → n ≤ K) ∧ (K * one ≤ v → K ≤ n) := by
  have ho := one_pos
  have h1 := h.1
  constructor
  · intro hv
    by_cases c : n ≤ K
    · exact c
    · exfalso
      have := Int.mul_le_mul_of_nonneg_right (show K + 1 ≤ n by omega) (show 0 ≤ one by omega)
      rw [Int.add_mul, Int.one_mul] at this
      generalize n * one = x at *
      omega
  · intro hv
    by_cases c : K ≤ n
    · exact c
    · exfalso
      have := Int.mul_le_mul_of_nonneg_right (show n ≤ K - 1 by omega) (show 0 ≤ one by omega)
      rw [Int.sub_mul, Int.one_mul] at this
      generalize n * one = x at *
      omega

/-- The doubles next to 2^63. -/
theorem gap63 (a : Nat) : (2 ^ 63 * one < val dbl a → (2 ^ 63 + 2048) * one ≤ val dbl a) ∧ (val dbl a < 2 ^ 63 * one → val dbl a ≤ (2 ^ 63 - 1024) * one) ∧
    (val dbl a < -(2 ^ 63 * one) → val dbl a ≤ (-2 ^ 63 - 2048) * one) := by
  obtain ⟨hp0, _, p0, p1, p2, _, _⟩ := P63_facts
  have c0 : (2 ^ 63 : Int) * one = ((magVal dbl P63 : Nat) : Int) := by
    rw [p0, ← unit_one, show (2 ^ 63 : Int) = ((2 ^ 53 * 1024 : Nat) : Int) by decide, ← Int.natCast_mul, Nat.mul_assoc]
  have c1 : (2 ^ 63 + 2048 : Int) * one = ((magVal dbl (P63 + 1) : Nat) : Int) := by
    rw [p1, ← unit_one, show (2 ^ 63 + 2048 : Int) = (((2 ^ 53 + 2) * 1024 : Nat) : Int) by decide, ← Int.natCast_mul, Nat.mul_assoc]
  have c2 : (2 ^ 63 - 1024 : Int) * one = ((magVal dbl (P63 - 1) : Nat) : Int) := by
    rw [p2, ← unit_one, show (2 ^ 63 - 1024 : Int) = ((9007199254740991 * 1024 : Nat) : Int) by decide, ← Int.natCast_mul, Nat.mul_assoc]
  have c3 : (-2 ^ 63 - 2048 : Int) * one = -((2 ^ 63 + 2048) * one) := by rw [← Int.neg_mul]; congr 1
  rw [c3, c0, c1, c2]
  clear c0 c1 c2 c3 p0 p1 p2
  have g := val_abs a
  have h1 : magVal dbl P63 < magVal dbl (mag dbl a) → magVal dbl (P63 + 1) ≤ magVal dbl (mag dbl a) := by
    intro h
    have : ¬ mag dbl a ≤ P63 := by rw [← magVal_le dbl dM0]; omega
    exact (magVal_le dbl dM0).2 (by omega)
  have h2 : magVal dbl (mag dbl a) < magVal dbl P63 → magVal dbl (mag dbl a) ≤ magVal dbl (P63 - 1) := by
    intro h
    have : ¬ P63 ≤ mag dbl a := by rw [← magVal_le dbl dM0]; omega
    exact (magVal_le dbl dM0).2 (by omega)
  generalize magVal dbl P63 = P at *
  generalize magVal dbl (P63 + 1) = Q at *
  generalize magVal dbl (P63 - 1) = S at *
  generalize magVal dbl (mag dbl a) = V at *
  refine ⟨fun h => ?_, fun h => ?_, fun h => ?_⟩
  · have := h1 (by omega); omega
  · rcases (by omega : 0 ≤ val dbl a ∨ val dbl a < 0) with c | c
    · have := h2 (by omega); omega
    · omega
  · have := h1 (by omega); omega

/-- A number that is not NaN is finite or one of the infinities. -/
theorem fin_or_inf (a : Nat) (ha : a < 2 ^ 64) (hn : nan dbl a = false) : IsFin a ∨ a = posInf dbl ∨ a = negInf dbl := by
  by_cases c : IsFin a
  · exact Or.inl c
  · right
    unfold nan at hn
    have h1 := of_decide_eq_false hn
    unfold IsFin at c
    have hm : mag dbl a = 0x7FF0000000000000 := by
      have : dbl.I = 0x7FF0000000000000 := rfl
      omega
    have hm' : a % 0x8000000000000000 = 0x7FF0000000000000 := hm
    have e1 : posInf dbl = 0x7FF0000000000000 := rfl
    have e2 : negInf dbl = 0xFFF0000000000000 := rfl
    rw [e1, e2]
    omega

theorem inf_vals : round (posInf dbl) = posInf dbl ∧ round (negInf dbl) = negInf dbl ∧ (2 ^ 63 + 2048) * one < val dbl (posInf dbl) ∧ val dbl (negInf dbl) < (-2 ^ 63 - 2048) * one ∧
    nan dbl (posInf dbl) = false ∧ nan dbl (negInf dbl) = false := by decide +kernel

/-- Rounding to whole ticks and converting. -/
theorem round_finish (a : Nat) (ha : a < 2 ^ 64) (hn : nan dbl a = false) (x : Int) (d : Nat) (hd : 0 < d) (hv : val dbl a = R x d) :
    nan dbl (round a) = false ∧ ToTicks x d NearestEven
      (if flt dbl (ofInt (2 ^ 63 - 1)) (round a) || flt dbl (round a) (ofInt (-2 ^ 63)) then (.throw .overflow : Res Int) else toI64 (round a)) := by
  obtain ⟨l1, l2, l3⟩ := limits x d hd
  rw [← hv] at l1 l2 l3
  have ho := one_pos
  unfold ToTicks
  simp only [← l1, ← l2, ← l3]
  rcases fin_or_inf a ha hn with hf | hf | hf
  · obtain ⟨n, h1, h2, _, h4, h5, h6⟩ := C74_round_nearest_even a (dbl_pat.2 ha) ((class_fin (facts (Or.inl rfl : Lib dbl)) _).2 hf)
    have hnr : nan dbl (round a) = false := fin_nan ((class_fin (facts (Or.inl rfl : Lib dbl)) _).1 ⟨h5, h6⟩)
    refine ⟨hnr, ?_⟩
    rw [finish _ hnr, h2]
    obtain ⟨g1, g2, g3⟩ := gap63 a
    have mulle : ∀ A C : Int, A ≤ C → A * one ≤ C * one := fun A C h => Int.mul_le_mul_of_nonneg_right h (by omega)
    by_cases c1 : 2 ^ 63 * one < val dbl a
    · have := mulle _ _ ((nearestEven_le h1).2 (g1 c1))
      rw [Int.add_mul] at this
      rw [if_pos (Or.inl c1), if_pos (Or.inl (by omega))]
    · by_cases c2 : val dbl a < -(2 ^ 63 * one)
      · have := mulle _ _ ((nearestEven_le h1).1 (g3 c2))
        rw [Int.sub_mul, Int.neg_mul] at this
        rw [if_pos (Or.inr c2), if_pos (Or.inr (by omega))]
      · rw [if_neg (show ¬ (2 ^ 63 * one < val dbl a ∨ val dbl a < -(2 ^ 63 * one)) by omega)]
        have b1 := (nearestEven_le h1 (K := 2 ^ 63)).1 (by omega)
        have b2 := (nearestEven_le h1 (K := -2 ^ 63)).2 (by rw [Int.neg_mul]; omega)
        have b3 := mulle _ _ b1
        have b4 := mulle _ _ b2
        rw [Int.neg_mul] at b4
        rw [if_neg (show ¬ (2 ^ 63 * one < n * one ∨ n * one < -(2 ^ 63 * one)) by omega)]
        by_cases c3 : 2 ^ 63 * one ≤ val dbl a
        · have := mulle _ _ ((nearestEven_le h1).2 c3)
          rw [if_pos c3, if_pos (by omega)]
        · have := mulle _ _ ((nearestEven_le h1).1 (g2 (by omega)))
          rw [Int.sub_mul] at this
          rw [if_neg c3, if_neg (show ¬ 2 ^ 63 * one ≤ n * one by omega), Int.mul_tdiv_cancel _ (by omega)]
          exact ⟨a, n, nearest_of x d a hd ha hf hv, h1, rfl⟩
  · obtain ⟨r1, r2, r3, r4, r5, r6⟩ := inf_vals
    subst hf
    rw [r1, finish _ r5]
    rw [Int.add_mul] at r3
    refine ⟨r5, ?_⟩
    rw [if_pos (Or.inl (by omega)), if_pos (Or.inl (by omega))]
  · obtain ⟨r1, r2, r3, r4, r5, r6⟩ := inf_vals
    subst hf
    rw [r2, finish _ r6]
    rw [Int.sub_mul, Int.neg_mul] at r4
    refine ⟨r6, ?_⟩
    rw [if_pos (Or.inr (by omega)), if_pos (Or.inr (by omega))]

/-- A whole number of ticks is kept. -/
theorem whole_finish (a : Nat) (ha : a < 2 ^ 64) (N : Int) (hN : I64 N) (hv : val dbl a = N * one) (hf : IsFin a) :
    nan dbl (round a) = false ∧ (if flt dbl (ofInt (2 ^ 63 - 1)) (round a) || flt dbl (round a) (ofInt (-2 ^ 63)) then (.throw .overflow : Res Int) else toI64 (round a)) = .ok N := by
  obtain ⟨n, h1, h2, _, h4, h5, h6⟩ := C74_round_nearest_even a (dbl_pat.2 ha) ((class_fin (facts (Or.inl rfl : Lib dbl)) _).2 hf)
  have hnr : nan dbl (round a) = false := fin_nan ((class_fin (facts (Or.inl rfl : Lib dbl)) _).1 ⟨h5, h6⟩)
  have ho := one_pos
  rw [hv] at h1
  have e1 := (nearestEven_le h1).1 (Int.le_refl _)
  have e2 := (nearestEven_le h1).2 (Int.le_refl _)
  have e : n = N := by omega
  refine ⟨hnr, ?_⟩
  unfold I64 at hN
  rw [finish _ hnr, h2, e]
  have b1 := Int.mul_le_mul_of_nonneg_right (show N ≤ 2 ^ 63 - 1 by omega) (show 0 ≤ one by omega)
  have b2 := Int.mul_le_mul_of_nonneg_right (show -2 ^ 63 ≤ N by omega) (show 0 ≤ one by omega)
  rw [Int.sub_mul, Int.one_mul] at b1
  rw [Int.neg_mul] at b2
  rw [if_neg (by omega), if_neg (by omega), Int.mul_tdiv_cancel _ (by omega)]

/-! ### The tick count as a double -/

theorem ofInt_pat (i : Int) : ofInt i < 2 ^ 64 := by
  unfold ofInt
  exact (pack_parts _ _ (roundMag_le _ _)).2.2

theorem ofInt_fin (t : Int) (ht : I64 t) : IsFin (ofInt t) ∧ val dbl (ofInt t) ≤ 2 ^ 63 * one ∧ -(2 ^ 63 * one) ≤ val dbl (ofInt t) := by
  unfold I64 at ht
  obtain ⟨h1, h2, h3⟩ := ofInt_val t
  have hU : (0 : Int) < unit := by have := unit_pos; omega
  have x1 : R ((2 ^ 63 : Int) * unit) 1 = 2 ^ 63 * unit := R_whole ⟨1, 63, by decide, by decide, by omega⟩
  have x2 : R ((-2 ^ 63 : Int) * unit) 1 = -2 ^ 63 * unit := R_whole ⟨1, 63, by decide, by decide, by omega⟩
  have m1 := R_mono (t * unit) (2 ^ 63 * unit) 1 (by omega) (Int.mul_le_mul_of_nonneg_right (by omega) (by omega))
  have m2 := R_mono (-2 ^ 63 * unit) (t * unit) 1 (by omega) (Int.mul_le_mul_of_nonneg_right (by omega) (by omega))
  rw [x1] at m1
  rw [x2, Int.neg_mul] at m2
  rw [unit_one] at *
  refine ⟨R_bound_fin h2 ⟨m1, m2⟩, ?_, ?_⟩
  · rw [h2]; exact m1
  · rw [h2]; exact m2

/-- `(Double) ticks` is the nearest double. -/
theorem ofInt_nearest (t : Int) (ht : I64 t) : Nearest (t * one) 1 (ofInt t) :=
  nearest_of _ 1 _ (by omega) (ofInt_pat t) (ofInt_fin t ht).1 (by rw [(ofInt_val t).2.1, unit_one])

/-! ### C126 -/

/-- **C126**: `Multiply` by a finite Double: the ticks `t`, as the nearest Double `T`, times the factor, as the nearest Double, rounded to the nearest whole number of ticks. -/
theorem C126_multiply (t : Int) (ht : I64 t) (f : Nat) (hf : Finite f) :
    ∃ T, Nearest (t * one) 1 T ∧ ToTicks (val dbl T * val dbl f) (2 ^ 1074) NearestEven (multiply t f) := by
  refine ⟨ofInt t, ofInt_nearest t ht, ?_⟩
  obtain ⟨f1, f2⟩ := (finite_iff f).1 hf
  obtain ⟨m1, m2, m3, m4⟩ := mul_fin (ofInt t) f (ofInt_fin t ht).1 f2
  unfold multiply
  rw [isNaN_nan, fin_nan f2, if_neg (by decide)]
  exact (round_finish _ m4 m1 _ unit unit_pos m2).2

theorem sign_mul (t k q : Int) (hq : t = q * k) : t * k.sign = q * (k.natAbs : Int) := by
  rw [hq, Int.mul_assoc, Int.mul_comm k, Int.sign_mul_self_eq_natAbs]

/-- **C126**: `Divide` by a finite Double other than zero: likewise with the quotient. -/
theorem C126_divide (t : Int) (ht : I64 t) (f : Nat) (hf : Finite f) (h0 : val dbl f ≠ 0) :
    ∃ T, Nearest (t * one) 1 T ∧ ToTicks (val dbl T * one * (val dbl f).sign) (val dbl f).natAbs NearestEven (divide t f) := by
  refine ⟨ofInt t, ofInt_nearest t ht, ?_⟩
  obtain ⟨f1, f2⟩ := (finite_iff f).1 hf
  obtain ⟨m1, m2, m4⟩ := div_fin (ofInt t) f (ofInt_fin t ht).1 f2 h0
  rw [unit_one] at m2
  obtain ⟨r1, r2⟩ := round_finish _ m4 m1 _ (val dbl f).natAbs (by omega) m2
  unfold divide
  rw [isNaN_nan, fin_nan f2, if_neg (by decide), isNaN_nan, r1, Bool.or_false]
  exact r2

/-- **C126**: whole factors: when `t`, `t * k` have at most 53 significant bits, and the product fits, `Multiply` is exact. -/
theorem C126_multiply_whole (t k : Int) (ht : I64 t) (he : Exact t) (f : Nat) (hf : Finite f) (hk : val dbl f = k * one) (hp : Exact (t * k)) (hI : I64 (t * k)) :
    multiply t f = .ok (t * k) := by
  obtain ⟨f1, f2⟩ := (finite_iff f).1 hf
  obtain ⟨m1, m2, m3, m4⟩ := mul_fin (ofInt t) f (ofInt_fin t ht).1 f2
  rw [(ofInt_exact he).1, hk, ← unit_one, show t * (unit : Int) * (k * unit) = t * k * unit * unit by rw [← Int.mul_assoc, Int.mul_right_comm t unit k],
    R_int hp unit unit_pos, unit_one] at m2
  have hfin : IsFin (mul (ofInt t) f) := by
    rw [fin_val, m2, ← unit_one]
    obtain ⟨m, x1, x2⟩ := exact_mag hp
    rw [x2]
    exact magVal_lt dbl dM0 x1
  unfold multiply
  rw [isNaN_nan, fin_nan f2, if_neg (by decide)]
  exact (whole_finish _ m4 _ hI m2 hfin).2

/-- **C126**: whole quotients: `Divide` undoes multiplication by a whole number other than zero. -/
theorem C126_divide_whole (q k : Int) (hk0 : k ≠ 0) (hq : Exact q) (hI : I64 q) (ht : I64 (q * k)) (he : Exact (q * k)) (f : Nat) (hf : Finite f) (hk : val dbl f = k * one) :
    divide (q * k) f = .ok q := by
  obtain ⟨f1, f2⟩ := (finite_iff f).1 hf
  have ho := one_pos
  have hU := unit_pos
  have h0 : val dbl f ≠ 0 := by
    rw [hk]
    exact Int.mul_ne_zero hk0 (by omega)
  obtain ⟨m1, m2, m4⟩ := div_fin (ofInt (q * k)) f (ofInt_fin _ ht).1 f2 h0
  have hv : val dbl (div (ofInt (q * k)) f) = q * one := by
    have e1 : (k * (unit : Int)).sign = k.sign := by
      rw [Int.sign_mul, Int.sign_eq_one_of_pos (show (0 : Int) < unit by omega), Int.mul_one]
    have e2 : (k * (unit : Int)).natAbs = k.natAbs * unit := by rw [Int.natAbs_mul, Int.natAbs_natCast]
    rw [m2, (ofInt_exact he).1, hk, ← unit_one, e1, e2]
    have e3 : q * k * (unit : Int) * unit * k.sign = q * unit * ((k.natAbs * unit : Nat) : Int) := by
      rw [Int.mul_right_comm _ _ k.sign, Int.mul_right_comm _ _ k.sign, sign_mul (q * k) k q rfl, Int.natCast_mul, Int.mul_right_comm q _ (unit : Int), Int.mul_assoc (q * (unit : Int))]
    rw [e3, R_int hq _ (Nat.mul_pos (by omega) hU)]
  have hfin : IsFin (div (ofInt (q * k)) f) := by
    rw [fin_val, hv, ← unit_one]
    obtain ⟨m, x1, x2⟩ := exact_mag hq
    rw [x2]
    exact magVal_lt dbl dM0 x1
  obtain ⟨r1, r2⟩ := whole_finish _ m4 _ hI hv hfin
  unfold divide
  rw [isNaN_nan, fin_nan f2, if_neg (by decide), isNaN_nan, r1, Bool.or_false]
  exact r2

/-- **C126**: NaN is an ArgumentException; dividing by zero an OverflowException, also zero by zero. -/
theorem C126_special (t : Int) (ht : I64 t) : (∀ v, classOf dbl v = .nan → multiply t v = .throw .argument ∧ divide t v = .throw .argument) ∧
    (∀ z, classOf dbl z = .zero → divide t z = .throw .overflow) := by
  have hF := facts (Or.inl rfl : Lib dbl)
  refine ⟨?_, ?_⟩
  · intro v hv
    unfold multiply divide
    rw [(isNaN_class hF v).2 hv, if_pos rfl, if_pos rfl]
    exact ⟨rfl, rfl⟩
  · intro z hz
    have hz0 : mag dbl z = 0 := (class_zero hF z).1 hz
    have hzf : IsFin z := by unfold IsFin; rw [hz0]; decide
    have hq : div (ofInt t) z = NaN ∨ div (ofInt t) z = pack true dbl.I ∨ div (ofInt t) z = pack false dbl.I := by
      have hf := (ofInt_fin t ht).1
      unfold div
      rw [fin_nan hf, fin_nan hzf, if_neg (by decide), if_neg (by unfold IsFin at hf; omega), if_neg (by rw [hz0]; decide), if_pos hz0]
      split
      · exact Or.inl rfl
      · right
        cases (neg dbl (ofInt t) != neg dbl z)
        · exact Or.inr rfl
        · exact Or.inl rfl
    unfold divide
    rw [isNaN_nan, fin_nan hzf, if_neg (by decide)]
    rcases hq with h | h | h <;> rw [h] <;> decide +kernel

theorem ratio_bound (T U : Int) (t2 : T ≤ 2 ^ 63 * one) (t3 : -(2 ^ 63 * one) ≤ T) (hU : one ≤ (U.natAbs : Int)) :
    R (T * one * U.sign) U.natAbs ≤ 2 ^ 63 * one ∧ -(2 ^ 63 * one) ≤ R (T * one * U.sign) U.natAbs := by
  have ho := one_pos
  have hd : 0 < U.natAbs := by omega
  have y1 : R (2 ^ 63 * unit * (U.natAbs : Int)) U.natAbs = 2 ^ 63 * unit := R_int ⟨1, 63, by decide, by decide, by omega⟩ _ hd
  have y2 : R (-2 ^ 63 * unit * (U.natAbs : Int)) U.natAbs = -2 ^ 63 * unit := R_int ⟨1, 63, by decide, by decide, by omega⟩ _ hd
  rw [unit_one] at y1 y2
  have hs : U.sign = 1 ∨ U.sign = -1 := by
    rcases (by omega : 0 < U ∨ U < 0) with c | c
    · exact Or.inl (Int.sign_eq_one_of_pos c)
    · exact Or.inr (Int.sign_eq_neg_one_of_neg c)
  have h2 := Int.mul_le_mul_of_nonneg_left hU (show 0 ≤ 2 ^ 63 * one by omega)
  have b1 := Int.mul_le_mul_of_nonneg_right t2 (show 0 ≤ one by omega)
  have b2 := Int.mul_le_mul_of_nonneg_right t3 (show 0 ≤ one by omega)
  rw [Int.neg_mul] at b2
  have e := Int.neg_mul (2 ^ 63 * one) (U.natAbs : Int)
  have e' := Int.neg_mul (2 ^ 63) one
  rw [e'] at y2
  rw [e] at y2
  have z1 : T * one * U.sign ≤ 2 ^ 63 * one * (U.natAbs : Int) := by
    rcases hs with h | h
    · rw [h, Int.mul_one]; exact Int.le_trans b1 h2
    · rw [h, Int.mul_neg, Int.mul_one]
      generalize 2 ^ 63 * one * (U.natAbs : Int) = A at *
      generalize 2 ^ 63 * one * one = B at *
      generalize T * one = C at *
      omega
  have z2 : -(2 ^ 63 * one * (U.natAbs : Int)) ≤ T * one * U.sign := by
    rcases hs with h | h
    · rw [h, Int.mul_one]
      generalize 2 ^ 63 * one * (U.natAbs : Int) = A at *
      generalize 2 ^ 63 * one * one = B at *
      generalize T * one = C at *
      omega
    · rw [h, Int.mul_neg, Int.mul_one]
      generalize 2 ^ 63 * one * (U.natAbs : Int) = A at *
      generalize 2 ^ 63 * one * one = B at *
      generalize T * one = C at *
      omega
  have w1 := R_mono _ _ U.natAbs hd z1
  have w2 := R_mono _ _ U.natAbs hd z2
  rw [y1] at w1
  rw [y2] at w2
  exact ⟨w1, w2⟩

theorem ofInt_ge (u : Int) (h0 : u ≠ 0) : one ≤ ((val dbl (ofInt u)).natAbs : Int) := by
  rw [(ofInt_val u).2.1]
  have x1 : R ((1 : Int) * unit) 1 = 1 * unit := R_whole (Exact.small (by decide))
  have x2 : R ((-1 : Int) * unit) 1 = -1 * unit := R_whole (Exact.small (by decide))
  have hU : (0 : Int) < unit := by have := unit_pos; omega
  rcases (by omega : 1 ≤ u ∨ u ≤ -1) with c | c
  · have := R_mono (1 * unit) (u * unit) 1 (by omega) (Int.mul_le_mul_of_nonneg_right c (by omega))
    rw [x1] at this
    rw [← unit_one]
    generalize R (u * unit) 1 = r at *
    omega
  · have := R_mono (u * unit) (-1 * unit) 1 (by omega) (Int.mul_le_mul_of_nonneg_right c (by omega))
    rw [x2] at this
    rw [← unit_one]
    generalize R (u * unit) 1 = r at *
    omega

/-- **C126**: `Divide(TimeSpan)` is the Double nearest to the quotient of the two tick counts, each taken as the nearest Double. -/
theorem C126_ratio (t u : Int) (ht : I64 t) (hu : I64 u) (h0 : u ≠ 0) :
    ∃ T U, Nearest (t * one) 1 T ∧ Nearest (u * one) 1 U ∧ Nearest (val dbl T * one * (val dbl U).sign) (val dbl U).natAbs (ratio t u) := by
  refine ⟨ofInt t, ofInt u, ofInt_nearest t ht, ofInt_nearest u hu, ?_⟩
  have ho := one_pos
  obtain ⟨t1, t2, t3⟩ := ofInt_fin t ht
  obtain ⟨u1, u2, u3⟩ := ofInt_fin u hu
  have hone := ofInt_ge u h0
  have hd : 0 < (val dbl (ofInt u)).natAbs := by
    generalize (val dbl (ofInt u)).natAbs = y at *
    omega
  obtain ⟨m1, m2, m4⟩ := div_fin (ofInt t) (ofInt u) t1 u1 (Int.natAbs_pos.1 hd)
  rw [unit_one] at m2
  exact nearest_of _ _ _ hd m4 (R_bound_fin m2 (ratio_bound _ _ t2 t3 hone)) m2

/-- **C126 is refuted at the upper limit and for zero times infinity**: multiplying the longest TimeSpan by one is undefined (.NET gives it back), and so is zero times infinity (NaN passes the test; .NET throws). -/
theorem C126_limit_refuted : multiply (2 ^ 63 - 1) 0x3FF0000000000000 = .ub ∧ val dbl 0x3FF0000000000000 = 1 * one ∧ multiply 0 (posInf dbl) = .ub := by decide +kernel

/-! An hour and a half times two; three hours by -0.5 -/
example : (∃ f, Finite f ∧ val dbl f = 2 * one ∧ I64 54000000000 ∧ Exact 54000000000 ∧ multiply 54000000000 f = .ok 108000000000) ∧
    (∃ f, Finite f ∧ 2 * val dbl f = -one ∧ divide 108000000000 f = .ok (-216000000000)) ∧ (∃ f, Finite f ∧ val dbl f = 3 * one ∧ divide 10 f = .ok 3) := by
  refine ⟨⟨0x4000000000000000, ?_, by decide +kernel, by unfold I64; decide, Exact.small (by decide), by decide +kernel⟩, ⟨0xBFE0000000000000, ?_, by decide +kernel, by decide +kernel⟩,
    ⟨0x4008000000000000, ?_, by decide +kernel, by decide +kernel⟩⟩
  all_goals rw [finite_iff]; decide +kernel

/-! ### C127 -/

/-- A quotient by a positive whole number of ticks. -/
theorem quotient (t scale : Int) (ht : I64 t) (hs : 0 < scale) (he : Exact scale) :
    Nearest (val dbl (ofInt t)) scale.natAbs (div (ofInt t) (ofInt scale)) ∧ val dbl (div (ofInt t) (ofInt scale)) = R (val dbl (ofInt t)) scale.natAbs ∧ nan dbl (div (ofInt t) (ofInt scale)) = false := by
  have ho := one_pos
  obtain ⟨t1, t2, t3⟩ := ofInt_fin t ht
  obtain ⟨s1, s2⟩ := ofInt_exact he
  have hU := unit_pos
  have hUi : (0 : Int) < unit := by omega
  have hpos : 0 < val dbl (ofInt scale) := by rw [s1]; exact Int.mul_pos hs hUi
  obtain ⟨m1, m2, m4⟩ := div_fin (ofInt t) (ofInt scale) t1 s2 (by omega)
  have hd : 0 < scale.natAbs := by omega
  have e : (val dbl (ofInt scale)).natAbs = scale.natAbs * unit := by rw [s1, Int.natAbs_mul, Int.natAbs_natCast]
  rw [Int.sign_eq_one_of_pos hpos, Int.mul_one, e, R_scale _ _ _ hd hU] at m2
  refine ⟨nearest_of _ _ _ hd m4 (R_bound_fin m2 ?_) m2, m2, m1⟩
  have y1 : R (2 ^ 63 * unit * (scale.natAbs : Int)) scale.natAbs = 2 ^ 63 * unit := R_int ⟨1, 63, by decide, by decide, by omega⟩ _ hd
  have y2 : R (-2 ^ 63 * unit * (scale.natAbs : Int)) scale.natAbs = -2 ^ 63 * unit := R_int ⟨1, 63, by decide, by decide, by omega⟩ _ hd
  rw [unit_one] at y1 y2
  have e1 := Int.mul_le_mul_of_nonneg_left (show (1 : Int) ≤ (scale.natAbs : Int) by omega) (show 0 ≤ 2 ^ 63 * one by omega)
  rw [Int.mul_one] at e1
  have e' := Int.neg_mul (2 ^ 63) one
  have e'' := Int.neg_mul (2 ^ 63 * one) (scale.natAbs : Int)
  have w1 := R_mono (val dbl (ofInt t)) (2 ^ 63 * one * (scale.natAbs : Int)) scale.natAbs hd (by omega)
  have w2 := R_mono (-2 ^ 63 * one * (scale.natAbs : Int)) (val dbl (ofInt t)) scale.natAbs hd (by rw [e', e'']; omega)
  rw [y1] at w1
  rw [y2, e'] at w2
  exact ⟨w1, w2⟩

/-- The four properties without limits, with the ticks in one unit. -/
def totals : List ((Int → Nat) × Int) :=
  [(totalDays, 24 * 60 * 60 * 10000000), (totalHours, 60 * 60 * 10000000), (totalMinutes, 60 * 10000000), (totalSeconds, 10000000)]

theorem totals_scale : ∀ p ∈ totals, 0 < p.2 ∧ p.2 < 2 ^ 53 ∧ ∀ t, p.1 t = div (ofInt t) (ofInt p.2) := by
  intro p hp
  simp only [totals, List.mem_cons, List.not_mem_nil, or_false] at hp
  rcases hp with rfl | rfl | rfl | rfl
  · exact ⟨by decide, by decide, fun v => rfl⟩
  · exact ⟨by decide, by decide, fun v => rfl⟩
  · exact ⟨by decide, by decide, fun v => rfl⟩
  · exact ⟨by decide, by decide, fun v => rfl⟩

/-- **C127**: `TotalDays`, `TotalHours`, `TotalMinutes`, `TotalSeconds`: the Double nearest to the quotient of the tick count (itself as the nearest Double) by the ticks in one unit; of the exact tick count when it is
at most 2^53. -/
theorem C127_total (p : (Int → Nat) × Int) (hp : p ∈ totals) (t : Int) (ht : I64 t) :
    (∃ T, Nearest (t * one) 1 T ∧ Nearest (val dbl T) p.2.toNat (p.1 t)) ∧ (t.natAbs ≤ 2 ^ 53 → Nearest (t * one) p.2.toNat (p.1 t)) := by
  obtain ⟨s1, s2, s3⟩ := totals_scale p hp
  obtain ⟨q1, _, _⟩ := quotient t p.2 ht s1 (Exact.small (by omega))
  have e : p.2.natAbs = p.2.toNat := by omega
  rw [e] at q1
  rw [s3]
  refine ⟨⟨ofInt t, ofInt_nearest t ht, q1⟩, fun h => ?_⟩
  rw [(ofInt_exact (Exact.small h)).1, unit_one] at q1
  exact q1

/-- **C127**: a whole number of units, with at most 53 significant bits of ticks, is returned exactly. -/
theorem C127_whole_units (p : (Int → Nat) × Int) (hp : p ∈ totals) (q : Int) (ht : I64 (q * p.2)) (he : Exact (q * p.2)) (hq : Exact q) : val dbl (p.1 (q * p.2)) = q * one := by
  obtain ⟨s1, s2, s3⟩ := totals_scale p hp
  obtain ⟨_, q2, _⟩ := quotient (q * p.2) p.2 ht s1 (Exact.small (by omega))
  rw [s3, q2, (ofInt_exact he).1, Int.mul_right_comm, ← unit_one]
  have e : (p.2 : Int) = ((p.2.natAbs : Nat) : Int) := by omega
  have := R_int hq p.2.natAbs (by omega)
  rw [← e] at this
  exact this

/-- **C127**: days: every whole number of days comes back exactly, and `FromDays` of it is the TimeSpan again. -/
theorem C127_days (q : Int) (ht : I64 (q * 864000000000)) : val dbl (totalDays (q * 864000000000)) = q * one ∧ fromDays (totalDays (q * 864000000000)) = .ok (q * 864000000000) := by
  have hb : q.natAbs ≤ 2 ^ 53 := by unfold I64 at ht; omega
  have he : Exact (q * 864000000000) := by
    refine ⟨q.natAbs * 52734375, 14, ?_, ?_, by omega⟩
    · show (q * 864000000000).natAbs = _; omega
    · unfold I64 at ht; omega
  have h1 := C127_whole_units (totalDays, 864000000000) (by unfold totals; exact List.mem_cons_self ..) q ht he (Exact.small hb)
  refine ⟨h1, ?_⟩
  refine (C125_days_hours _ ?_ q h1).1 ht
  exact (quotient (q * 864000000000) 864000000000 ht (by omega) (Exact.small (by decide))).1.1

/-- **C127**: `TotalMilliseconds` is the nearest Double, limited to ±922337203685477. -/
theorem C127_total_milliseconds (t : Int) (ht : I64 t) : ∃ T r, Nearest (t * one) 1 T ∧ Nearest (val dbl T) 10000 r ∧ Finite (totalMilliseconds t) ∧
    val dbl (totalMilliseconds t) = max (-922337203685477 * one) (min (922337203685477 * one) (val dbl r)) := by
  obtain ⟨q1, q2, q3⟩ := quotient t 10000 ht (by omega) (Exact.small (by decide))
  refine ⟨ofInt t, div (ofInt t) (ofInt 10000), ofInt_nearest t ht, q1, ?_⟩
  have hM : TimeSpan.MaxMilliSeconds = 922337203685477 := by decide
  have hm : TimeSpan.MinMilliSeconds = -922337203685477 := by decide
  obtain ⟨a1, a2⟩ := ofInt_exact (i := 922337203685477) (Exact.small (by decide))
  obtain ⟨b1, b2⟩ := ofInt_exact (i := -922337203685477) (Exact.small (by decide))
  unfold totalMilliseconds
  rw [hM, hm, show TimeSpan.TicksPerMillisecond = 10000 from rfl]
  simp only []
  rw [flt_val _ _ (fin_nan a2) q3, flt_val _ _ q3 (fin_nan b2), a1, b1, unit_one]
  have ho := one_pos
  have e := Int.neg_mul 922337203685477 one
  by_cases c1 : 922337203685477 * one < val dbl (div (ofInt t) (ofInt 10000))
  · rw [decide_eq_true c1, if_pos rfl, a1, unit_one]
    exact ⟨(finite_iff _).2 ⟨ofInt_pat _, a2⟩, by omega⟩
  · rw [decide_eq_false c1, if_neg (by decide)]
    by_cases c2 : val dbl (div (ofInt t) (ofInt 10000)) < -922337203685477 * one
    · rw [decide_eq_true c2, if_pos rfl, b1, unit_one]
      exact ⟨(finite_iff _).2 ⟨ofInt_pat _, b2⟩, by omega⟩
    · rw [decide_eq_false c2, if_neg (by decide)]
      exact ⟨q1.1, by omega⟩

/-! A day and a half; the limits -/
example : 2 * val dbl (totalDays 1296000000000) = 3 * one ∧ val dbl (totalMilliseconds (2 ^ 63 - 1)) = 922337203685477 * one ∧ val dbl (totalHours 72000000000) = 2 * one := by decide +kernel

end Verif.FloatTime
