import Verif.ArithLemmas
/-!
# The numbers the operations on doubles give
-/
namespace Verif.Arith
open Verif.FltModel Verif.FltSpec Verif.FltProps

/-- The number of the double nearest to `n / d`. -/
def R (n : Int) (d : Nat) : Int := if n < 0 then -(magVal dbl (roundMag n.natAbs d) : Int) else (magVal dbl (roundMag n.natAbs d) : Int)

theorem unit_pos : 0 < unit := by exact Nat.two_pow_pos 1074
theorem unit_one : (unit : Int) = one := by unfold unit one; decide +kernel

theorem roundMag_le (n d : Nat) : roundMag n d ≤ dbl.I := by rw [roundMag_ext]; omega

theorem I_lt : dbl.I < 0x8000000000000000 := by decide

theorem pack_parts (s : Bool) (m : Nat) (hm : m ≤ dbl.I) : neg dbl (pack s m) = s ∧ mag dbl (pack s m) = m ∧ pack s m < 2 ^ 64 := by
  have h := I_lt
  unfold pack
  refine ⟨(join_dbl s m (by omega)).1, (join_dbl s m (by omega)).2, ?_⟩
  split <;> omega

theorem pack_nan (s : Bool) (m : Nat) (hm : m ≤ dbl.I) : nan dbl (pack s m) = false := by
  unfold nan
  rw [(pack_parts s m hm).2.1]
  exact decide_eq_false (by omega)

theorem pack_val (s : Bool) (m : Nat) (hm : m ≤ dbl.I) : val dbl (pack s m) = if s = true then -(magVal dbl m : Int) else (magVal dbl m : Int) := by
  rw [val_parts, (pack_parts s m hm).1, (pack_parts s m hm).2.1]

theorem val_abs (a : Nat) : (val dbl a).natAbs = magVal dbl (mag dbl a) := by
  rw [val_parts]; split <;> omega

theorem roundMag_zero (d : Nat) (hd : 0 < d) : roundMag 0 d = 0 := by
  have := roundMag_exact 0 d hd (by decide)
  rwa [magVal_zero, Nat.zero_mul] at this

theorem R_zero (d : Nat) (hd : 0 < d) : R 0 d = 0 := by
  unfold R
  rw [if_neg (by omega), show (0 : Int).natAbs = 0 from rfl, roundMag_zero d hd, magVal_zero]; rfl

theorem R_neg (n : Int) (d : Nat) (hd : 0 < d) : R (-n) d = -R n d := by
  by_cases h0 : n = 0
  · subst h0; rw [Int.neg_zero, R_zero d hd]; rfl
  · unfold R
    rw [Int.natAbs_neg]
    by_cases c : n < 0
    · rw [if_neg (by omega), if_pos c]; omega
    · rw [if_pos (by omega), if_neg c]

/-- The sign and the magnitude of a product or quotient, read as a number. -/
theorem signed_R (s : Bool) (m d : Nat) (n : Int) (hd : 0 < d) (hn : n = if s = true then -(m : Int) else (m : Int)) :
    val dbl (pack s (roundMag m d)) = R n d := by
  rw [pack_val _ _ (roundMag_le _ _)]
  cases s
  · rw [if_neg (by decide)] at hn ⊢
    subst hn
    unfold R
    rw [if_neg (by omega), Int.natAbs_natCast]
  · rw [if_pos rfl] at hn ⊢
    subst hn
    rw [R_neg _ _ hd]
    unfold R
    rw [if_neg (by omega), Int.natAbs_natCast]

theorem val_sign (a : Nat) : val dbl a = if neg dbl a = true then -(magVal dbl (mag dbl a) : Int) else (magVal dbl (mag dbl a) : Int) := val_parts a

/-- A finite double. -/
def IsFin (a : Nat) : Prop := mag dbl a < dbl.I

instance (a : Nat) : Decidable (IsFin a) := by unfold IsFin; infer_instance

theorem fin_nan {a : Nat} (h : IsFin a) : nan dbl a = false := by
  unfold nan; exact decide_eq_false (by unfold IsFin at h; omega)

theorem mul_fin (a b : Nat) (ha : IsFin a) (hb : IsFin b) :
    nan dbl (mul a b) = false ∧ val dbl (mul a b) = R (val dbl a * val dbl b) unit ∧ mag dbl (mul a b) = roundMag (val dbl a * val dbl b).natAbs unit ∧ mul a b < 2 ^ 64 := by
  have e : mul a b = pack (neg dbl a != neg dbl b) (roundMag (magVal dbl (mag dbl a) * magVal dbl (mag dbl b)) unit) := by
    unfold mul
    rw [fin_nan ha, fin_nan hb, if_neg (by decide), if_neg (by unfold IsFin at ha hb; omega)]
  rw [e]
  refine ⟨pack_nan _ _ (roundMag_le _ _), ?_, ?_, (pack_parts _ _ (roundMag_le _ _)).2.2⟩
  · apply signed_R _ _ _ _ unit_pos
    rw [val_sign a, val_sign b]
    cases neg dbl a <;> cases neg dbl b <;> simp [Int.neg_mul, Int.mul_neg]
  · rw [(pack_parts _ _ (roundMag_le _ _)).2.1, Int.natAbs_mul, val_abs, val_abs]

theorem add_fin (a b : Nat) (ha : IsFin a) (hb : IsFin b) : nan dbl (add a b) = false ∧ val dbl (add a b) = R (val dbl a + val dbl b) 1 ∧
    mag dbl (add a b) = roundMag (val dbl a + val dbl b).natAbs 1 := by
  have e : add a b = if val dbl a + val dbl b = 0 then (if neg dbl a && neg dbl b then pack true 0 else 0) else
      pack (decide (val dbl a + val dbl b < 0)) (roundMag (val dbl a + val dbl b).natAbs 1) := by
    unfold add
    rw [fin_nan ha, fin_nan hb, if_neg (by decide), if_neg (by unfold IsFin at ha; omega), if_neg (by unfold IsFin at hb; omega)]
  rw [e]
  by_cases c : val dbl a + val dbl b = 0
  · rw [if_pos c, c, R_zero 1 (by omega), show (0 : Int).natAbs = 0 from rfl, roundMag_zero 1 (by omega)]
    split
    · decide +kernel
    · decide +kernel
  · rw [if_neg c]
    refine ⟨pack_nan _ _ (roundMag_le _ _), ?_, (pack_parts _ _ (roundMag_le _ _)).2.1⟩
    apply signed_R _ _ _ _ (by omega)
    by_cases h : val dbl a + val dbl b < 0
    · rw [decide_eq_true h, if_pos rfl]; omega
    · rw [decide_eq_false h, if_neg (by decide)]; omega

theorem ofInt_val (i : Int) : nan dbl (ofInt i) = false ∧ val dbl (ofInt i) = R (i * unit) 1 ∧ mag dbl (ofInt i) = roundMag (i.natAbs * unit) 1 := by
  unfold ofInt
  refine ⟨pack_nan _ _ (roundMag_le _ _), ?_, (pack_parts _ _ (roundMag_le _ _)).2.1⟩
  apply signed_R _ _ _ _ (by omega)
  by_cases h : i < 0
  · rw [decide_eq_true h, if_pos rfl, Int.natCast_mul, ← Int.neg_mul]
    congr 1; omega
  · rw [decide_eq_false h, if_neg (by decide), Int.natCast_mul]
    congr 1; omega

theorem magVal_pos {m : Nat} (h : 0 < m) : 0 < magVal dbl m := by
  have := magVal_lt dbl dM0 h
  rw [magVal_zero] at this
  exact this

theorem div_fin (a b : Nat) (ha : IsFin a) (hb : IsFin b) (h0 : val dbl b ≠ 0) : nan dbl (div a b) = false ∧
    val dbl (div a b) = R (val dbl a * unit * (val dbl b).sign) (val dbl b).natAbs ∧ div a b < 2 ^ 64 := by
  have hm : mag dbl b ≠ 0 := by
    intro h; apply h0
    have := val_abs b
    rw [h, magVal_zero] at this
    omega
  have e : div a b = pack (neg dbl a != neg dbl b) (roundMag (magVal dbl (mag dbl a) * unit) (magVal dbl (mag dbl b))) := by
    unfold div
    rw [fin_nan ha, fin_nan hb, if_neg (by decide), if_neg (by unfold IsFin at ha; omega), if_neg (by unfold IsFin at hb; omega), if_neg hm]
  rw [e]
  have hp : 0 < magVal dbl (mag dbl b) := magVal_pos (by omega)
  refine ⟨pack_nan _ _ (roundMag_le _ _), ?_, (pack_parts _ _ (roundMag_le _ _)).2.2⟩
  rw [val_abs]
  apply signed_R _ _ _ _ hp
  rw [val_sign a, val_sign b]
  have s1 : Int.sign (magVal dbl (mag dbl b) : Int) = 1 := Int.sign_eq_one_of_pos (by omega)
  have s2 : Int.sign (-(magVal dbl (mag dbl b) : Int)) = -1 := Int.sign_eq_neg_one_of_neg (by omega)
  cases neg dbl a <;> cases neg dbl b <;> simp [s1, s2, Int.neg_mul]

/-- The number of `mag`-rounding, as a bound. -/
theorem R_exact (v : Int) (m d : Nat) (hd : 0 < d) (hm : m ≤ dbl.I) (h : v.natAbs = magVal dbl m) : R (v * d) d = v := by
  unfold R
  rw [Int.natAbs_mul, Int.natAbs_natCast, h, roundMag_exact m d hd hm, ← h]
  by_cases c : v < 0
  · rw [if_pos (Int.mul_neg_of_neg_of_pos c (by omega))]; omega
  · rw [if_neg (by have := Int.mul_nonneg (by omega : 0 ≤ v) (by omega : (0 : Int) ≤ d); omega)]; omega

theorem roundMag_mono (n n' d : Nat) (hd : 0 < d) (h : n ≤ n') : roundMag n d ≤ roundMag n' d := by
  rw [roundMag_ext, roundMag_ext]
  have := ext_mono n n' d hd h
  omega

theorem R_mono (n n' : Int) (d : Nat) (hd : 0 < d) (h : n ≤ n') : R n d ≤ R n' d := by
  unfold R
  by_cases c : n < 0
  · rw [if_pos c]
    by_cases c' : n' < 0
    · rw [if_pos c']
      have := (magVal_le dbl dM0).2 (roundMag_mono n'.natAbs n.natAbs d hd (by omega))
      omega
    · rw [if_neg c']; omega
  · rw [if_neg c, if_neg (by omega)]
    have := (magVal_le dbl dM0).2 (roundMag_mono n.natAbs n'.natAbs d hd (by omega))
    omega

theorem R_scale (n : Int) (d k : Nat) (hd : 0 < d) (hk : 0 < k) : R (n * k) (d * k) = R n d := by
  unfold R
  rw [Int.natAbs_mul, Int.natAbs_natCast, roundMag_scale _ _ _ hd hk]
  by_cases c : n < 0
  · rw [if_pos c, if_pos (Int.mul_neg_of_neg_of_pos c (by omega))]
  · rw [if_neg c, if_neg (by have := Int.mul_nonneg (by omega : 0 ≤ n) (by omega : (0 : Int) ≤ k); omega)]

/-- Every integer of at most 53 significant bits, times a power of two, is the number of a double (exponents unlimited). -/
theorem exists_mag (k e : Nat) (hk : k ≤ 2 ^ 53) : ∃ m, magVal dbl m = k * 2 ^ e := by
  induction e generalizing k with
  | zero => exact ⟨0 * dbl.M + k, magVal_place 0 k hk (Or.inl rfl)⟩
  | succ e ih =>
    by_cases c : 2 ^ 52 ≤ k
    · exact ⟨(e + 1) * dbl.M + k, magVal_place _ k hk (Or.inr c)⟩
    · obtain ⟨m, hm⟩ := ih (2 * k) (by omega)
      exact ⟨m, by rw [hm, Nat.pow_succ, Nat.mul_comm 2 k, Nat.mul_assoc, Nat.mul_comm 2]⟩

theorem magVal_I : magVal dbl dbl.I = 2 ^ 1024 * unit := by unfold unit; decide +kernel

/-- An integer that a double represents exactly: at most 53 significant bits (and not beyond the doubles). -/
def Exact (i : Int) : Prop := ∃ k j : Nat, i.natAbs = k * 2 ^ j ∧ k ≤ 2 ^ 53 ∧ j ≤ 970

theorem Exact.small {i : Int} (h : i.natAbs ≤ 2 ^ 53) : Exact i := ⟨i.natAbs, 0, by omega, h, by omega⟩

theorem exact_mag {i : Int} (h : Exact i) : ∃ m, m < dbl.I ∧ (i * unit).natAbs = magVal dbl m := by
  obtain ⟨k, j, h1, h2, h3⟩ := h
  obtain ⟨m, hm⟩ := exists_mag k (j + 1074) h2
  have e : (i * unit).natAbs = magVal dbl m := by
    rw [Int.natAbs_mul, h1, Int.natAbs_natCast, hm]
    unfold unit
    rw [Nat.mul_assoc, ← Nat.pow_add]
  refine ⟨m, ?_, e⟩
  by_cases c : m < dbl.I
  · exact c
  · exfalso
    have h4 := (magVal_le dbl dM0 (m := dbl.I) (n := m)).2 (by omega)
    rw [magVal_I, hm, Nat.pow_add, ← Nat.mul_assoc] at h4
    change _ ≤ _ * unit at h4
    have h5 : 2 ^ 1024 ≤ k * 2 ^ j := Nat.le_of_mul_le_mul_right h4 unit_pos
    have h6 : k * 2 ^ j ≤ 2 ^ 53 * 2 ^ 970 := Nat.mul_le_mul h2 (Nat.pow_le_pow_right (by omega) h3)
    have h7 : 2 ^ 53 * 2 ^ 970 < 2 ^ 1024 := by decide +kernel
    omega

/-- An exact integer rounds to itself. -/
theorem R_int {i : Int} (h : Exact i) (d : Nat) (hd : 0 < d) : R (i * unit * d) d = i * unit := by
  obtain ⟨m, h1, h2⟩ := exact_mag h
  exact R_exact _ m d hd (by omega) h2

theorem ofInt_exact {i : Int} (h : Exact i) : val dbl (ofInt i) = i * unit ∧ IsFin (ofInt i) := by
  obtain ⟨m, h1, h2⟩ := exact_mag h
  have e := ofInt_val i
  refine ⟨?_, ?_⟩
  · rw [e.2.1]
    have := R_int h 1 (by omega)
    rw [Int.natCast_one, Int.mul_one] at this
    exact this
  · unfold IsFin
    rw [e.2.2]
    rw [Int.natAbs_mul, Int.natAbs_natCast] at h2
    have := roundMag_exact m 1 (by omega) (by omega)
    rw [Nat.mul_one] at this
    rw [h2, this]; exact h1

/-- The error of a rounding: half a unit in the last place (places counted from the least positive double). -/
theorem R_error (n : Int) (d e : Nat) (hd : 0 < d) (he : n.natAbs < 2 ^ (53 + e) * d) (hI : e ≤ 2044) :
    2 * (R n d * d - n).natAbs ≤ d * 2 ^ e := by
  have hl : lastPlace n.natAbs d ≤ e := by
    obtain ⟨_, h2⟩ := place_spec n.natAbs d
    have h3 : n.natAbs / d < 2 ^ (53 + e) := (Nat.div_lt_iff_lt_mul hd).2 he
    rcases h2 with h2 | h2
    · omega
    · have : 52 + lastPlace n.natAbs d < 53 + e := by
        apply (Nat.pow_lt_pow_iff_right (by omega : 1 < 2)).1
        omega
      omega
  have hb := (sig_bounds n.natAbs d hd).1
  have hf : roundMag n.natAbs d < dbl.I := by
    rw [roundMag_ext]
    have : ext n.natAbs d < dbl.I := by
      unfold ext
      have := Nat.mul_le_mul_right dbl.M (show lastPlace n.natAbs d ≤ 2044 by omega)
      rw [dI, dM] at *
      omega
    omega
  obtain ⟨h1, h2⟩ := roundMag_error n.natAbs d hd hf
  have hp : d * 2 ^ lastPlace n.natAbs d ≤ d * 2 ^ e := Nat.mul_le_mul_left d (Nat.pow_le_pow_right (by omega) hl)
  unfold R
  generalize d * 2 ^ lastPlace n.natAbs d = p at *
  generalize d * 2 ^ e = q at *
  generalize magVal dbl (roundMag n.natAbs d) = V at *
  by_cases c : n < 0
  · rw [if_pos c, Int.neg_mul, ← Int.natCast_mul]
    generalize V * d = W at *
    omega
  · rw [if_neg c, ← Int.natCast_mul]
    generalize V * d = W at *
    omega

/-! ### Comparisons -/

theorem flt_val (a b : Nat) (ha : nan dbl a = false) (hb : nan dbl b = false) : flt dbl a b = decide (val dbl a < val dbl b) := by
  unfold flt; rw [ha, hb]; rfl

theorem feq_val (a b : Nat) (ha : nan dbl a = false) (hb : nan dbl b = false) : feq dbl a b = decide (val dbl a = val dbl b) := by
  unfold feq; rw [ha, hb]; rfl

/-- A double is infinite or beyond exactly when its number is. -/
theorem fin_val (a : Nat) : IsFin a ↔ (val dbl a).natAbs < magVal dbl dbl.I := by
  rw [val_abs]
  unfold IsFin
  constructor
  · exact magVal_lt dbl dM0
  · intro h
    by_cases c : mag dbl a < dbl.I
    · exact c
    · have := (magVal_le dbl dM0 (m := dbl.I) (n := mag dbl a)).2 (by omega)
      omega

theorem inf_big : 2 ^ 64 * unit < magVal dbl dbl.I := by unfold unit; decide +kernel

/-- The conversion to Int64: the number rounded towards zero, undefined when that does not fit. -/
theorem toI64_val (a : Nat) : toI64 a = if -2 ^ 63 ≤ (val dbl a).tdiv unit ∧ (val dbl a).tdiv unit < 2 ^ 63 then .ok ((val dbl a).tdiv unit) else .ub := by
  unfold toI64
  by_cases c : IsFin a
  · unfold IsFin at c
    rw [if_neg (by omega)]
  · have h2 : ¬ (-2 ^ 63 ≤ (val dbl a).tdiv unit ∧ (val dbl a).tdiv unit < 2 ^ 63) := by
      intro h
      apply c
      rw [fin_val]
      have h3 : ((val dbl a).tdiv unit).natAbs < 2 ^ 64 := by omega
      rw [Int.natAbs_tdiv, Int.natAbs_natCast] at h3
      have h4 : (val dbl a).natAbs < 2 ^ 64 * unit := (Nat.div_lt_iff_lt_mul unit_pos).1 h3
      have := inf_big
      generalize 2 ^ 64 * unit = x at *
      omega
    unfold IsFin at c
    rw [if_pos (by omega), if_neg h2]

end Verif.Arith
