import Verif.FloatSpec
set_option linter.unusedSimpArgs false
set_option linter.unusedVariables false
/-!
# Properties of Double and Single: C49, C50, C51
-/
namespace Verif.FltProps
open FltModel FltSpec

/-! ## Magnitudes -/

/-- Facts about the two formats used below. -/
structure Facts (F : Fmt) : Prop where
  M0 : 0 < F.M
  MI : 2 * F.M ≤ F.I
  IS : F.I + F.M = F.S
  div : F.I / F.M = expoMax F
  mask : ∀ b, b &&& (F.S - 1) = b % F.S
  expMask : ∀ m, m < F.S → ((m &&& F.I) = 0 ↔ m < F.M)
  exp : ∀ m, m < F.S → (m / F.M = expoMax F ↔ F.I ≤ m)
  exact : F.I % F.M = 0

theorem facts_of {F : Fmt} {f e : Nat} (h : IsFormat F f e) : Facts F := by
  have hM := h.M; have hS := h.S; have hI := h.I
  have e2 := h.exp2
  have hpos : 0 < 2 ^ f := Nat.pow_pos (by omega)
  have hpe : 4 ≤ 2 ^ e := by
    have := Nat.pow_le_pow_right (show 1 ≤ 2 by omega) e2; omega
  have hprod : 2 ^ (f + e) = 2 ^ f * 2 ^ e := Nat.pow_add ..
  have hge : 2 ^ f * 4 ≤ 2 ^ f * 2 ^ e := Nat.mul_le_mul_left _ hpe
  have hdS : F.S / F.M = 2 ^ e := by rw [hS, hM, hprod, Nat.mul_div_cancel_left _ hpos]
  have hIM : F.I = 2 ^ f * (2 ^ e - 1) := by rw [hI, hprod, Nat.mul_sub, Nat.mul_one]
  have hdiv : F.I / F.M = expoMax F := by
    unfold expoMax; rw [hdS, hIM, hM, Nat.mul_div_cancel_left _ hpos]
  refine ⟨by omega, by omega, by omega, hdiv, ?_, ?_, ?_, ?_⟩
  · intro b; rw [hS]; exact Nat.and_two_pow_sub_one_eq_mod b (f + e)
  · intro m hm
    have key : m &&& F.I = 2 ^ f * (m / 2 ^ f) := by
      apply Nat.eq_of_testBit_eq
      intro i
      rw [Nat.testBit_and, hIM, Nat.testBit_two_pow_mul, Nat.testBit_two_pow_mul, Nat.testBit_two_pow_sub_one, Nat.testBit_div_two_pow]
      by_cases c : f ≤ i
      · simp only [ge_iff_le, c, decide_true, Bool.true_and, Nat.sub_add_cancel c]
        by_cases d : i - f < e
        · simp [d]
        · simp only [d, decide_false, Bool.and_false]
          rw [hS] at hm
          have : m < 2 ^ i := Nat.lt_of_lt_of_le hm (Nat.pow_le_pow_right (by omega) (by omega))
          rw [Nat.testBit_lt_two_pow this]
      · simp [c]
    rw [key, hM]
    constructor
    · intro hz
      rcases Nat.mul_eq_zero.mp hz with hh | hh
      · omega
      · exact (Nat.div_eq_zero_iff_lt hpos).mp hh
    · intro hlt
      rw [(Nat.div_eq_zero_iff_lt hpos).mpr hlt, Nat.mul_zero]
  · intro m hm
    rw [hM, hI]
    have hexp : expoMax F = 2 ^ e - 1 := by unfold expoMax; rw [hdS]
    rw [hexp]
    have hlt : m / 2 ^ f < 2 ^ e := by
      rw [Nat.div_lt_iff_lt_mul hpos, Nat.mul_comm, ← hprod, ← hS]; exact hm
    have hsub : 2 ^ (f + e) - 2 ^ f = (2 ^ e - 1) * 2 ^ f := by rw [hprod, Nat.sub_mul, Nat.one_mul, Nat.mul_comm]
    rw [hsub, ← Nat.le_div_iff_mul_le hpos]
    omega
  · rw [hIM, hM, Nat.mul_mod_right]

theorem facts {F : Fmt} (h : Lib F) : Facts F := by
  rcases h with h | h <;> subst h
  · exact facts_of dbl_format
  · exact facts_of sgl_format

/-- The next magnitude pattern stands for a larger number, by one unit of the exponent's last place. -/
theorem magVal_succ (F : Fmt) (h : 0 < F.M) (m : Nat) : magVal F (m + 1) = magVal F m + 2 ^ (m / F.M - 1) := by
  unfold magVal
  generalize hM : F.M = M at *
  have hdm := Nat.div_add_mod m M
  have hr := Nat.mod_lt m h
  generalize hq : m / M = q at *
  generalize hr' : m % M = r at *
  by_cases c : r + 1 < M
  · have e1 : (m + 1) / M = q := by rw [← hdm, Nat.add_assoc, Nat.mul_add_div h, Nat.div_eq_of_lt c]; omega
    have e2 : (m + 1) % M = r + 1 := by rw [← hdm, Nat.add_assoc, Nat.mul_add_mod, Nat.mod_eq_of_lt c]
    rw [e1, e2]
    by_cases cq : q = 0
    · rw [if_pos cq, if_pos cq, cq]
    · rw [if_neg cq, if_neg cq, show M + (r + 1) = M + r + 1 by omega, Nat.add_mul (M + r) 1, Nat.one_mul]
  · have hr1 : r + 1 = M := by omega
    have e1 : (m + 1) / M = q + 1 := by rw [← hdm, Nat.add_assoc, hr1, Nat.mul_add_div h, Nat.div_self h]
    have e2 : (m + 1) % M = 0 := by rw [← hdm, Nat.add_assoc, hr1, Nat.mul_add_mod, Nat.mod_self]
    rw [e1, e2, if_neg (by omega), Nat.add_zero, Nat.add_sub_cancel]
    by_cases cq : q = 0
    · rw [if_pos cq, cq]; simp; omega
    · have e3 : (2 : Nat) ^ q = 2 * 2 ^ (q - 1) := by
        obtain ⟨k, rfl⟩ : ∃ k, q = k + 1 := ⟨q - 1, by omega⟩
        rw [Nat.pow_succ', Nat.add_sub_cancel]
      rw [if_neg cq, e3]
      generalize 2 ^ (q - 1) = p
      have : (M + r) * p + p = (M + r + 1) * p := by rw [Nat.add_mul (M + r) 1, Nat.one_mul]
      rw [this, show M + r + 1 = M * 2 by omega, Nat.mul_assoc]

theorem magVal_lt (F : Fmt) (h : 0 < F.M) {m n : Nat} (hmn : m < n) : magVal F m < magVal F n := by
  induction n with
  | zero => omega
  | succ n ih =>
    rw [magVal_succ F h]
    have hp : 0 < 2 ^ (n / F.M - 1) := Nat.pow_pos (by omega)
    rcases Nat.lt_or_ge m n with c | c
    · have := ih c; omega
    · have : m = n := by omega
      subst this; omega

theorem magVal_inj (F : Fmt) (h : 0 < F.M) {m n : Nat} (e : magVal F m = magVal F n) : m = n := by
  rcases Nat.lt_trichotomy m n with c | c | c
  · have := magVal_lt F h c; omega
  · exact c
  · have := magVal_lt F h c; omega

theorem magVal_le (F : Fmt) (h : 0 < F.M) {m n : Nat} : magVal F m ≤ magVal F n ↔ m ≤ n := by
  constructor
  · intro e
    rcases Nat.lt_or_ge n m with c | c
    · have := magVal_lt F h c; omega
    · exact c
  · intro e
    rcases Nat.eq_or_lt_of_le e with c | c
    · rw [c]; exact Nat.le_refl _
    · exact Nat.le_of_lt (magVal_lt F h c)

theorem magVal_zero (F : Fmt) : magVal F 0 = 0 := by simp [magVal]

/-- The signed position of a pattern among the numbers: its magnitude with its sign. -/
def key (F : Fmt) (b : Nat) : Int := if neg F b then -(mag F b : Int) else mag F b

theorem val_lt_key {F : Fmt} (h : 0 < F.M) (a b : Nat) : val F a < val F b ↔ key F a < key F b := by
  have z := magVal_zero F
  have hm := fun x y => magVal_le F h (m := x) (n := y)
  have h1 := hm (mag F a) (mag F b)
  have h2 := hm (mag F b) (mag F a)
  have h3 := hm (mag F a) 0
  have h4 := hm (mag F b) 0
  rw [z] at h3 h4
  unfold val key
  split <;> split <;> omega

theorem val_eq_key {F : Fmt} (h : 0 < F.M) (a b : Nat) : val F a = val F b ↔ key F a = key F b := by
  have h1 := val_lt_key h a b
  have h2 := val_lt_key h b a
  omega

/-! ## Classification (C50) -/

theorem nan_class {F : Fmt} (h : Facts F) (b : Nat) : nan F b = true ↔ classOf F b = .nan := by
  have hS : 0 < F.S := by have := h.IS; have := h.MI; have := h.M0; omega
  have hm := Nat.mod_lt b hS
  have he := h.exp _ hm
  have hM := h.M0
  unfold nan mag classOf expo frac
  rw [decide_eq_true_iff]
  by_cases c : b % F.S / F.M = expoMax F
  · rw [if_pos c]
    have c' := he.mp c
    have hdm := Nat.div_add_mod (b % F.S) F.M
    have hdi := Nat.div_add_mod F.I F.M
    rw [h.exact, h.div, ← c] at hdi
    by_cases d : b % F.S % F.M = 0
    · rw [if_pos d]; constructor
      · intro; omega
      · intro hh; cases hh
    · rw [if_neg d]; constructor
      · intro; rfl
      · intro; omega
  · rw [if_neg c]
    have c' : ¬ F.I ≤ b % F.S := fun hh => c (he.mpr hh)
    constructor
    · intro; omega
    · intro hh; split at hh
      · split at hh <;> cases hh
      · cases hh

theorem isNaN_class {F : Fmt} (h : Facts F) (b : Nat) : isNaN F b = true ↔ classOf F b = .nan := by
  rw [← nan_class h]
  unfold isNaN feq
  cases nan F b <;> simp

theorem isNaN_nan {F : Fmt} (b : Nat) : isNaN F b = nan F b := by
  unfold isNaN feq
  cases nan F b <;> simp

theorem class_inf {F : Fmt} (h : Facts F) (b : Nat) : classOf F b = .infinite ↔ b % F.S = F.I := by
  have hS : 0 < F.S := by have := h.IS; have := h.MI; have := h.M0; omega
  have hm := Nat.mod_lt b hS
  have he := h.exp _ hm
  have hdm := Nat.div_add_mod (b % F.S) F.M
  have hdi := Nat.div_add_mod F.I F.M
  rw [h.exact, h.div] at hdi
  unfold classOf expo frac
  constructor
  · intro hh
    split at hh
    · rename_i c
      split at hh
      · rename_i d; rw [d, c] at hdm; omega
      · cases hh
    · split at hh
      · split at hh <;> cases hh
      · cases hh
  · intro hh
    have c := he.mpr (by omega)
    rw [if_pos c, if_pos]
    rw [hh, h.exact]

theorem class_fin {F : Fmt} (h : Facts F) (b : Nat) : (classOf F b ≠ .nan ∧ classOf F b ≠ .infinite) ↔ b % F.S < F.I := by
  have h1 := nan_class h b
  have h2 := class_inf h b
  unfold nan mag at h1
  rw [decide_eq_true_iff] at h1
  rw [ne_eq, ne_eq, ← h1, h2]
  omega

theorem class_zero {F : Fmt} (h : Facts F) (b : Nat) : classOf F b = .zero ↔ b % F.S = 0 := by
  have hS : 0 < F.S := by have := h.IS; have := h.MI; have := h.M0; omega
  have hm := Nat.mod_lt b hS
  have he := h.exp _ hm
  have hM := h.M0
  have hMI := h.MI
  unfold classOf expo frac
  constructor
  · intro hh
    split at hh
    · split at hh <;> cases hh
    · split at hh
      · rename_i c
        split at hh
        · rename_i d
          have := Nat.div_add_mod (b % F.S) F.M
          rw [c, d] at this; omega
        · cases hh
      · cases hh
  · intro hh
    rw [if_neg (by rw [he, hh]; omega), hh, if_pos (Nat.zero_div _), if_pos (Nat.zero_mod _)]

theorem class_sub {F : Fmt} (h : Facts F) (b : Nat) : classOf F b = .subnormal ↔ b % F.S ≠ 0 ∧ b % F.S < F.M := by
  have hS : 0 < F.S := by have := h.IS; have := h.MI; have := h.M0; omega
  have hm := Nat.mod_lt b hS
  have he := h.exp _ hm
  have hM := h.M0
  have hMI := h.MI
  unfold classOf expo frac
  constructor
  · intro hh
    split at hh
    · split at hh <;> cases hh
    · split at hh
      · rename_i c
        split at hh
        · cases hh
        · rename_i d
          have := (Nat.div_eq_zero_iff_lt hM).mp c
          rw [Nat.mod_eq_of_lt this] at d
          exact ⟨d, this⟩
      · cases hh
  · intro ⟨h1, h2⟩
    rw [if_neg (by rw [he]; omega), if_pos ((Nat.div_eq_zero_iff_lt hM).mpr h2), if_neg (by rw [Nat.mod_eq_of_lt h2]; exact h1)]

/-- **C50**: each classification function answers exactly the class of the bit pattern given by the IEEE 754 table, for every
Double and Single pattern. -/
theorem C50_classification {F : Fmt} (hF : Lib F) (b : Nat) :
    (isNaN F b = true ↔ classOf F b = .nan) ∧ (isInfinity F b = true ↔ classOf F b = .infinite) ∧
    (isSubnormal F b = true ↔ classOf F b = .subnormal) ∧ (isNormal F b = true ↔ classOf F b = .normal) ∧
    (isFinite F b = true ↔ classOf F b ≠ .nan ∧ classOf F b ≠ .infinite) := by
  have h := facts hF
  have hS : 0 < F.S := by have := h.IS; have := h.MI; have := h.M0; omega
  have hm := Nat.mod_lt b hS
  have hMI := h.MI
  have hM := h.M0
  have hem := h.expMask _ hm
  have hsub := class_sub h b
  have hfin := class_fin h b
  have hz := class_zero h b
  have hnan := isNaN_class h b
  refine ⟨hnan, ?_, ?_, ?_, ?_⟩
  · unfold isInfinity; rw [decide_eq_true_iff, h.mask, class_inf h]
  · unfold isSubnormal
    rw [h.mask, hsub]
    simp only [Bool.and_eq_true, decide_eq_true_iff, hem, ne_eq]
    omega
  · unfold isNormal
    rw [h.mask]
    by_cases c : isNaN F b = true
    · rw [if_pos c, hnan.mp c]; simp
    · rw [if_neg c]
      simp only [Bool.and_eq_true, decide_eq_true_iff, ne_eq, hem]
      rw [← hfin, ← hz]
      have hsub' : ¬ (b % F.S < F.M) ↔ ¬ (classOf F b = .subnormal ∨ classOf F b = .zero) := by rw [hsub, hz]; omega
      rw [hsub']
      cases classOf F b <;> simp
  · unfold isFinite; rw [decide_eq_true_iff, h.mask, hfin]

/-- **C50**: the five classes are exclusive and exhaustive: exactly one of NaN, infinite, zero, subnormal, normal. -/
theorem C50_partition {F : Fmt} (hF : Lib F) (b : Nat) :
    (isNaN F b).toNat + (isInfinity F b).toNat + (isSubnormal F b).toNat + (isNormal F b).toNat + (feq F b 0).toNat = 1 ∧
    (isFinite F b = !(isNaN F b || isInfinity F b)) := by
  have h := facts hF
  obtain ⟨h1, h2, h3, h4, h5⟩ := C50_classification hF b
  have hS : 0 < F.S := by have := h.IS; have := h.MI; have := h.M0; omega
  have h6 : feq F b 0 = true ↔ classOf F b = .zero := by
    rw [class_zero h]
    unfold feq
    have hn0 : nan F 0 = false := by
      unfold nan mag; rw [Nat.zero_mod]; simp
    have hk := val_eq_key h.M0 b 0
    have hk0 : key F 0 = 0 := by unfold key mag; rw [Nat.zero_mod]; split <;> rfl
    rw [hk0] at hk
    have hkz : key F b = 0 ↔ b % F.S = 0 := by unfold key mag; split <;> omega
    rw [hn0]
    simp only [Bool.not_false, Bool.and_true, Bool.and_eq_true, Bool.not_eq_true', decide_eq_true_iff, hk, hkz]
    constructor
    · exact fun x => x.2
    · intro hz
      refine ⟨?_, hz⟩
      unfold nan mag; rw [hz]; simp
  constructor
  · cases hc : classOf F b <;> rw [hc] at h1 h2 h3 h4 h5 h6 <;> simp at h1 h2 h3 h4 h6 <;> rw [h1, h2, h3, h4, h6] <;> rfl
  · cases hc : classOf F b <;> rw [hc] at h1 h2 h3 h4 h5 h6 <;> simp at h1 h2 h5 <;> rw [h1, h2, h5] <;> rfl

example : isSubnormal dbl 1 = true ∧ isNormal dbl 0x3FF0000000000000 = true ∧ isNaN sgl 0x7FC00000 = true ∧ isInfinity sgl 0xFF800000 = true := by decide +kernel

/-- **C50** (partial: not for NaN): `IsNegative` is the sign bit. -/
theorem C50_is_negative_partial {F : Fmt} (hF : Lib F) (b : Nat) (hb : Pattern F b) (hn : classOf F b ≠ .nan) : isNegative F b = decide (b / F.S = 1) := by
  have h := facts hF
  have hS : 0 < F.S := by have := h.IS; have := h.MI; have := h.M0; omega
  unfold isNegative
  rw [if_neg (by rw [isNaN_class h]; exact hn)]
  unfold Pattern at hb
  have hdm := Nat.div_add_mod b F.S
  have hm := Nat.mod_lt b hS
  have hlt : b / F.S < 2 := by rw [Nat.div_lt_iff_lt_mul hS]; omega
  generalize b / F.S = q at *
  rcases (show q = 0 ∨ q = 1 by omega) with c | c
  · rw [c] at hdm ⊢; simp; omega
  · rw [c] at hdm ⊢; simp; omega

example : isNegative dbl 0x8000000000000000 = true ∧ isNegative dbl 0x3FF0000000000000 = false := by decide +kernel

/-- **C50** is false of the code for NaN: every NaN counts as negative, whatever its sign bit. -/
theorem C50_is_negative_nan_refuted {F : Fmt} (hF : Lib F) (b : Nat) (hn : classOf F b = .nan) : isNegative F b = true := by
  unfold isNegative
  rw [if_pos ((isNaN_class (facts hF) b).mpr hn)]

example : classOf dbl 0x7FF8000000000000 = .nan := by decide +kernel

/-- **C50**: `IsPositiveInfinity`/`IsNegativeInfinity` are true of exactly the one pattern. -/
theorem C50_infinities {F : Fmt} (hF : Lib F) (b : Nat) (hb : Pattern F b) :
    (isPositiveInfinity F b = true ↔ b = F.I) ∧ (isNegativeInfinity F b = true ↔ b = F.S + F.I) := by
  have h := facts hF
  have hIS := h.IS
  have hMI := h.MI
  have hM := h.M0
  have hS : 0 < F.S := by omega
  unfold Pattern at hb
  have e1 : mag F F.I = F.I := Nat.mod_eq_of_lt (by omega)
  have e2 : mag F (F.S + F.I) = F.I := by unfold mag; rw [Nat.add_mod_left, Nat.mod_eq_of_lt (by omega)]
  have n1 : nan F F.I = false := by unfold nan; rw [e1]; simp
  have n2 : nan F (F.S + F.I) = false := by unfold nan; rw [e2]; simp
  have k1 : key F F.I = F.I := by unfold key neg; rw [e1, decide_eq_false (by omega)]; rfl
  have k2 : key F (F.S + F.I) = -(F.I : Int) := by unfold key neg; rw [e2, decide_eq_true (by omega)]; rfl
  have hb2 : b % F.S = if F.S ≤ b then b - F.S else b := by
    split
    · rw [Nat.mod_eq_sub_mod (by assumption), Nat.mod_eq_of_lt (by omega)]
    · exact Nat.mod_eq_of_lt (by omega)
  constructor
  · unfold isPositiveInfinity feq posInf
    rw [n1]
    simp only [Bool.and_eq_true, decide_eq_true_iff, val_eq_key hM, k1, Bool.not_eq_true', Bool.not_false, and_true]
    unfold key nan mag neg
    rw [hb2]
    constructor
    · intro ⟨g1, g2⟩
      split at g2
      · rename_i c; rw [decide_eq_true_iff] at c; rw [if_pos c] at g2; omega
      · rename_i c; rw [decide_eq_true_iff] at c; rw [if_neg c] at g2; omega
    · intro hh; subst hh
      rw [if_neg (by omega), decide_eq_false (p := F.S ≤ F.I) (by omega)]
      simp
  · unfold isNegativeInfinity feq negInf
    rw [n2]
    simp only [Bool.and_eq_true, decide_eq_true_iff, val_eq_key hM, k2, Bool.not_eq_true', Bool.not_false, and_true]
    unfold key nan mag neg
    rw [hb2]
    constructor
    · intro ⟨g1, g2⟩
      split at g2
      · rename_i c; rw [decide_eq_true_iff] at c; rw [if_pos c] at g2; omega
      · rename_i c; rw [decide_eq_true_iff] at c; rw [if_neg c] at g2; omega
    · intro hh; subst hh
      rw [if_pos (by omega), decide_eq_true (p := F.S ≤ F.S + F.I) (by omega)]
      simp

end Verif.FltProps
