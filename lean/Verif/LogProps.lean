import Verif.MathConstModel
import Verif.FloatOpProps
import Verif.FloatProps
import Verif.FloatIeeeProps
/-!
# C178: Math.Log with a base
-/
namespace Verif.MathConst
open FltModel FltSpec FltProps FloatTextSpec FloatText FloatExpr

/-! ## Specification -/

/-- The logarithm of the C library: the special cases of C11 F.10.3.7, and the sign of the result for finite positive arguments (an infinite or zero result is not among them). How near the result is to the logarithm is
not said. -/
structure IsLog (log : Nat → Nat) : Prop where
  nan : ∀ x, nan dbl x = true → FltModel.nan dbl (log x) = true
  negative : ∀ x, FltModel.nan dbl x = false → val dbl x < 0 → FltModel.nan dbl (log x) = true
  zero : ∀ x, FltModel.nan dbl x = false → val dbl x = 0 → log x = negInf dbl
  one : ∀ x, FltModel.nan dbl x = false → val dbl x = val dbl MathConst.one → log x = 0
  infinite : log (posInf dbl) = posInf dbl
  above : ∀ x, FloatText.Finite dbl x → val dbl MathConst.one < val dbl x → FloatText.Finite dbl (log x) ∧ 0 < val dbl (log x)
  below : ∀ x, FloatText.Finite dbl x → 0 < val dbl x → val dbl x < val dbl MathConst.one → FloatText.Finite dbl (log x) ∧ val dbl (log x) < 0

/-- A number above 0: below 1, 1, above 1, or infinite. -/
def Low (x : Nat) : Prop := FloatText.Finite dbl x ∧ 0 < val dbl x ∧ val dbl x < val dbl one
def High (x : Nat) : Prop := FloatText.Finite dbl x ∧ val dbl one < val dbl x
def IsNan (x : Nat) : Prop := nan dbl x = true
def IsZero (x : Nat) : Prop := nan dbl x = false ∧ val dbl x = 0
def IsOne (x : Nat) : Prop := nan dbl x = false ∧ val dbl x = val dbl one
def Negative (x : Nat) : Prop := nan dbl x = false ∧ val dbl x < 0

/-! ## Lemmas -/

theorem pinf_facts : nan dbl (posInf dbl) = false ∧ mag dbl (posInf dbl) = dbl.I ∧ neg dbl (posInf dbl) = false := by decide +kernel
theorem ninf_facts : nan dbl (negInf dbl) = false ∧ mag dbl (negInf dbl) = dbl.I ∧ neg dbl (negInf dbl) = true := by decide +kernel
theorem zero_facts : nan dbl 0 = false ∧ mag dbl 0 = 0 ∧ neg dbl 0 = false ∧ val dbl 0 = 0 := by decide +kernel
theorem one_facts : nan dbl one = false ∧ 0 < val dbl one ∧ val dbl one < val dbl (posInf dbl) := by decide +kernel

theorem nan_result : IsNan (NaN dbl) := by show _ = true; decide +kernel

theorem isNaN_eq (x : Nat) : isNaN dbl x = nan dbl x := by
  unfold isNaN feq
  cases nan dbl x <;> simp

theorem feq_iff {x c : Nat} (hx : nan dbl x = false) (hc : nan dbl c = false) : feq dbl x c = true ↔ val dbl x = val dbl c := by
  unfold feq
  rw [hx, hc]
  simp

/-- The rest of the function, for two numbers. -/
theorem logBase_numbers (log : Nat → Nat) {a b : Nat} (ha : nan dbl a = false) (hb : nan dbl b = false) : logBase log a b =
    if val dbl b = val dbl one ∨ (val dbl a ≠ val dbl one ∧ (val dbl b = 0 ∨ val dbl b = val dbl (posInf dbl))) then NaN dbl else div dbl (log a) (log b) := by
  unfold logBase
  rw [isNaN_eq, isNaN_eq, ha, hb]
  simp only [Bool.false_eq_true, if_false]
  by_cases h1 : val dbl b = val dbl one
  · rw [if_pos ((feq_iff hb one_facts.1).2 h1), if_pos (Or.inl h1)]
  · rw [if_neg (fun h => h1 ((feq_iff hb one_facts.1).1 h))]
    by_cases h2 : val dbl a = val dbl one
    · rw [if_neg (by rw [(feq_iff ha one_facts.1).2 h2]; simp), if_neg (by simp [h1, h2])]
    · have hf : feq dbl a one = false := by
        cases h : feq dbl a one
        · rfl
        · exact absurd ((feq_iff ha one_facts.1).1 h) h2
      rw [hf]
      have hc : (!false && (feq dbl b 0 || isPositiveInfinity dbl b)) = true ↔ (val dbl b = 0 ∨ val dbl b = val dbl (posInf dbl)) := by
        unfold isPositiveInfinity
        rw [Bool.not_false, Bool.true_and, Bool.or_eq_true, feq_iff hb zero_facts.1, feq_iff hb pinf_facts.1, zero_facts.2.2.2]
      by_cases h3 : val dbl b = 0 ∨ val dbl b = val dbl (posInf dbl)
      · rw [if_pos (hc.2 h3), if_pos (Or.inr ⟨h2, h3⟩)]
      · rw [if_neg (fun h => h3 (hc.1 h)), if_neg (by simp [h1, h3])]

theorem div_nan_left {x y : Nat} (h : nan dbl x = true) : IsNan (div dbl x y) := by
  have : div dbl x y = NaN dbl := by unfold FloatExpr.div; rw [if_pos (by simp [h])]
  rw [this]; exact nan_result
theorem div_nan_right {x y : Nat} (h : nan dbl y = true) : IsNan (div dbl x y) := by
  have : div dbl x y = NaN dbl := by unfold FloatExpr.div; rw [if_pos (by simp [h])]
  rw [this]; exact nan_result

/-- An infinity divided by a finite number. -/
theorem div_inf {x y : Nat} (hx : nan dbl x = false) (hi : mag dbl x = dbl.I) (hy : FloatText.Finite dbl y) : div dbl x y = if neg dbl x = neg dbl y then posInf dbl else negInf dbl := by
  obtain ⟨ny, iy⟩ := finite_facts (.inl rfl) hy
  unfold FloatExpr.div
  rw [hx, ny, if_neg (by simp), if_pos hi, if_neg iy]
  unfold Rnd.pack posInf negInf
  cases neg dbl x <;> cases neg dbl y <;> simp

theorem sign_val {x : Nat} (h : 0 < val dbl x) : neg dbl x = false := by
  unfold val at h
  cases hn : neg dbl x with
  | false => rfl
  | true => rw [hn] at h; simp at h; omega
theorem sign_val_neg {x : Nat} (h : val dbl x < 0) : neg dbl x = true := by
  unfold val at h
  cases hn : neg dbl x with
  | true => rfl
  | false => rw [hn] at h; simp at h; omega

theorem finite_nan {x : Nat} (h : FloatText.Finite dbl x) : nan dbl x = false := (finite_facts (.inl rfl) h).1

/-- A finite number is below infinity. -/
theorem finite_below {x : Nat} (h : FloatText.Finite dbl x) : val dbl x < val dbl (posInf dbl) := by
  have hm := magVal_lt dbl (by decide) (finite_mag (.inl rfl) h)
  have hp : val dbl (posInf dbl) = (magVal dbl dbl.I : Int) := by
    rw [val_signed, pinf_facts.2.1, pinf_facts.2.2]; unfold signed; simp
  rw [hp, val_signed]
  unfold signed
  split <;> omega

theorem finite_zero : FloatText.Finite dbl 0 := by unfold FloatText.Finite; decide +kernel

/-- Zero divided by a number that is not zero is zero. -/
theorem div_zero_by {y : Nat} (hy : nan dbl y = false) (h0 : mag dbl y ≠ 0) : IsZero (div dbl 0 y) := by
  have e : ∃ s, div dbl 0 y = Rnd.pack dbl s 0 := by
    unfold FloatExpr.div
    rw [hy, zero_facts.1, zero_facts.2.1]
    rw [if_neg (by simp), if_neg (by decide)]
    by_cases hi : mag dbl y = dbl.I
    · rw [if_pos hi]; exact ⟨_, rfl⟩
    · rw [if_neg hi, if_neg h0, magVal_zero, Nat.zero_mul, FloatExpr.roundMag_zero Rnd.bin_dbl _ (FloatExpr.magVal_pos Rnd.bin_dbl (Nat.pos_of_ne_zero h0))]
      exact ⟨_, rfl⟩
  obtain ⟨s, e⟩ := e
  rw [e]
  obtain ⟨_, p2, _⟩ := Rnd.pack_parts Rnd.bin_dbl s 0 (Nat.zero_le _)
  refine ⟨(nan_false _).2 (by rw [p2]; exact Nat.zero_le _), ?_⟩
  rw [FloatExpr.val_pack Rnd.bin_dbl s 0 (Nat.zero_le _), magVal_zero]
  unfold signed; split <;> simp

theorem mag_of_val {x : Nat} (h : val dbl x ≠ 0) : mag dbl x ≠ 0 := by
  intro h0; apply h; rw [val_signed, h0, magVal_zero]; unfold signed; split <;> simp

/-- The logarithm of a number that is neither 1 nor infinite. -/
theorem log_mid {log : Nat → Nat} (hlog : IsLog log) {x : Nat} (h : Low x ∨ High x) : nan dbl x = false ∧ val dbl x ≠ val dbl one ∧ 0 < val dbl x ∧ val dbl x < val dbl (posInf dbl) ∧ FloatText.Finite dbl (log x) ∧ val dbl (log x) ≠ 0 := by
  have h1 := one_facts.2.1
  rcases h with ⟨f, p, q⟩ | ⟨f, q⟩
  · obtain ⟨l, v⟩ := hlog.below x f p q
    exact ⟨finite_nan f, by omega, p, finite_below f, l, by omega⟩
  · obtain ⟨l, v⟩ := hlog.above x f q
    exact ⟨finite_nan f, by omega, by omega, finite_below f, l, by omega⟩

theorem logBase_mid (log : Nat → Nat) (hlog : IsLog log) {a b : Nat} (ha : nan dbl a = false) (hb : Low b ∨ High b) : logBase log a b = div dbl (log a) (log b) := by
  obtain ⟨n, o, p, q, _, _⟩ := log_mid hlog hb
  rw [logBase_numbers log ha n, if_neg]
  rintro (h | ⟨_, h | h⟩) <;> omega

/-! ## The property -/

/-- **C178**: `Math.Log(a, newBase)`, for every pair of doubles. The table of the documentation of .NET, and otherwise the rounded quotient of the two logarithms, the second of which is not zero. -/
theorem C178_log (log : Nat → Nat) (hlog : IsLog log) (a b : Nat) :
    (IsNan a ∨ IsNan b → IsNan (logBase log a b)) ∧
    (Negative a ∨ Negative b → IsNan (logBase log a b)) ∧
    (IsOne b → IsNan (logBase log a b)) ∧
    (¬ IsOne a → IsZero b ∨ b = posInf dbl → IsNan (logBase log a b)) ∧
    (IsZero a → Low b → logBase log a b = posInf dbl) ∧ (IsZero a → High b → logBase log a b = negInf dbl) ∧
    (a = posInf dbl → Low b → logBase log a b = negInf dbl) ∧ (a = posInf dbl → High b → logBase log a b = posInf dbl) ∧
    (IsOne a → IsZero b ∨ Low b ∨ High b ∨ b = posInf dbl → IsZero (logBase log a b)) ∧
    (Low a ∨ High a → Low b ∨ High b → number dbl (log b) ≠ 0 ∧ Rounded dbl (number dbl (log a) / number dbl (log b)) (logBase log a b)) := by
  refine ⟨?_, ?_, ?_, ?_, ?_, ?_, ?_, ?_, ?_, ?_⟩
  · intro h
    unfold logBase
    rw [isNaN_eq, isNaN_eq]
    by_cases ha : nan dbl a = true
    · rw [if_pos ha]; exact ha
    · rw [if_neg ha]
      rcases h with h | h
      · exact absurd h ha
      · have h : nan dbl b = true := h; rw [if_pos h]; exact h
  · intro h
    by_cases ha : nan dbl a = true
    · unfold logBase; rw [isNaN_eq, if_pos ha]; exact ha
    · by_cases hb : nan dbl b = true
      · unfold logBase; rw [isNaN_eq, isNaN_eq, if_neg ha, if_pos hb]; exact hb
      · rw [Bool.not_eq_true] at ha hb
        rw [logBase_numbers log ha hb]
        split
        · exact nan_result
        · rcases h with h | h
          · exact div_nan_left (hlog.negative a ha h.2)
          · exact div_nan_right (hlog.negative b hb h.2)
  · rintro ⟨hb, v⟩
    by_cases ha : nan dbl a = true
    · unfold logBase; rw [isNaN_eq, if_pos ha]; exact ha
    · rw [Bool.not_eq_true] at ha
      rw [logBase_numbers log ha hb, if_pos (Or.inl v)]; exact nan_result
  · intro h1 hb
    by_cases ha : nan dbl a = true
    · unfold logBase; rw [isNaN_eq, if_pos ha]; exact ha
    · rw [Bool.not_eq_true] at ha
      have h2 : val dbl a ≠ val dbl one := fun v => h1 ⟨ha, v⟩
      rcases hb with ⟨nb, v⟩ | e
      · rw [logBase_numbers log ha nb, if_pos (Or.inr ⟨h2, Or.inl v⟩)]; exact nan_result
      · have nb : nan dbl b = false := by rw [e]; exact pinf_facts.1
        rw [logBase_numbers log ha nb, if_pos (Or.inr ⟨h2, Or.inr (by rw [e])⟩)]; exact nan_result
  · intro ha hb
    rw [logBase_mid log hlog ha.1 (.inl hb), hlog.zero a ha.1 ha.2]
    obtain ⟨f, v⟩ := hlog.below b hb.1 hb.2.1 hb.2.2
    rw [div_inf ninf_facts.1 ninf_facts.2.1 f, ninf_facts.2.2, sign_val_neg v, if_pos rfl]
  · intro ha hb
    rw [logBase_mid log hlog ha.1 (.inr hb), hlog.zero a ha.1 ha.2]
    obtain ⟨f, v⟩ := hlog.above b hb.1 hb.2
    rw [div_inf ninf_facts.1 ninf_facts.2.1 f, ninf_facts.2.2, sign_val v, if_neg (by decide)]
  · intro ha hb
    rw [logBase_mid log hlog (by rw [ha]; exact pinf_facts.1) (.inl hb), ha, hlog.infinite]
    obtain ⟨f, v⟩ := hlog.below b hb.1 hb.2.1 hb.2.2
    rw [div_inf pinf_facts.1 pinf_facts.2.1 f, pinf_facts.2.2, sign_val_neg v, if_neg (by decide)]
  · intro ha hb
    rw [logBase_mid log hlog (by rw [ha]; exact pinf_facts.1) (.inr hb), ha, hlog.infinite]
    obtain ⟨f, v⟩ := hlog.above b hb.1 hb.2
    rw [div_inf pinf_facts.1 pinf_facts.2.1 f, pinf_facts.2.2, sign_val v, if_pos rfl]
  · rintro ⟨ha, va⟩ hb
    have h1 := one_facts.2
    have key : nan dbl b = false → val dbl b ≠ val dbl one → nan dbl (log b) = false → mag dbl (log b) ≠ 0 → IsZero (logBase log a b) := by
      intro nb vb ln lm
      rw [logBase_numbers log ha nb, if_neg (by rintro (h | ⟨h, _⟩); exact vb h; exact h va), hlog.one a ha va]
      exact div_zero_by ln lm
    rcases hb with ⟨nb, vb⟩ | hb | hb | e
    · exact key nb (by omega) (by rw [hlog.zero b nb vb]; exact ninf_facts.1) (by rw [hlog.zero b nb vb, ninf_facts.2.1]; decide)
    · obtain ⟨n, o, _, _, f, v⟩ := log_mid hlog (.inl hb)
      exact key n o (finite_nan f) (mag_of_val v)
    · obtain ⟨n, o, _, _, f, v⟩ := log_mid hlog (.inr hb)
      exact key n o (finite_nan f) (mag_of_val v)
    · exact key (by rw [e]; exact pinf_facts.1) (by rw [e]; omega) (by rw [e, hlog.infinite]; exact pinf_facts.1) (by rw [e, hlog.infinite, pinf_facts.2.1]; decide)
  · intro ha hb
    obtain ⟨n, _, _, _, f, _⟩ := log_mid hlog ha
    obtain ⟨_, _, _, _, g, v⟩ := log_mid hlog hb
    have hz : number dbl (log b) ≠ 0 := fun h => mag_of_val v ((number_zero (.inl rfl) _).1 h)
    refine ⟨hz, ?_⟩
    rw [logBase_mid log hlog n hb]
    exact div_rounded (.inl rfl) _ _ f g hz

/-! ## The hypothesis can be met -/

/-- A function with the special cases of a logarithm: its sign only. -/
def signLog (x : Nat) : Nat :=
  if nan dbl x = true ∨ val dbl x < 0 then NaN dbl
  else if val dbl x = 0 then negInf dbl
  else if val dbl x = val dbl one then 0
  else if x = posInf dbl then posInf dbl
  else if val dbl one < val dbl x then one
  else Rnd.pack dbl true one

theorem signLog_isLog : IsLog signLog where
  nan x h := by unfold signLog; rw [if_pos (Or.inl h)]; exact nan_result
  negative x h v := by unfold signLog; rw [if_pos (Or.inr v)]; exact nan_result
  zero x h v := by unfold signLog; rw [h, if_neg (by simp; omega), if_pos v]
  one x h v := by
    have := one_facts.2.1
    unfold signLog; rw [h, if_neg (by simp; omega), if_neg (by omega), if_pos v]
  infinite := by
    have := one_facts.2
    unfold signLog; rw [pinf_facts.1, if_neg (by simp; omega), if_neg (by omega), if_neg (by omega), if_pos rfl]
  above x f v := by
    have := one_facts.2.1
    have hx : x ≠ posInf dbl := by intro e; have := finite_below f; rw [e] at this; omega
    unfold signLog; rw [finite_nan f, if_neg (by simp; omega), if_neg (by omega), if_neg (by omega), if_neg hx, if_pos v]
    exact ⟨by unfold FloatText.Finite; decide +kernel, by decide +kernel⟩
  below x f p v := by
    have hx : x ≠ posInf dbl := by intro e; have := finite_below f; rw [e] at this; omega
    unfold signLog; rw [finite_nan f, if_neg (by simp; omega), if_neg (by omega), if_neg (by omega), if_neg hx, if_neg (by omega)]
    exact ⟨by unfold FloatText.Finite; decide +kernel, by decide +kernel⟩

/-- 2 is above 1, a half is below: `Log(0, 2)` is -∞, `Log(0, 0.5)` is ∞, `Log(2, 2)` and `Log(0.5, 2)` are quotients. -/
example : High 0x4000000000000000 ∧ Low 0x3FE0000000000000 ∧ IsZero 0 ∧ IsOne one ∧ logBase signLog 0 0x4000000000000000 = negInf dbl ∧
    logBase signLog 0 0x3FE0000000000000 = posInf dbl ∧ logBase signLog 0x4000000000000000 0x4000000000000000 = one ∧
    logBase signLog 0x3FE0000000000000 0x4000000000000000 = Rnd.pack dbl true one := by
  refine ⟨⟨by unfold FloatText.Finite; decide +kernel, by decide +kernel⟩, ⟨by unfold FloatText.Finite; decide +kernel, by decide +kernel, by decide +kernel⟩, ⟨by decide +kernel, by decide +kernel⟩, ⟨by decide +kernel, by decide +kernel⟩, by decide +kernel, by decide +kernel, by decide +kernel, by decide +kernel⟩

end Verif.MathConst
