import Verif.FloatDoubleRound
/-!
# Singles as doubles: conversion, and every operation done in double and rounded back
-/
namespace Verif.FloatExpr
open Verif.FltModel Verif.FltSpec Verif.FltProps Verif.Rnd Verif.FloatText Verif.FloatTextSpec

variable {F : Fmt}

theorem nan_iff (a : Nat) : nan F a = true ↔ F.I < mag F a := by unfold nan; rw [decide_eq_true_eq]
theorem nan_false (a : Nat) : nan F a = false ↔ mag F a ≤ F.I := by
  rw [← Bool.not_eq_true, nan_iff]; omega

theorem pack_self {a : Nat} (h : a < 2 * F.S) : pack F (neg F a) (mag F a) = a := by
  unfold pack neg mag
  by_cases c : F.S ≤ a
  · rw [if_pos (decide_eq_true c)]
    rw [Nat.mod_eq_sub_mod c, Nat.mod_eq_of_lt (by omega)]; omega
  · rw [if_neg (by simp [c]), Nat.mod_eq_of_lt (by omega)]; omega

theorem NaN_nan (hl : Lib F) : nan F (NaN F) = true ∧ NaN F < 2 * F.S ∧ F.I < mag F (NaN F) := by
  rcases hl with rfl | rfl <;> decide +kernel

theorem conv_nan (G F : Fmt) {a : Nat} (h : nan F a = true) : conv G F a = NaN G := by unfold conv; rw [if_pos h]

theorem roundMag_zero (h0 : IsBin F) (d : Nat) (hd : 0 < d) : roundMag F 0 d = 0 := by
  have := roundMag_exact h0 0 d hd (by omega)
  rwa [magVal_zero, Nat.zero_mul] at this

theorem magVal_pos (h0 : IsBin F) {m : Nat} (h : 0 < m) : 0 < magVal F m := by
  have := magVal_lt F (M0 h0) h
  rwa [magVal_zero] at this

theorem I_scale : magVal sgl sgl.I * 2 ^ 925 ≤ magVal dbl dbl.I := by decide +kernel
theorem I_narrow : roundMag sgl (magVal dbl dbl.I * 2 ^ places sgl) (2 ^ places dbl) = sgl.I := by decide +kernel

/-- The double with the number of a single. -/
theorem widen_mag (m : Nat) (hm : m < sgl.I) : ∃ m', m' < dbl.I ∧ magVal dbl m' = magVal sgl m * 2 ^ 925 ∧ (m' = 0 ↔ m = 0) ∧
    roundMag dbl (magVal sgl m * 2 ^ places dbl) (2 ^ places sgl) = m' := by
  obtain ⟨k, e, h1, h2⟩ := mag_form bin_sgl m
  rw [fbits_sgl] at h2
  obtain ⟨m', h3⟩ := exists_mag bin_dbl k (e + 925) (by rw [fbits_dbl]; omega)
  have h4 : magVal dbl m' = magVal sgl m * 2 ^ 925 := by rw [h3, h1, Nat.pow_add, Nat.mul_assoc]
  have h5 : m' < dbl.I := by
    by_contra hc
    have a1 := (magVal_le dbl (M0 bin_dbl)).2 (show dbl.I ≤ m' by omega)
    have a2 := magVal_lt sgl (M0 bin_sgl) hm
    have a3 := I_scale
    have a4 : magVal sgl m * 2 ^ 925 < magVal sgl sgl.I * 2 ^ 925 := Nat.mul_lt_mul_of_pos_right a2 (Nat.two_pow_pos _)
    rw [← h4] at a4
    omega
  refine ⟨m', h5, h4, ?_, ?_⟩
  · constructor
    · rintro rfl
      rw [magVal_zero] at h4
      by_contra hc
      have := Nat.mul_pos (magVal_pos bin_sgl (show 0 < m by omega)) (Nat.two_pow_pos 925)
      omega
    · rintro rfl
      rw [magVal_zero, Nat.zero_mul] at h4
      by_contra hc
      have := magVal_pos bin_dbl (show 0 < m' by omega)
      omega
  · have e1 : magVal sgl m * 2 ^ places dbl = magVal dbl m' * 2 ^ places sgl := by
      rw [h4, places_dbl, places_sgl, Nat.mul_assoc, ← Nat.pow_add]
    rw [e1]
    exact roundMag_exact bin_dbl m' _ (Nat.two_pow_pos _) (by omega)

/-- A single as a double: the same class, sign and number. -/
theorem widen (a : Nat) (hn : nan sgl a = false) : ∃ m', m' ≤ dbl.I ∧ conv dbl sgl a = pack dbl (neg sgl a) m' ∧ (m' = dbl.I ↔ mag sgl a = sgl.I) ∧
    (mag sgl a < sgl.I → magVal dbl m' = magVal sgl (mag sgl a) * 2 ^ 925) ∧ (m' = 0 ↔ mag sgl a = 0) := by
  rw [nan_false] at hn
  unfold conv
  rw [if_neg (by rw [nan_iff]; omega)]
  by_cases c : mag sgl a = sgl.I
  · rw [if_pos c]
    refine ⟨dbl.I, Nat.le_refl _, rfl, by simp [c], by omega, ?_⟩
    rw [c]; decide
  · rw [if_neg c]
    obtain ⟨m', h1, h2, h3, h4⟩ := widen_mag (mag sgl a) (by omega)
    refine ⟨m', by omega, by rw [h4], by constructor <;> omega, fun _ => h2, h3⟩

theorem wparts {m : Nat} (s : Bool) (hm : m ≤ F.I) (h0 : IsBin F) : nan F (pack F s m) = false ∧ neg F (pack F s m) = s ∧ mag F (pack F s m) = m := by
  obtain ⟨h1, h2, _⟩ := pack_parts h0 s m hm
  exact ⟨(nan_false _).2 (by omega), h1, h2⟩

theorem narrow (s : Bool) (m : Nat) (hm : m ≤ dbl.I) : conv sgl dbl (pack dbl s m) = pack sgl s (roundMag sgl (magVal dbl m * 2 ^ places sgl) (2 ^ places dbl)) := by
  obtain ⟨h1, h2, h3⟩ := wparts s hm bin_dbl
  unfold conv
  rw [if_neg (by rw [h1]; decide), h2, h3]
  by_cases c : m = dbl.I
  · rw [if_pos c, c, I_narrow]
  · rw [if_neg c]

theorem narrow_NaN : conv sgl dbl (NaN dbl) = NaN sgl := by rw [conv_nan]; exact (NaN_nan (Or.inl rfl)).1

theorem narrow_widen (a : Nat) (ha : a < 2 * sgl.S) (hn : nan sgl a = false) : conv sgl dbl (conv dbl sgl a) = a := by
  obtain ⟨m', h1, h2, h3, h4, h5⟩ := widen a hn
  have hle := (nan_false _).1 hn
  rw [h2, narrow _ _ h1]
  by_cases c : mag sgl a = sgl.I
  · rw [h3.2 c, I_narrow, ← c, pack_self ha]
  · rw [h4 (by omega)]
    have e1 : magVal sgl (mag sgl a) * 2 ^ 925 * 2 ^ places sgl = magVal sgl (mag sgl a) * 2 ^ places dbl := by
      rw [places_dbl, places_sgl, Nat.mul_assoc, ← Nat.pow_add]
    rw [e1, roundMag_exact bin_sgl _ _ (Nat.two_pow_pos _) hle, pack_self ha]

theorem widen_nan (a : Nat) (h : nan sgl a = true) : conv dbl sgl a = NaN dbl ∧ nan dbl (conv dbl sgl a) = true := by
  rw [conv_nan _ _ h]; exact ⟨rfl, (NaN_nan (Or.inl rfl)).1⟩

theorem nan_widen (a : Nat) : nan dbl (conv dbl sgl a) = nan sgl a := by
  cases h : nan sgl a with
  | true => exact (widen_nan a h).2
  | false =>
    obtain ⟨m', h1, h2, _⟩ := widen a h
    rw [h2]; exact (wparts _ h1 bin_dbl).1

theorem val_pack (h0 : IsBin F) (s : Bool) (m : Nat) (hm : m ≤ F.I) : val F (pack F s m) = signed s (magVal F m) := by
  obtain ⟨h1, h2, _⟩ := pack_parts h0 s m hm
  unfold val signed; rw [h1, h2]

theorem val_signed (a : Nat) : val F a = signed (neg F a) (magVal F (mag F a)) := rfl

theorem signed_mul (s : Bool) (v k : Nat) : signed s (v * k) = signed s v * k := by
  unfold signed; split <;> push_cast <;> ring

/-! ## The operations -/

theorem mul_narrow (a b : Nat) : conv sgl dbl (mul dbl (conv dbl sgl a) (conv dbl sgl b)) = mul sgl a b := by
  by_cases hn : (nan sgl a || nan sgl b) = true
  · have h1 : mul sgl a b = NaN sgl := by unfold mul; rw [if_pos hn]
    have h2 : mul dbl (conv dbl sgl a) (conv dbl sgl b) = NaN dbl := by
      unfold mul; rw [nan_widen, nan_widen, if_pos hn]
    rw [h1, h2, narrow_NaN]
  · rw [Bool.not_eq_true, Bool.or_eq_false_iff] at hn
    obtain ⟨ma, a1, a2, a3, a4, a5⟩ := widen a hn.1
    obtain ⟨mb, b1, b2, b3, b4, b5⟩ := widen b hn.2
    obtain ⟨pa1, pa2, pa3⟩ := wparts (neg sgl a) a1 bin_dbl
    obtain ⟨pb1, pb2, pb3⟩ := wparts (neg sgl b) b1 bin_dbl
    have la := (nan_false _).1 hn.1
    have lb := (nan_false _).1 hn.2
    rw [a2, b2]
    unfold mul
    rw [pa1, pa2, pa3, pb1, pb2, pb3, hn.1, hn.2]
    simp only [Bool.or_self, Bool.false_eq_true, if_false]
    by_cases c : mag sgl a = sgl.I ∨ mag sgl b = sgl.I
    · rw [if_pos (show ma = dbl.I ∨ mb = dbl.I by rw [a3, b3]; exact c), if_pos c]
      by_cases z : mag sgl a = 0 ∨ mag sgl b = 0
      · rw [if_pos (show ma = 0 ∨ mb = 0 by rw [a5, b5]; exact z), if_pos z, narrow_NaN]
      · rw [if_neg (show ¬ (ma = 0 ∨ mb = 0) by rw [a5, b5]; exact z), if_neg z, narrow _ _ (Nat.le_refl _), I_narrow]
    · rw [if_neg (show ¬ (ma = dbl.I ∨ mb = dbl.I) by rw [a3, b3]; exact c), if_neg c]
      rw [narrow _ _ (roundMag_le _ _)]
      rw [a4 (by omega), b4 (by omega)]
      obtain ⟨A, g, ha, hA⟩ := mag_form bin_sgl (mag sgl a)
      obtain ⟨B, f, hb, hB⟩ := mag_form bin_sgl (mag sgl b)
      rw [fbits_sgl] at hA hB
      obtain ⟨m, hm⟩ := exists_mag bin_dbl (A * B) (g + f + 776) (by
        rw [fbits_dbl]
        have : A * B ≤ 2 ^ 24 * B := Nat.mul_le_mul_right _ (by omega)
        omega)
      have hv : magVal dbl m = magVal sgl (mag sgl a) * magVal sgl (mag sgl b) * 2 ^ 776 := by
        rw [hm, ha, hb, Nat.pow_add, Nat.pow_add]
        generalize 2 ^ 776 = W
        ring
      have hI : m ≤ dbl.I := by
        by_contra hc
        have l1 := magVal_lt dbl (M0 bin_dbl) (show dbl.I < m by omega)
        have l2 := (magVal_le sgl (M0 bin_sgl)).2 la
        have l3 := (magVal_le sgl (M0 bin_sgl)).2 lb
        have l4 : magVal sgl sgl.I * magVal sgl sgl.I * 2 ^ 776 ≤ magVal dbl dbl.I := by decide +kernel
        have l5 := Nat.mul_le_mul_right (2 ^ 776) (Nat.mul_le_mul l2 l3)
        rw [← hv] at l5
        omega
      have e1 : magVal sgl (mag sgl a) * 2 ^ 925 * (magVal sgl (mag sgl b) * 2 ^ 925) = magVal dbl m * 2 ^ places dbl := by
        rw [hv, places_dbl, show (2 : Nat) ^ 1074 = 2 ^ 925 * 2 ^ 149 by rw [← Nat.pow_add], show (2 : Nat) ^ 925 = 2 ^ 149 * 2 ^ 776 by rw [← Nat.pow_add]]
        generalize (2 : Nat) ^ 776 = W
        generalize (2 : Nat) ^ 149 = W'
        ring
      rw [e1, roundMag_exact bin_dbl m _ (Nat.two_pow_pos _) hI, hv]
      have e2 : magVal sgl (mag sgl a) * magVal sgl (mag sgl b) * 2 ^ 776 * 2 ^ places sgl = magVal sgl (mag sgl a) * magVal sgl (mag sgl b) * 2 ^ 925 := by
        rw [places_sgl, Nat.mul_assoc, ← Nat.pow_add]
      have e3 : 2 ^ places dbl = 2 ^ places sgl * 2 ^ 925 := by rw [places_dbl, places_sgl, ← Nat.pow_add]
      rw [e2, e3, roundMag_scale _ _ _ (Nat.two_pow_pos _) (Nat.two_pow_pos _)]

theorem div_narrow (a b : Nat) : conv sgl dbl (div dbl (conv dbl sgl a) (conv dbl sgl b)) = div sgl a b := by
  by_cases hn : (nan sgl a || nan sgl b) = true
  · have h1 : div sgl a b = NaN sgl := by unfold div; rw [if_pos hn]
    have h2 : div dbl (conv dbl sgl a) (conv dbl sgl b) = NaN dbl := by
      unfold div; rw [nan_widen, nan_widen, if_pos hn]
    rw [h1, h2, narrow_NaN]
  · rw [Bool.not_eq_true, Bool.or_eq_false_iff] at hn
    obtain ⟨ma, a1, a2, a3, a4, a5⟩ := widen a hn.1
    obtain ⟨mb, b1, b2, b3, b4, b5⟩ := widen b hn.2
    obtain ⟨pa1, pa2, pa3⟩ := wparts (neg sgl a) a1 bin_dbl
    obtain ⟨pb1, pb2, pb3⟩ := wparts (neg sgl b) b1 bin_dbl
    have la := (nan_false _).1 hn.1
    have lb := (nan_false _).1 hn.2
    have hz : ∀ s, conv sgl dbl (pack dbl s 0) = pack sgl s 0 := by
      intro s
      rw [narrow _ _ (by decide), magVal_zero, Nat.zero_mul, roundMag_zero bin_sgl _ (Nat.two_pow_pos _)]
    rw [a2, b2]
    unfold div
    rw [pa1, pa2, pa3, pb1, pb2, pb3, hn.1, hn.2]
    simp only [Bool.or_self, Bool.false_eq_true, if_false]
    simp only [a3, b3, a5, b5]
    by_cases ca : mag sgl a = sgl.I
    · rw [if_pos ca, if_pos ca]
      by_cases cb : mag sgl b = sgl.I
      · rw [if_pos cb, if_pos cb, narrow_NaN]
      · rw [if_neg cb, if_neg cb, narrow _ _ (Nat.le_refl _), I_narrow]
    · rw [if_neg ca, if_neg ca]
      by_cases cb : mag sgl b = sgl.I
      · rw [if_pos cb, if_pos cb, hz]
      · rw [if_neg cb, if_neg cb]
        by_cases zb : mag sgl b = 0
        · rw [if_pos zb, if_pos zb]
          by_cases za : mag sgl a = 0
          · rw [if_pos za, if_pos za, narrow_NaN]
          · rw [if_neg za, if_neg za, narrow _ _ (Nat.le_refl _), I_narrow]
        · rw [if_neg zb, if_neg zb, narrow _ _ (roundMag_le _ _), a4 (by omega), b4 (by omega)]
          have hb := magVal_pos bin_sgl (show 0 < mag sgl b by omega)
          have e1 : magVal sgl (mag sgl a) * 2 ^ 925 * 2 ^ places dbl = magVal sgl (mag sgl a) * 2 ^ 1074 * 2 ^ 925 := by
            rw [places_dbl, Nat.mul_right_comm]
          rw [e1, roundMag_scale _ _ _ hb (Nat.two_pow_pos _), div_twice _ _ hb, places_sgl]

theorem add_narrow (a b : Nat) (ha : a < 2 * sgl.S) (hb : b < 2 * sgl.S) : conv sgl dbl (add dbl (conv dbl sgl a) (conv dbl sgl b)) = add sgl a b := by
  by_cases hn : (nan sgl a || nan sgl b) = true
  · have h1 : add sgl a b = NaN sgl := by unfold add; rw [if_pos hn]
    have h2 : add dbl (conv dbl sgl a) (conv dbl sgl b) = NaN dbl := by
      unfold add; rw [nan_widen, nan_widen, if_pos hn]
    rw [h1, h2, narrow_NaN]
  · rw [Bool.not_eq_true, Bool.or_eq_false_iff] at hn
    obtain ⟨ma, a1, a2, a3, a4, a5⟩ := widen a hn.1
    obtain ⟨mb, b1, b2, b3, b4, b5⟩ := widen b hn.2
    obtain ⟨pa1, pa2, pa3⟩ := wparts (neg sgl a) a1 bin_dbl
    obtain ⟨pb1, pb2, pb3⟩ := wparts (neg sgl b) b1 bin_dbl
    have la := (nan_false _).1 hn.1
    have lb := (nan_false _).1 hn.2
    have na := narrow_widen a ha hn.1
    have nb := narrow_widen b hb hn.2
    rw [a2] at na ⊢
    rw [b2] at nb ⊢
    unfold add
    rw [pa1, pa2, pa3, pb1, pb2, pb3, hn.1, hn.2]
    simp only [Bool.or_self, Bool.false_eq_true, if_false]
    simp only [a3, b3]
    by_cases ca : mag sgl a = sgl.I
    · rw [if_pos ca, if_pos ca]
      split
      · exact narrow_NaN
      · exact na
    · rw [if_neg ca, if_neg ca]
      by_cases cb : mag sgl b = sgl.I
      · rw [if_pos cb, if_pos cb]; exact nb
      · rw [if_neg cb, if_neg cb, val_pack bin_dbl _ _ a1, val_pack bin_dbl _ _ b1, a4 (by omega), b4 (by omega), signed_mul, signed_mul, ← Int.add_mul,
          val_signed, val_signed]
        have hW : (0 : Int) < ((2 ^ 925 : Nat) : Int) := by exact_mod_cast Nat.two_pow_pos 925
        have tw := add_twice (mag sgl a) (mag sgl b) (neg sgl a) (neg sgl b)
        generalize signed (neg sgl a) (magVal sgl (mag sgl a)) + signed (neg sgl b) (magVal sgl (mag sgl b)) = z at *
        have e1 : z * ((2 ^ 925 : Nat) : Int) = 0 ↔ z = 0 := by
          constructor
          · intro h
            rcases Int.mul_eq_zero.1 h with h | h
            · exact h
            · omega
          · rintro rfl; simp
        have e2 : z * ((2 ^ 925 : Nat) : Int) < 0 ↔ z < 0 := by
          constructor
          · intro h; by_contra hc
            have := Int.mul_nonneg (show 0 ≤ z by omega) (Int.le_of_lt hW); omega
          · intro h; exact Int.mul_neg_of_neg_of_pos h hW
        simp only [e1, e2]
        by_cases cz : z = 0
        · rw [if_pos cz, if_pos cz, narrow _ _ (by decide), magVal_zero, Nat.zero_mul, roundMag_zero bin_sgl _ (Nat.two_pow_pos _)]
        · rw [if_neg cz, if_neg cz, narrow _ _ (roundMag_le _ _), Int.natAbs_mul, Int.natAbs_natCast, tw]

theorem negate_parts (hl : Lib F) (a : Nat) (hn : nan F a = false) : nan F (negate F a) = false ∧ neg F (negate F a) = !neg F a ∧ mag F (negate F a) = mag F a ∧ negate F a < 2 * F.S := by
  have h := (nan_false _).1 hn
  obtain ⟨h1, h2, h3⟩ := pack_parts (lib_bin hl) (!neg F a) (mag F a) h
  unfold negate
  exact ⟨(nan_false _).2 (by omega), h1, h2, h3⟩

theorem negate_widen (a : Nat) (hn : nan sgl a = false) : negate dbl (conv dbl sgl a) = conv dbl sgl (negate sgl a) := by
  obtain ⟨h1, h2, h3, h4⟩ := negate_parts (Or.inr rfl) a hn
  unfold conv
  rw [hn, h1, h2, h3]
  simp only [Bool.false_eq_true, if_false]
  by_cases c : mag sgl a = sgl.I
  · rw [if_pos c, if_pos c]
    obtain ⟨_, p1, p2⟩ := wparts (neg sgl a) (Nat.le_refl dbl.I) bin_dbl
    unfold negate; rw [p1, p2]
  · rw [if_neg c, if_neg c]
    obtain ⟨_, p1, p2⟩ := wparts (neg sgl a) (roundMag_le (F := dbl) (magVal sgl (mag sgl a) * 2 ^ places dbl) (2 ^ places sgl)) bin_dbl
    unfold negate; rw [p1, p2]

theorem sub_narrow (a b : Nat) (ha : a < 2 * sgl.S) : conv sgl dbl (sub dbl (conv dbl sgl a) (conv dbl sgl b)) = sub sgl a b := by
  unfold sub
  rw [nan_widen]
  cases hn : nan sgl b with
  | true => rw [if_pos rfl, if_pos rfl, narrow_NaN]
  | false =>
    simp only [Bool.false_eq_true, if_false]
    rw [negate_widen b hn]
    exact add_narrow a _ ha (negate_parts (Or.inr rfl) b hn).2.2.2

theorem rem_widen (a b : Nat) : modulus dbl (conv dbl sgl a) (conv dbl sgl b) = conv dbl sgl (modulus sgl a b) ∧ (nan sgl (modulus sgl a b) = true → modulus sgl a b = NaN sgl) ∧
    (a < 2 * sgl.S → modulus sgl a b < 2 * sgl.S) := by
  have hN := NaN_nan (F := sgl) (Or.inr rfl)
  by_cases hn : (nan sgl a || nan sgl b) = true
  · have h1 : modulus sgl a b = NaN sgl := by unfold modulus; rw [if_pos hn]; rfl
    have h2 : modulus dbl (conv dbl sgl a) (conv dbl sgl b) = NaN dbl := by
      unfold modulus; rw [nan_widen, nan_widen, if_pos hn]; rfl
    rw [h1, h2, conv_nan _ _ hN.1]
    exact ⟨rfl, fun _ => rfl, fun _ => hN.2.1⟩
  · rw [Bool.not_eq_true, Bool.or_eq_false_iff] at hn
    obtain ⟨ma, a1, a2, a3, a4, a5⟩ := widen a hn.1
    obtain ⟨mb, b1, b2, b3, b4, b5⟩ := widen b hn.2
    obtain ⟨pa1, pa2, pa3⟩ := wparts (neg sgl a) a1 bin_dbl
    obtain ⟨pb1, pb2, pb3⟩ := wparts (neg sgl b) b1 bin_dbl
    have la := (nan_false _).1 hn.1
    have lb := (nan_false _).1 hn.2
    unfold modulus
    rw [a2, b2, pa1, pa2, pa3, pb1, pb3, hn.1, hn.2]
    simp only [Bool.or_self, Bool.false_eq_true, if_false]
    simp only [a3, b3, b5]
    by_cases c : mag sgl a = sgl.I ∨ mag sgl b = 0
    · rw [if_pos c, if_pos c]
      exact ⟨(conv_nan dbl sgl hN.1).symm, fun _ => rfl, fun _ => hN.2.1⟩
    · rw [if_neg c, if_neg c]
      by_cases cb : mag sgl b = sgl.I
      · rw [if_pos cb, if_pos cb]
        exact ⟨a2.symm, (fun h => by rw [hn.1] at h; cases h), fun h => h⟩
      · rw [if_neg cb, if_neg cb, a4 (by omega), b4 (by omega), Nat.mul_mod_mul_right]
        obtain ⟨m, hm, hmb⟩ := rem_mag bin_sgl (mag sgl a) (mag sgl b) (by omega)
        have hr : roundMag sgl (magVal sgl (mag sgl a) % magVal sgl (mag sgl b)) 1 = m := by
          have := roundMag_exact bin_sgl m 1 (by omega) (by omega)
          rwa [Nat.mul_one, hm] at this
        obtain ⟨q1, q2, q3⟩ := wparts (neg sgl a) (show m ≤ sgl.I by omega) bin_sgl
        rw [hr]
        refine ⟨?_, (fun h => by rw [q1] at h; cases h), fun _ => (pack_parts bin_sgl _ _ (show m ≤ sgl.I by omega)).2.2⟩
        obtain ⟨m', w1, w2, _, w4⟩ := widen_mag m (by omega)
        unfold conv
        rw [if_neg (by rw [q1]; decide), q2, q3, if_neg (by omega), w4, ← hm, ← w2]
        have := roundMag_exact bin_dbl m' 1 (by omega) (by omega)
        rw [Nat.mul_one] at this
        rw [this]

theorem op_narrow (o : Op) (a b : Nat) (ha : a < 2 * sgl.S) (hb : b < 2 * sgl.S) : conv sgl dbl (op dbl o (conv dbl sgl a) (conv dbl sgl b)) = op sgl o a b := by
  cases o with
  | add => exact add_narrow a b ha hb
  | sub => exact sub_narrow a b ha
  | mul => exact mul_narrow a b
  | div => exact div_narrow a b
  | rem =>
    obtain ⟨h1, h2, h3⟩ := rem_widen a b
    show conv sgl dbl (modulus dbl _ _) = modulus sgl a b
    rw [h1]
    cases hn : nan sgl (modulus sgl a b) with
    | true => rw [h2 hn, (widen_nan _ (NaN_nan (Or.inr rfl)).1).1, narrow_NaN]
    | false => exact narrow_widen _ (h3 ha) hn

/-- Every operation gives a pattern of the format. -/
theorem op_pattern (hl : Lib F) (o : Op) (a b : Nat) (ha : a < 2 * F.S) (hb : b < 2 * F.S) : op F o a b < 2 * F.S := by
  have h0 := lib_bin hl
  have hN := (NaN_nan hl).2.1
  have hp : ∀ s m, m ≤ F.I → pack F s m < 2 * F.S := fun s m h => (pack_parts h0 s m h).2.2
  have hadd : ∀ a b, a < 2 * F.S → b < 2 * F.S → add F a b < 2 * F.S := by
    intro a b ha hb
    unfold add
    repeat' split
    all_goals first | assumption | exact hp _ _ (Nat.zero_le _) | exact hp _ _ (roundMag_le _ _)
  cases o with
  | add => exact hadd a b ha hb
  | sub =>
    show sub F a b < _
    unfold sub
    cases hn : nan F b with
    | true => rw [if_pos rfl]; exact hN
    | false => rw [if_neg (by decide)]; exact hadd _ _ ha (negate_parts hl b hn).2.2.2
  | mul =>
    show mul F a b < _
    unfold mul
    repeat' split
    all_goals first | assumption | exact hp _ _ (Nat.le_refl _) | exact hp _ _ (roundMag_le _ _)
  | div =>
    show div F a b < _
    unfold div
    repeat' split
    all_goals first | assumption | exact hp _ _ (Nat.le_refl _) | exact hp _ _ (Nat.zero_le _) | exact hp _ _ (roundMag_le _ _)
  | rem =>
    show modulus F a b < _
    have hN' : F.I + F.M / 2 < 2 * F.S := hN
    unfold modulus
    repeat' split
    all_goals first | assumption | exact hp _ _ (roundMag_le _ _)

theorem conv_pattern {G : Fmt} (hl : Lib G) (F : Fmt) (a : Nat) : conv G F a < 2 * G.S := by
  have h0 := lib_bin hl
  unfold conv
  repeat' split
  · exact (NaN_nan hl).2.1
  · exact (pack_parts h0 _ _ (Nat.le_refl _)).2.2
  · exact (pack_parts h0 _ _ (roundMag_le _ _)).2.2

theorem ofInt_pattern (hl : Lib F) (i : Int) : ofInt F i < 2 * F.S := (pack_parts (lib_bin hl) _ _ (roundMag_le _ _)).2.2

end Verif.FloatExpr
