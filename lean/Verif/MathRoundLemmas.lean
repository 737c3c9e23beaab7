import Verif.MathRoundModel
import Verif.FloatOpProps
import Verif.FloatRoundProps
/-!
# Lemmas about whole doubles
-/
namespace Verif.MathRound
open Verif.FltModel Verif.FltSpec Verif.FltProps Verif.Rnd Verif.FloatTextSpec
open Verif.FloatText (finite_mag number_parts lib_bin exists_mag mag_form rem_mag near_roundMag)
open Verif.FloatExpr (nan_false wparts magVal_pos number_val near_le)

abbrev Fin (a : Nat) : Prop := FloatText.Finite dbl a

theorem libd : Lib dbl := Or.inl rfl

/-- A rounded number is exact when the number is representable. -/
theorem rounded_exact {F : Fmt} {x : ℚ} {b c : Nat} (h : Rounded F x b) (hc : c < 2 * F.S) (hn : classOf F c ≠ .nan) (hx : number F c = x) : number F b = x := by
  by_contra hne
  rcases h.2.2 c hc hn (by rw [hx]; exact fun h => hne h.symm) with h1 | ⟨h1, _⟩
  · rw [hx, sub_self, abs_zero] at h1
    exact absurd h1 (not_lt.2 (abs_nonneg _))
  · rw [hx, sub_self, abs_zero] at h1
    exact hne (sub_eq_zero.1 (abs_eq_zero.1 h1))

theorem fin_iff (a : Nat) : Fin a ↔ a < 2 * dbl.S ∧ mag dbl a < dbl.I := by
  unfold Fin FloatText.Finite
  rw [class_fin (facts libd)]; rfl

/-- What a packed finite magnitude is. -/
theorem pack_fin (s : Bool) (m : Nat) (hm : m < dbl.I) : Fin (pack dbl s m) ∧ neg dbl (pack dbl s m) = s ∧ mag dbl (pack dbl s m) = m ∧
    number dbl (pack dbl s m) = (if s = true then -1 else 1) * ((magVal dbl m : ℚ) / 2 ^ places dbl) := by
  obtain ⟨p1, p2, p3⟩ := pack_parts bin_dbl s m (le_of_lt hm)
  refine ⟨(fin_iff _).2 ⟨p3, by rw [p2]; exact hm⟩, p1, p2, ?_⟩
  rw [number_parts, p1, p2]

theorem two_pow_places : (0 : ℚ) < 2 ^ places dbl := by positivity

theorem I_large : 2 ^ 53 * 2 ^ places dbl < magVal dbl dbl.I := by decide +kernel

theorem small_mag (n : Nat) (h : n ≤ 2 ^ 53) : ∃ m, m < dbl.I ∧ magVal dbl m = n * 2 ^ places dbl := by
  obtain ⟨m, hm⟩ := exists_mag bin_dbl n (places dbl) (by rw [fbits_dbl]; exact h)
  refine ⟨m, ?_, hm⟩
  by_contra hc
  have h1 := (magVal_le dbl (M0 bin_dbl)).2 (show dbl.I ≤ m by omega)
  have h2 := I_large
  have h3 := Nat.mul_le_mul_right (2 ^ places dbl) h
  generalize 2 ^ places dbl = P at *
  omega

/-- The integer parts of a finite double are doubles. -/
theorem parts_mag (a : Nat) (ha : mag dbl a < dbl.I) : (∃ m, m < dbl.I ∧ magVal dbl m = down a * 2 ^ places dbl) ∧ (∃ m, m < dbl.I ∧ magVal dbl m = up a * 2 ^ places dbl) := by
  obtain ⟨k, e, h1, h2⟩ := mag_form bin_dbl (mag dbl a)
  rw [fbits_dbl] at h2
  unfold down up
  rcases Nat.le_total (places dbl) e with c | c
  · obtain ⟨j, rfl⟩ : ∃ j, e = j + places dbl := ⟨e - places dbl, by omega⟩
    have hP := Nat.two_pow_pos (places dbl)
    rw [Nat.pow_add, ← Nat.mul_assoc] at h1
    have e1 : magVal dbl (mag dbl a) / 2 ^ places dbl = k * 2 ^ j := by rw [h1, Nat.mul_div_cancel _ hP]
    have e2 : (magVal dbl (mag dbl a) + 2 ^ places dbl - 1) / 2 ^ places dbl = k * 2 ^ j := by
      rw [h1]
      generalize k * 2 ^ j = x
      generalize 2 ^ places dbl = P at *
      rw [show x * P + P - 1 = (P - 1) + x * P by omega, Nat.add_mul_div_right _ _ hP, Nat.div_eq_of_lt (by omega), Nat.zero_add]
    rw [e1, e2]
    exact ⟨⟨_, ha, h1⟩, ⟨_, ha, h1⟩⟩
  · obtain ⟨j, hj⟩ : ∃ j, places dbl = j + e := ⟨places dbl - e, by omega⟩
    have hle : magVal dbl (mag dbl a) / 2 ^ places dbl ≤ k := by
      rw [h1, hj, Nat.pow_add]
      rw [Nat.mul_div_mul_right _ _ (Nat.two_pow_pos e)]
      exact Nat.div_le_self _ _
    have hP := Nat.two_pow_pos (places dbl)
    refine ⟨small_mag _ (by omega), small_mag _ ?_⟩
    have hup : (magVal dbl (mag dbl a) + 2 ^ places dbl - 1) / 2 ^ places dbl ≤ magVal dbl (mag dbl a) / 2 ^ places dbl + 1 := by
      generalize 2 ^ places dbl = P at *
      rw [← Nat.add_div_right _ hP]
      exact Nat.div_le_div_right (by omega)
    omega

theorem whole_spec (s : Bool) (n m : Nat) (hm : m < dbl.I) (h : magVal dbl m = n * 2 ^ places dbl) :
    Fin (whole s n) ∧ neg dbl (whole s n) = s ∧ number dbl (whole s n) = (if s = true then -1 else 1) * (n : ℚ) := by
  have e : whole s n = pack dbl s m := by
    unfold whole
    rw [← h]
    have := roundMag_exact bin_dbl m 1 Nat.one_pos (le_of_lt hm)
    rw [Nat.mul_one] at this
    rw [this]
  obtain ⟨h1, h2, h3, h4⟩ := pack_fin s m hm
  rw [e]
  refine ⟨h1, h2, ?_⟩
  rw [h4, h, Nat.cast_mul, Nat.cast_pow, Nat.cast_ofNat, mul_div_assoc, div_self (ne_of_gt two_pow_places), mul_one]

/-- The bounds of the integer parts, as rationals: `down ≤ |x| < down + 1`, `up - 1 < |x| ≤ up`. -/
theorem part_bounds (a : Nat) : (down a : ℚ) ≤ (magVal dbl (mag dbl a) : ℚ) / 2 ^ places dbl ∧ (magVal dbl (mag dbl a) : ℚ) / 2 ^ places dbl < (down a : ℚ) + 1 ∧
    (up a : ℚ) - 1 < (magVal dbl (mag dbl a) : ℚ) / 2 ^ places dbl ∧ (magVal dbl (mag dbl a) : ℚ) / 2 ^ places dbl ≤ (up a : ℚ) := by
  have hP := Nat.two_pow_pos (places dbl)
  have hq := two_pow_places
  have hc : ((2 ^ places dbl : Nat) : ℚ) = 2 ^ places dbl := by rw [Nat.cast_pow, Nat.cast_ofNat]
  unfold down up
  rw [le_div_iff₀ hq, div_lt_iff₀ hq, lt_div_iff₀ hq, div_le_iff₀ hq, ← hc]
  generalize magVal dbl (mag dbl a) = V
  generalize 2 ^ places dbl = P at *
  have d1 := Nat.div_add_mod V P
  have d2 := Nat.mod_lt V hP
  have u1 := Nat.div_add_mod (V + P - 1) P
  have u2 := Nat.mod_lt (V + P - 1) hP
  generalize V / P = x at *
  generalize (V + P - 1) / P = y at *
  rw [Nat.mul_comm] at d1 u1
  refine ⟨?_, ?_, ?_, ?_⟩
  · exact_mod_cast (show x * P ≤ V by omega)
  · exact_mod_cast (show V < (x + 1) * P by rw [Nat.add_mul]; omega)
  · rw [sub_mul, one_mul, sub_lt_iff_lt_add]
    exact_mod_cast (show y * P < V + P by omega)
  · exact_mod_cast (show V ≤ y * P by omega)

/-- `z` is `q` without its fraction, the floor of `q`, the ceiling of `q`. -/
def IsTrunc (q : ℚ) (z : Int) : Prop := (0 ≤ q → z ≤ q ∧ q < z + 1) ∧ (q < 0 → (z : ℚ) - 1 < q ∧ q ≤ z)
def IsFloor (q : ℚ) (z : Int) : Prop := z ≤ q ∧ q < z + 1
def IsCeil (q : ℚ) (z : Int) : Prop := (z : ℚ) - 1 < q ∧ q ≤ z

def sgn (s : Bool) (n : Nat) : Int := if s = true then -(n : Int) else n

theorem sgn_cast (s : Bool) (n : Nat) : ((sgn s n : Int) : ℚ) = (if s = true then -1 else 1) * (n : ℚ) := by
  unfold sgn; cases s <;> simp

theorem fin_parts (a : Nat) (ha : Fin a) : ¬ dbl.I ≤ mag dbl a := by have := finite_mag libd ha; omega

theorem truncate_spec (a : Nat) (ha : Fin a) : Fin (truncate a) ∧ neg dbl (truncate a) = neg dbl a ∧ number dbl (truncate a) = sgn (neg dbl a) (down a) ∧ IsTrunc (number dbl a) (sgn (neg dbl a) (down a)) := by
  obtain ⟨⟨m, h1, h2⟩, _⟩ := parts_mag a (finite_mag libd ha)
  obtain ⟨w1, w2, w3⟩ := whole_spec (neg dbl a) (down a) m h1 h2
  obtain ⟨b1, b2, _, _⟩ := part_bounds a
  unfold truncate
  rw [if_neg (fin_parts a ha)]
  refine ⟨w1, w2, by rw [w3, sgn_cast], ?_⟩
  unfold IsTrunc
  rw [number_parts a, sgn_cast]
  have b0 : (0 : ℚ) ≤ (magVal dbl (mag dbl a) : ℚ) / 2 ^ places dbl := div_nonneg (Nat.cast_nonneg _) (le_of_lt two_pow_places)
  generalize (magVal dbl (mag dbl a) : ℚ) / 2 ^ places dbl = X at *
  have hd : (0 : ℚ) ≤ down a := by exact_mod_cast Nat.zero_le _
  clear w1 w2 w3 h1 h2
  generalize (down a : ℚ) = D at *
  cases neg dbl a
  · simp only [Bool.false_eq_true, if_false]
    exact ⟨fun _ => ⟨by linarith, by linarith⟩, fun h => absurd h (by linarith)⟩
  · simp only [if_true]
    exact ⟨fun h => ⟨by linarith, by linarith⟩, fun _ => ⟨by linarith, by linarith⟩⟩

theorem floor_spec (a : Nat) (ha : Fin a) : ∃ n : Int, Fin (floor a) ∧ neg dbl (floor a) = neg dbl a ∧ number dbl (floor a) = n ∧ IsFloor (number dbl a) n := by
  obtain ⟨⟨m, h1, h2⟩, ⟨m', h1', h2'⟩⟩ := parts_mag a (finite_mag libd ha)
  obtain ⟨b1, b2, b3, b4⟩ := part_bounds a
  unfold floor IsFloor
  rw [if_neg (fin_parts a ha), number_parts a]
  generalize (magVal dbl (mag dbl a) : ℚ) / 2 ^ places dbl = X at *
  cases hs : neg dbl a
  · obtain ⟨w1, w2, w3⟩ := whole_spec false (down a) m h1 h2
    simp only [Bool.false_eq_true, if_false, one_mul] at *
    exact ⟨down a, w1, w2, by rw [w3]; simp, by push_cast; exact ⟨by linarith, by linarith⟩⟩
  · obtain ⟨w1, w2, w3⟩ := whole_spec true (up a) m' h1' h2'
    simp only [if_true] at *
    exact ⟨-(up a : Int), w1, w2, by rw [w3]; simp, by push_cast; exact ⟨by linarith, by linarith⟩⟩

theorem ceiling_spec (a : Nat) (ha : Fin a) : ∃ n : Int, Fin (ceiling a) ∧ neg dbl (ceiling a) = neg dbl a ∧ number dbl (ceiling a) = n ∧ IsCeil (number dbl a) n := by
  obtain ⟨⟨m, h1, h2⟩, ⟨m', h1', h2'⟩⟩ := parts_mag a (finite_mag libd ha)
  obtain ⟨b1, b2, b3, b4⟩ := part_bounds a
  unfold ceiling IsCeil
  rw [if_neg (fin_parts a ha), number_parts a]
  generalize (magVal dbl (mag dbl a) : ℚ) / 2 ^ places dbl = X at *
  cases hs : neg dbl a
  · obtain ⟨w1, w2, w3⟩ := whole_spec false (up a) m' h1' h2'
    simp only [Bool.false_eq_true, if_false, one_mul] at *
    exact ⟨up a, w1, w2, by rw [w3]; simp, by push_cast; exact ⟨by linarith, by linarith⟩⟩
  · obtain ⟨w1, w2, w3⟩ := whole_spec true (down a) m h1 h2
    simp only [if_true] at *
    exact ⟨-(down a : Int), w1, w2, by rw [w3]; simp, by push_cast; exact ⟨by linarith, by linarith⟩⟩

end Verif.MathRound
