import Verif.ArithModel
import Verif.FloatRoundProps
/-!
# Rounding to doubles: exactness, error, nearest
-/
namespace Verif.Arith
open Verif.FltModel Verif.FltSpec Verif.FltProps

theorem dM : dbl.M = 2 ^ 52 := by decide
theorem dM0 : 0 < dbl.M := by decide
theorem dI : dbl.I = 2046 * 2 ^ 52 + 2 ^ 52 := by decide

/-- The integer nearest to `n / d`. -/
theorem rne_spec (n d : Nat) (hd : 0 < d) : 2 * n ≤ (2 * rne n d + 1) * d ∧ (2 * rne n d) * d ≤ 2 * n + d ∧
    ((2 * n = (2 * rne n d + 1) * d ∨ (2 * rne n d) * d = 2 * n + d) → rne n d % 2 = 0) := by
  have h := Nat.div_add_mod n d
  have hr := Nat.mod_lt n hd
  unfold rne
  generalize n / d = q at *
  generalize n % d = r at *
  have e1 : (2 * q + 1) * d = 2 * (d * q) + d := by rw [Nat.add_mul, Nat.one_mul, Nat.mul_assoc, Nat.mul_comm q d]
  have e2 : (2 * q) * d = 2 * (d * q) := by rw [Nat.mul_assoc, Nat.mul_comm q d]
  have e3 : (2 * (q + 1) + 1) * d = 2 * (d * q) + 3 * d := by
    rw [show 2 * (q + 1) + 1 = 2 * q + 3 by omega, Nat.add_mul, Nat.mul_assoc, Nat.mul_comm q d]
  have e4 : (2 * (q + 1)) * d = 2 * (d * q) + 2 * d := by
    rw [show 2 * (q + 1) = 2 * q + 2 by omega, Nat.add_mul, Nat.mul_assoc, Nat.mul_comm q d]
  generalize d * q = p at *
  by_cases c1 : 2 * r < d
  · rw [if_pos c1, e1, e2]; omega
  · rw [if_neg c1]
    by_cases c2 : d < 2 * r
    · rw [if_pos c2, e3, e4]; omega
    · rw [if_neg c2]
      by_cases c3 : q % 2 = 0
      · rw [if_pos c3, e1, e2]; omega
      · rw [if_neg c3, e3, e4]; omega

/-- Between integers. -/
theorem rne_lower (n d k : Nat) (hd : 0 < d) (h : k * d ≤ n) : k ≤ rne n d := by
  have : k ≤ n / d := (Nat.le_div_iff_mul_le hd).2 h
  unfold rne
  split
  · exact this
  · split
    · omega
    · split <;> omega

theorem rne_upper (n d k : Nat) (hd : 0 < d) (h : n ≤ k * d) : rne n d ≤ k := by
  obtain ⟨_, h2, h3⟩ := rne_spec n d hd
  by_cases c : rne n d ≤ k
  · exact c
  · exfalso
    have hk : k + 1 ≤ rne n d := by omega
    have := Nat.mul_le_mul_right d (show 2 * (k + 1) ≤ 2 * rne n d by omega)
    have e : 2 * (k + 1) * d = 2 * (k * d) + 2 * d := by rw [show 2 * (k + 1) = 2 * k + 2 by omega, Nat.add_mul, Nat.mul_assoc]
    omega

theorem rne_exact (k d : Nat) (hd : 0 < d) : rne (k * d) d = k :=
  Nat.le_antisymm (rne_upper _ _ _ hd (Nat.le_refl _)) (rne_lower _ _ _ hd (Nat.le_refl _))

/-- A multiple of `2^e` with a significand of 52 or 53 bits is the number of the pattern `e * 2^52 + k`. -/
theorem magVal_place (e k : Nat) (h1 : k ≤ 2 ^ 53) (h2 : e = 0 ∨ 2 ^ 52 ≤ k) : magVal dbl (e * dbl.M + k) = k * 2 ^ e := by
  rw [dM]
  rcases (by omega : k < 2 ^ 52 ∨ 2 ^ 52 ≤ k) with c | c
  · have he : e = 0 := by omega
    subst he
    rw [Nat.zero_mul, Nat.zero_add, Nat.pow_zero, Nat.mul_one]
    unfold magVal
    rw [dM, if_pos (by omega), Nat.mod_eq_of_lt c]
  · obtain ⟨f, rfl⟩ : ∃ f, k = 2 ^ 52 + f := ⟨k - 2 ^ 52, by omega⟩
    have := magVal_binade dbl dM0 (e + 1) f (by omega) (by rw [dM]; omega)
    rw [dM] at this
    rw [show e * 2 ^ 52 + (2 ^ 52 + f) = (e + 1) * 2 ^ 52 + f by omega, this]
    rfl

/-- The place: `2^52 ≤ (n / d) / 2^e < 2^53`, or `e = 0` and it is below `2^53`. -/
theorem place_spec (n d : Nat) : n / d < 2 ^ (53 + lastPlace n d) ∧ (lastPlace n d = 0 ∨ 2 ^ (52 + lastPlace n d) ≤ n / d) := by
  unfold lastPlace
  by_cases c : n / d < 2 ^ 53
  · rw [if_pos c]; exact ⟨c, Or.inl rfl⟩
  · rw [if_neg c]
    have hne : n / d ≠ 0 := by intro h; rw [h] at c; exact c (by decide)
    have l1 : 2 ^ Nat.log2 (n / d) ≤ n / d := Nat.log2_self_le hne
    have l2 : n / d < 2 ^ (Nat.log2 (n / d) + 1) := Nat.lt_log2_self
    have l3 : 53 ≤ Nat.log2 (n / d) := (Nat.le_log2 hne).2 (by omega)
    refine ⟨?_, Or.inr ?_⟩
    · rw [show 53 + (Nat.log2 (n / d) - 52) = Nat.log2 (n / d) + 1 by omega]; exact l2
    · rw [show 52 + (Nat.log2 (n / d) - 52) = Nat.log2 (n / d) by omega]; exact l1

/-- The significand that is kept. -/
def sig (n d : Nat) : Nat := rne n (d * 2 ^ lastPlace n d)

theorem sig_bounds (n d : Nat) (hd : 0 < d) : sig n d ≤ 2 ^ 53 ∧ (lastPlace n d = 0 ∨ 2 ^ 52 ≤ sig n d) := by
  obtain ⟨h1, h2⟩ := place_spec n d
  unfold sig
  have hp : 0 < d * 2 ^ lastPlace n d := Nat.mul_pos hd (Nat.pow_pos (by omega))
  constructor
  · refine rne_upper _ _ _ hp ?_
    rw [Nat.div_lt_iff_lt_mul hd] at h1
    refine Nat.le_of_lt ?_
    rw [Nat.mul_comm d, ← Nat.mul_assoc, ← Nat.pow_add]
    exact h1
  · rcases h2 with h2 | h2
    · exact Or.inl h2
    · right
      refine rne_lower _ _ _ hp ?_
      rw [Nat.le_div_iff_mul_le hd] at h2
      rw [Nat.mul_comm d, ← Nat.mul_assoc, ← Nat.pow_add]
      exact h2

theorem roundMag_val (n d : Nat) (hd : 0 < d) (h : roundMag n d < dbl.I) : magVal dbl (roundMag n d) = sig n d * 2 ^ lastPlace n d ∧
    roundMag n d = lastPlace n d * dbl.M + sig n d := by
  obtain ⟨h1, h2⟩ := sig_bounds n d hd
  have e : roundMag n d = lastPlace n d * dbl.M + sig n d := by
    unfold roundMag at h ⊢
    unfold sig
    split
    · rename_i c; rw [if_pos c] at h; omega
    · rfl
  exact ⟨by rw [e, magVal_place _ _ h1 h2], e⟩

/-- The error is at most half a unit in the last place. -/
theorem roundMag_error (n d : Nat) (hd : 0 < d) (h : roundMag n d < dbl.I) :
    2 * n ≤ 2 * (magVal dbl (roundMag n d) * d) + d * 2 ^ lastPlace n d ∧ 2 * (magVal dbl (roundMag n d) * d) ≤ 2 * n + d * 2 ^ lastPlace n d := by
  rw [(roundMag_val n d hd h).1]
  have hp : 0 < d * 2 ^ lastPlace n d := Nat.mul_pos hd (Nat.pow_pos (by omega))
  obtain ⟨s1, s2, _⟩ := rne_spec n (d * 2 ^ lastPlace n d) hp
  unfold sig
  generalize rne n (d * 2 ^ lastPlace n d) = k at *
  have e : k * 2 ^ lastPlace n d * d = k * (d * 2 ^ lastPlace n d) := by rw [Nat.mul_assoc, Nat.mul_comm (2 ^ _) d]
  rw [e]
  generalize d * 2 ^ lastPlace n d = p at *
  have e1 : (2 * k + 1) * p = 2 * (k * p) + p := by rw [Nat.add_mul, Nat.one_mul, Nat.mul_assoc]
  have e2 : 2 * k * p = 2 * (k * p) := Nat.mul_assoc _ _ _
  omega

/-! ### The nearest double -/

/-- The rounded pattern before the clipping at infinity (exponents continued beyond the doubles). -/
def ext (n d : Nat) : Nat := lastPlace n d * dbl.M + sig n d

theorem roundMag_ext (n d : Nat) : roundMag n d = min dbl.I (ext n d) := by
  unfold roundMag ext sig
  split <;> omega

theorem ext_val (n d : Nat) (hd : 0 < d) : magVal dbl (ext n d) = sig n d * 2 ^ lastPlace n d := by
  obtain ⟨h1, h2⟩ := sig_bounds n d hd
  exact magVal_place _ _ h1 h2

/-- The next number above is at least `2^e` away. -/
theorem ext_above (n d m : Nat) (hd : 0 < d) (h : ext n d < m) : magVal dbl (ext n d) + 2 ^ lastPlace n d ≤ magVal dbl m := by
  refine Nat.le_trans ?_ ((magVal_le dbl dM0 (m := ext n d + 1)).2 h)
  rw [magVal_succ dbl dM0]
  refine Nat.add_le_add_left (Nat.pow_le_pow_right (by omega) ?_) _
  obtain ⟨h1, h2⟩ := sig_bounds n d hd
  unfold ext
  rcases h2 with h2 | h2
  · omega
  · have : lastPlace n d + 1 ≤ (lastPlace n d * dbl.M + sig n d) / dbl.M := by
      rw [Nat.le_div_iff_mul_le dM0, Nat.add_mul, Nat.one_mul, dM]; omega
    omega

/-- The next number below is at least `2^e` away, or the rounded one is not above `n / d`. -/
theorem ext_below (n d m : Nat) (hd : 0 < d) (h : m < ext n d) : magVal dbl m + 2 ^ lastPlace n d ≤ magVal dbl (ext n d) ∨ magVal dbl (ext n d) * d ≤ n := by
  obtain ⟨h1, h2⟩ := sig_bounds n d hd
  obtain ⟨_, p2⟩ := place_spec n d
  by_cases c : lastPlace n d ≠ 0 ∧ sig n d = 2 ^ 52
  · right
    rw [ext_val n d hd, c.2, ← Nat.pow_add]
    exact (Nat.le_div_iff_mul_le hd).1 (p2.resolve_left c.1)
  · left
    have e : ext n d - 1 + 1 = ext n d := by omega
    have hs := magVal_succ dbl dM0 (ext n d - 1)
    rw [e] at hs
    have hm := (magVal_le dbl dM0 (m := m) (n := ext n d - 1)).2 (by omega)
    have hp : 2 ^ lastPlace n d ≤ 2 ^ ((ext n d - 1) / dbl.M - 1) := by
      refine Nat.pow_le_pow_right (by omega) ?_
      unfold ext
      by_cases c0 : lastPlace n d = 0
      · omega
      · have hk : 2 ^ 52 < sig n d := by
          have := h2.resolve_left c0
          have : sig n d ≠ 2 ^ 52 := fun hh => c ⟨c0, hh⟩
          omega
        have : lastPlace n d + 1 ≤ (lastPlace n d * dbl.M + sig n d - 1) / dbl.M := by
          rw [Nat.le_div_iff_mul_le dM0, Nat.add_mul, Nat.one_mul, dM]; omega
        omega
    omega

/-- **Rounding gives the nearest number**: every other one is further away, or as far and then the pattern is even. -/
theorem roundMag_nearest (n d : Nat) (hd : 0 < d) (m : Nat) (hm : m ≠ ext n d) :
    ((magVal dbl (ext n d) * d : Nat) - (n : Int)).natAbs < ((magVal dbl m * d : Nat) - (n : Int)).natAbs ∨
    (((magVal dbl (ext n d) * d : Nat) - (n : Int)).natAbs = ((magVal dbl m * d : Nat) - (n : Int)).natAbs ∧ ext n d % 2 = 0) := by
  have hp : 0 < d * 2 ^ lastPlace n d := Nat.mul_pos hd (Nat.pow_pos (by omega))
  obtain ⟨s1, s2, s3⟩ := rne_spec n (d * 2 ^ lastPlace n d) hp
  have ev := ext_val n d hd
  have eV : magVal dbl (ext n d) * d = sig n d * (d * 2 ^ lastPlace n d) := by rw [ev, Nat.mul_assoc, Nat.mul_comm (2 ^ _) d]
  change 2 * n ≤ (2 * sig n d + 1) * _ at s1
  change 2 * sig n d * _ ≤ _ at s2
  change _ = (2 * sig n d + 1) * _ ∨ 2 * sig n d * _ = _ → sig n d % 2 = 0 at s3
  have x1 : (2 * sig n d + 1) * (d * 2 ^ lastPlace n d) = 2 * (magVal dbl (ext n d) * d) + d * 2 ^ lastPlace n d := by
    rw [eV, Nat.add_mul, Nat.one_mul, Nat.mul_assoc]
  have x2 : 2 * sig n d * (d * 2 ^ lastPlace n d) = 2 * (magVal dbl (ext n d) * d) := by rw [eV, Nat.mul_assoc]
  rw [x1] at s1 s3
  rw [x2] at s2 s3
  have par : sig n d % 2 = 0 → ext n d % 2 = 0 := by
    intro h; unfold ext; rw [dM]; omega
  have key : (m < ext n d ∧ (magVal dbl m * d + d * 2 ^ lastPlace n d ≤ magVal dbl (ext n d) * d ∨ (magVal dbl (ext n d) * d ≤ n ∧ magVal dbl m * d < magVal dbl (ext n d) * d))) ∨
      (ext n d < m ∧ magVal dbl (ext n d) * d + d * 2 ^ lastPlace n d ≤ magVal dbl m * d) := by
    rcases (by omega : m < ext n d ∨ ext n d < m) with c | c
    · left
      refine ⟨c, ?_⟩
      rcases ext_below n d m hd c with h | h
      · left
        have := Nat.mul_le_mul_right d h
        rw [Nat.add_mul, Nat.mul_comm (2 ^ _) d] at this
        exact this
      · right
        exact ⟨h, Nat.mul_lt_mul_of_pos_right (magVal_lt dbl dM0 c) hd⟩
    · right
      refine ⟨c, ?_⟩
      have := Nat.mul_le_mul_right d (ext_above n d m hd c)
      rw [Nat.add_mul, Nat.mul_comm (2 ^ _) d] at this
      exact this
  generalize magVal dbl (ext n d) * d = V at *
  generalize magVal dbl m * d = W at *
  generalize d * 2 ^ lastPlace n d = p at *
  clear eV ev x1 x2 hm
  by_cases tie : 2 * n = 2 * V + p ∨ 2 * V = 2 * n + p
  · have hev := par (s3 tie)
    by_cases heq : ((V : Int) - n).natAbs = ((W : Int) - n).natAbs
    · exact Or.inr ⟨heq, hev⟩
    · left; omega
  · left; omega

/-! ### Consequences -/

/-- A double rounds to itself. -/
theorem ext_exact (m d : Nat) (hd : 0 < d) : ext (magVal dbl m * d) d = m := by
  by_cases h : m = ext (magVal dbl m * d) d
  · exact h.symm
  · exfalso
    have h1 := roundMag_nearest (magVal dbl m * d) d hd m h
    have e : ((magVal dbl m * d : Nat) - ((magVal dbl m * d : Nat) : Int)).natAbs = 0 := by omega
    rw [e] at h1
    rcases h1 with h1 | ⟨h1, _⟩
    · omega
    · have h2 : magVal dbl (ext (magVal dbl m * d) d) * d = magVal dbl m * d := by omega
      exact h (magVal_inj dbl dM0 (Nat.eq_of_mul_eq_mul_right hd h2)).symm

theorem roundMag_exact (m d : Nat) (hd : 0 < d) (hm : m ≤ dbl.I) : roundMag (magVal dbl m * d) d = m := by
  rw [roundMag_ext, ext_exact m d hd]; omega

/-- Only the quotient matters. -/
theorem roundMag_scale (n d k : Nat) (hd : 0 < d) (hk : 0 < k) : roundMag (n * k) (d * k) = roundMag n d := by
  have h1 : lastPlace (n * k) (d * k) = lastPlace n d := by unfold lastPlace; rw [Nat.mul_div_mul_right _ _ hk]
  have h2 : ∀ D, 0 < D → rne (n * k) (D * k) = rne n D := by
    intro D _
    unfold rne
    rw [Nat.mul_div_mul_right _ _ hk, Nat.mul_mod_mul_right]
    have e1 : (2 * (n % D * k) < D * k) = (2 * (n % D) < D) := by
      rw [← Nat.mul_assoc, Nat.mul_lt_mul_right hk]
    have e2 : (D * k < 2 * (n % D * k)) = (D < 2 * (n % D)) := by
      rw [← Nat.mul_assoc, Nat.mul_lt_mul_right hk]
    simp only [e1, e2]
  unfold roundMag
  rw [h1, show d * k * 2 ^ lastPlace n d = d * 2 ^ lastPlace n d * k by rw [Nat.mul_right_comm], h2 _ (Nat.mul_pos hd (Nat.pow_pos (by omega)))]

/-- Rounding is monotone. -/
theorem ext_mono (n n' d : Nat) (hd : 0 < d) (h : n ≤ n') : ext n d ≤ ext n' d := by
  by_cases c : ext n d ≤ ext n' d
  · exact c
  · exfalso
    have hlt : ext n' d < ext n d := by omega
    have hv := Nat.mul_lt_mul_of_pos_right (magVal_lt dbl dM0 hlt) hd
    have a := roundMag_nearest n d hd (ext n' d) (by omega)
    have b := roundMag_nearest n' d hd (ext n d) (by omega)
    have hne : n ≠ n' := by intro e; subst e; omega
    omega

end Verif.Arith
