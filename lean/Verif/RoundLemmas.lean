import Verif.RoundModel
import Verif.ArithValue
/-!
# Rounding to either floating-point format: exactness, error, nearest
-/
namespace Verif.Rnd
open Verif.FltModel Verif.FltSpec Verif.FltProps
open Verif.Arith (rne rne_spec rne_lower rne_upper rne_exact)

/-- What the proofs need of a format. -/
structure IsBin (F : Fmt) : Prop where
  M : F.M = 2 ^ fbits F
  bits : 2 ≤ fbits F
  I : F.I % F.M = 0
  S : F.I < F.S

theorem bin_dbl : IsBin dbl := ⟨by decide +kernel, by decide +kernel, by decide, by decide⟩
theorem bin_sgl : IsBin sgl := ⟨by decide +kernel, by decide +kernel, by decide, by decide⟩

variable {F : Fmt}

theorem M0 (h0 : IsBin F) : 0 < F.M := by rw [h0.M]; exact Nat.two_pow_pos _

/-- A multiple of `2^e` with a significand of at most `fbits + 1` bits is the number of the pattern `e * 2^fbits F + k`. -/
theorem magVal_place (h0 : IsBin F) (e k : Nat) (h1 : k ≤ 2 ^ (fbits F + 1)) (h2 : e = 0 ∨ 2 ^ fbits F ≤ k) : magVal F (e * F.M + k) = k * 2 ^ e := by
  rw [h0.M]
  rcases (by omega : k < 2 ^ fbits F ∨ 2 ^ fbits F ≤ k) with c | c
  · have he : e = 0 := by omega
    subst he
    rw [Nat.zero_mul, Nat.zero_add, Nat.pow_zero, Nat.mul_one]
    unfold magVal
    rw [h0.M, if_pos (Nat.div_eq_of_lt c), Nat.mod_eq_of_lt c]
  · obtain ⟨f, rfl⟩ : ∃ f, k = 2 ^ fbits F + f := ⟨k - 2 ^ fbits F, by omega⟩
    have := magVal_binade F (M0 h0) (e + 1) f (by omega) (by rw [h0.M]; omega)
    rw [h0.M] at this
    rw [show e * 2 ^ fbits F + (2 ^ fbits F + f) = (e + 1) * 2 ^ fbits F + f by rw [Nat.add_mul, Nat.one_mul]; omega, this]
    rfl

/-- The place: `2^fbits ≤ (n / d) / 2^e < 2^(fbits+1)`, or `e = 0` and it is below `2^(fbits+1)`. -/
theorem place_spec (n d : Nat) : n / d < 2 ^ (fbits F + 1 + lastPlace F n d) ∧ (lastPlace F n d = 0 ∨ 2 ^ (fbits F + lastPlace F n d) ≤ n / d) := by
  unfold lastPlace
  by_cases c : n / d < 2 ^ (fbits F + 1)
  · rw [if_pos c]; exact ⟨c, Or.inl rfl⟩
  · rw [if_neg c]
    have hne : n / d ≠ 0 := by intro h; rw [h] at c; exact c (Nat.two_pow_pos _)
    have l1 : 2 ^ Nat.log2 (n / d) ≤ n / d := Nat.log2_self_le hne
    have l2 : n / d < 2 ^ (Nat.log2 (n / d) + 1) := Nat.lt_log2_self
    have l3 : fbits F + 1 ≤ Nat.log2 (n / d) := (Nat.le_log2 hne).2 (by omega)
    refine ⟨?_, Or.inr ?_⟩
    · rw [show fbits F + 1 + (Nat.log2 (n / d) - fbits F) = Nat.log2 (n / d) + 1 by omega]; exact l2
    · rw [show fbits F + (Nat.log2 (n / d) - fbits F) = Nat.log2 (n / d) by omega]; exact l1

/-- The significand that is kept. -/
def sig (F : Fmt) (n d : Nat) : Nat := rne n (d * 2 ^ lastPlace F n d)

theorem sig_bounds (h0 : IsBin F) (n d : Nat) (hd : 0 < d) : sig F n d ≤ 2 ^ (fbits F + 1) ∧ (lastPlace F n d = 0 ∨ 2 ^ fbits F ≤ sig F n d) := by
  obtain ⟨h1, h2⟩ := place_spec n d
  unfold sig
  have hp : 0 < d * 2 ^ lastPlace F n d := Nat.mul_pos hd (Nat.pow_pos (by omega))
  constructor
  · refine rne_upper _ _ _ hp ?_
    rw [Nat.div_lt_iff_lt_mul hd] at h1
    refine Nat.le_of_lt ?_
    rw [Nat.mul_comm d, ← Nat.mul_assoc, ← Nat.pow_add]
    exact h1
  · rcases h2 with h2 | h2
    · exact Or.inl h2
    · right
      refine rne_lower _ _ _ hp ?_
      rw [Nat.le_div_iff_mul_le hd] at h2
      rw [Nat.mul_comm d, ← Nat.mul_assoc, ← Nat.pow_add]
      exact h2

theorem roundMag_val (h0 : IsBin F) (n d : Nat) (hd : 0 < d) (h : roundMag F n d < F.I) : magVal F (roundMag F n d) = sig F n d * 2 ^ lastPlace F n d ∧
    roundMag F n d = lastPlace F n d * F.M + sig F n d := by
  obtain ⟨h1, h2⟩ := sig_bounds h0 n d hd
  have e : roundMag F n d = lastPlace F n d * F.M + sig F n d := by
    unfold roundMag at h ⊢
    unfold sig
    split
    · rename_i c; rw [if_pos c] at h; omega
    · rfl
  exact ⟨by rw [e, magVal_place h0 _ _ h1 h2], e⟩

/-- The error is at most half a unit in the last place. -/
theorem roundMag_error (h0 : IsBin F) (n d : Nat) (hd : 0 < d) (h : roundMag F n d < F.I) :
    2 * n ≤ 2 * (magVal F (roundMag F n d) * d) + d * 2 ^ lastPlace F n d ∧ 2 * (magVal F (roundMag F n d) * d) ≤ 2 * n + d * 2 ^ lastPlace F n d := by
  rw [(roundMag_val h0 n d hd h).1]
  have hp : 0 < d * 2 ^ lastPlace F n d := Nat.mul_pos hd (Nat.pow_pos (by omega))
  obtain ⟨s1, s2, _⟩ := rne_spec n (d * 2 ^ lastPlace F n d) hp
  unfold sig
  generalize rne n (d * 2 ^ lastPlace F n d) = k at *
  have e : k * 2 ^ lastPlace F n d * d = k * (d * 2 ^ lastPlace F n d) := by rw [Nat.mul_assoc, Nat.mul_comm (2 ^ _) d]
  rw [e]
  generalize d * 2 ^ lastPlace F n d = p at *
  have e1 : (2 * k + 1) * p = 2 * (k * p) + p := by rw [Nat.add_mul, Nat.one_mul, Nat.mul_assoc]
  have e2 : 2 * k * p = 2 * (k * p) := Nat.mul_assoc _ _ _
  omega

/-! ### The nearest double -/

/-- The rounded pattern before the clipping at infinity (exponents continued beyond the doubles). -/
def ext (F : Fmt) (n d : Nat) : Nat := lastPlace F n d * F.M + sig F n d

theorem roundMag_ext (n d : Nat) : roundMag F n d = min F.I (ext F n d) := by
  unfold roundMag ext sig
  split <;> omega

theorem ext_val (h0 : IsBin F) (n d : Nat) (hd : 0 < d) : magVal F (ext F n d) = sig F n d * 2 ^ lastPlace F n d := by
  obtain ⟨h1, h2⟩ := sig_bounds h0 n d hd
  exact magVal_place h0 _ _ h1 h2

/-- The next number above is at least `2^e` away. -/
theorem ext_above (h0 : IsBin F) (n d m : Nat) (hd : 0 < d) (h : ext F n d < m) : magVal F (ext F n d) + 2 ^ lastPlace F n d ≤ magVal F m := by
  refine Nat.le_trans ?_ ((magVal_le F (M0 h0) (m := ext F n d + 1)).2 h)
  rw [magVal_succ F (M0 h0)]
  refine Nat.add_le_add_left (Nat.pow_le_pow_right (by omega) ?_) _
  obtain ⟨h1, h2⟩ := sig_bounds h0 n d hd
  unfold ext
  rcases h2 with h2 | h2
  · omega
  · have : lastPlace F n d + 1 ≤ (lastPlace F n d * F.M + sig F n d) / F.M := by
      rw [Nat.le_div_iff_mul_le (M0 h0), Nat.add_mul, Nat.one_mul, h0.M]; omega
    omega

/-- The next number below is at least `2^e` away, or the rounded one is not above `n / d`. -/
theorem ext_below (h0 : IsBin F) (n d m : Nat) (hd : 0 < d) (h : m < ext F n d) : magVal F m + 2 ^ lastPlace F n d ≤ magVal F (ext F n d) ∨ magVal F (ext F n d) * d ≤ n := by
  obtain ⟨h1, h2⟩ := sig_bounds h0 n d hd
  obtain ⟨_, p2⟩ := place_spec n d
  by_cases c : lastPlace F n d ≠ 0 ∧ sig F n d = 2 ^ fbits F
  · right
    rw [ext_val h0 n d hd, c.2, ← Nat.pow_add]
    exact (Nat.le_div_iff_mul_le hd).1 (p2.resolve_left c.1)
  · left
    have e : ext F n d - 1 + 1 = ext F n d := by omega
    have hs := magVal_succ F (M0 h0) (ext F n d - 1)
    rw [e] at hs
    have hm := (magVal_le F (M0 h0) (m := m) (n := ext F n d - 1)).2 (by omega)
    have hp : 2 ^ lastPlace F n d ≤ 2 ^ ((ext F n d - 1) / F.M - 1) := by
      refine Nat.pow_le_pow_right (by omega) ?_
      unfold ext
      by_cases c0 : lastPlace F n d = 0
      · omega
      · have hk : 2 ^ fbits F < sig F n d := by
          have := h2.resolve_left c0
          have : sig F n d ≠ 2 ^ fbits F := fun hh => c ⟨c0, hh⟩
          omega
        have : lastPlace F n d + 1 ≤ (lastPlace F n d * F.M + sig F n d - 1) / F.M := by
          rw [Nat.le_div_iff_mul_le (M0 h0), Nat.add_mul, Nat.one_mul, h0.M]; omega
        omega
    omega

/-- **Rounding gives the nearest number**: every other one is further away, or as far and then the pattern is even. -/
theorem roundMag_nearest (h0 : IsBin F) (n d : Nat) (hd : 0 < d) (m : Nat) (hm : m ≠ ext F n d) :
    ((magVal F (ext F n d) * d : Nat) - (n : Int)).natAbs < ((magVal F m * d : Nat) - (n : Int)).natAbs ∨
    (((magVal F (ext F n d) * d : Nat) - (n : Int)).natAbs = ((magVal F m * d : Nat) - (n : Int)).natAbs ∧ ext F n d % 2 = 0) := by
  have hp : 0 < d * 2 ^ lastPlace F n d := Nat.mul_pos hd (Nat.pow_pos (by omega))
  obtain ⟨s1, s2, s3⟩ := rne_spec n (d * 2 ^ lastPlace F n d) hp
  have ev := ext_val h0 n d hd
  have eV : magVal F (ext F n d) * d = sig F n d * (d * 2 ^ lastPlace F n d) := by rw [ev, Nat.mul_assoc, Nat.mul_comm (2 ^ _) d]
  change 2 * n ≤ (2 * sig F n d + 1) * _ at s1
  change 2 * sig F n d * _ ≤ _ at s2
  change _ = (2 * sig F n d + 1) * _ ∨ 2 * sig F n d * _ = _ → sig F n d % 2 = 0 at s3
  have x1 : (2 * sig F n d + 1) * (d * 2 ^ lastPlace F n d) = 2 * (magVal F (ext F n d) * d) + d * 2 ^ lastPlace F n d := by
    rw [eV, Nat.add_mul, Nat.one_mul, Nat.mul_assoc]
  have x2 : 2 * sig F n d * (d * 2 ^ lastPlace F n d) = 2 * (magVal F (ext F n d) * d) := by rw [eV, Nat.mul_assoc]
  rw [x1] at s1 s3
  rw [x2] at s2 s3
  have par : sig F n d % 2 = 0 → ext F n d % 2 = 0 := by
    intro h
    unfold ext
    have h2 : F.M % 2 = 0 := by
      rw [h0.M]; have := h0.bits
      rw [show fbits F = (fbits F - 1) + 1 by omega, Nat.pow_succ]; omega
    rw [Nat.add_mod, Nat.mul_mod, h2, h]; simp
  have key : (m < ext F n d ∧ (magVal F m * d + d * 2 ^ lastPlace F n d ≤ magVal F (ext F n d) * d ∨ (magVal F (ext F n d) * d ≤ n ∧ magVal F m * d < magVal F (ext F n d) * d))) ∨
      (ext F n d < m ∧ magVal F (ext F n d) * d + d * 2 ^ lastPlace F n d ≤ magVal F m * d) := by
    rcases (by omega : m < ext F n d ∨ ext F n d < m) with c | c
    · left
      refine ⟨c, ?_⟩
      rcases ext_below h0 n d m hd c with h | h
      · left
        have := Nat.mul_le_mul_right d h
        rw [Nat.add_mul, Nat.mul_comm (2 ^ _) d] at this
        exact this
      · right
        exact ⟨h, Nat.mul_lt_mul_of_pos_right (magVal_lt F (M0 h0) c) hd⟩
    · right
      refine ⟨c, ?_⟩
      have := Nat.mul_le_mul_right d (ext_above h0 n d m hd c)
      rw [Nat.add_mul, Nat.mul_comm (2 ^ _) d] at this
      exact this
  generalize magVal F (ext F n d) * d = V at *
  generalize magVal F m * d = W at *
  generalize d * 2 ^ lastPlace F n d = p at *
  clear eV ev x1 x2 hm
  by_cases tie : 2 * n = 2 * V + p ∨ 2 * V = 2 * n + p
  · have hev := par (s3 tie)
    by_cases heq : ((V : Int) - n).natAbs = ((W : Int) - n).natAbs
    · exact Or.inr ⟨heq, hev⟩
    · left; omega
  · left; omega

/-! ### Consequences -/

/-- A double rounds to itself. -/
theorem ext_exact (h0 : IsBin F) (m d : Nat) (hd : 0 < d) : ext F (magVal F m * d) d = m := by
  by_cases h : m = ext F (magVal F m * d) d
  · exact h.symm
  · exfalso
    have h1 := roundMag_nearest h0 (magVal F m * d) d hd m h
    have e : ((magVal F m * d : Nat) - ((magVal F m * d : Nat) : Int)).natAbs = 0 := by omega
    rw [e] at h1
    rcases h1 with h1 | ⟨h1, _⟩
    · omega
    · have h2 : magVal F (ext F (magVal F m * d) d) * d = magVal F m * d := by omega
      exact h (magVal_inj F (M0 h0) (Nat.eq_of_mul_eq_mul_right hd h2)).symm

theorem roundMag_exact (h0 : IsBin F) (m d : Nat) (hd : 0 < d) (hm : m ≤ F.I) : roundMag F (magVal F m * d) d = m := by
  rw [roundMag_ext, ext_exact h0 m d hd]; omega

/-- Only the quotient matters. -/
theorem roundMag_scale (n d k : Nat) (hd : 0 < d) (hk : 0 < k) : roundMag F (n * k) (d * k) = roundMag F n d := by
  have h1 : lastPlace F (n * k) (d * k) = lastPlace F n d := by unfold lastPlace; rw [Nat.mul_div_mul_right _ _ hk]
  have h2 : ∀ D, 0 < D → rne (n * k) (D * k) = rne n D := by
    intro D _
    unfold rne
    rw [Nat.mul_div_mul_right _ _ hk, Nat.mul_mod_mul_right]
    have e1 : (2 * (n % D * k) < D * k) = (2 * (n % D) < D) := by
      rw [← Nat.mul_assoc, Nat.mul_lt_mul_right hk]
    have e2 : (D * k < 2 * (n % D * k)) = (D < 2 * (n % D)) := by
      rw [← Nat.mul_assoc, Nat.mul_lt_mul_right hk]
    simp only [e1, e2]
  unfold roundMag
  rw [h1, show d * k * 2 ^ lastPlace F n d = d * 2 ^ lastPlace F n d * k by rw [Nat.mul_right_comm], h2 _ (Nat.mul_pos hd (Nat.pow_pos (by omega)))]

/-- Rounding is monotone. -/
theorem ext_mono (h0 : IsBin F) (n n' d : Nat) (hd : 0 < d) (h : n ≤ n') : ext F n d ≤ ext F n' d := by
  by_cases c : ext F n d ≤ ext F n' d
  · exact c
  · exfalso
    have hlt : ext F n' d < ext F n d := by omega
    have hv := Nat.mul_lt_mul_of_pos_right (magVal_lt F (M0 h0) hlt) hd
    have a := roundMag_nearest h0 n d hd (ext F n' d) (by omega)
    have b := roundMag_nearest h0 n' d hd (ext F n d) (by omega)
    have hne : n ≠ n' := by intro e; subst e; omega
    omega

theorem fbits_dbl : fbits dbl = 52 := by decide +kernel
theorem fbits_sgl : fbits sgl = 23 := by decide +kernel
theorem places_dbl : places dbl = 1074 := by decide +kernel
theorem places_sgl : places sgl = 149 := by decide +kernel

/-- For doubles it is the rounding of ArithModel. -/
theorem roundMag_dbl (n d : Nat) : roundMag dbl n d = Arith.roundMag n d := by
  unfold roundMag Arith.roundMag lastPlace Arith.lastPlace
  rw [fbits_dbl]

theorem roundMag_le (n d : Nat) : roundMag F n d ≤ F.I := by rw [roundMag_ext]; omega

theorem roundMag_mono (h0 : IsBin F) (n n' d : Nat) (hd : 0 < d) (h : n ≤ n') : roundMag F n d ≤ roundMag F n' d := by
  rw [roundMag_ext, roundMag_ext]
  have := ext_mono h0 n n' d hd h
  omega

theorem pack_parts (h0 : IsBin F) (s : Bool) (m : Nat) (hm : m ≤ F.I) : neg F (pack F s m) = s ∧ mag F (pack F s m) = m ∧ pack F s m < 2 * F.S := by
  have h := h0.S
  unfold pack neg mag
  cases s
  · simp only [Bool.false_eq_true, if_false, Nat.zero_add]
    refine ⟨decide_eq_false (by omega), Nat.mod_eq_of_lt (by omega), by omega⟩
  · simp only [if_true]
    refine ⟨decide_eq_true (by omega), ?_, by omega⟩
    rw [Nat.add_mod_left, Nat.mod_eq_of_lt (by omega)]

end Verif.Rnd
