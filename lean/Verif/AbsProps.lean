import Verif.AbsModel
import Verif.ArithValue
/-!
# C179: Math.Abs of a long
-/
namespace Verif.MathAbs
open Verif.FltModel Verif.FltSpec Verif.FltProps Verif.Arith

/-! ## Specification -/

/-- A whole number of at most 53 significant bits. -/
def Bits53 (n : Nat) : Prop := ∃ k j, n = k * 2 ^ j ∧ k < 2 ^ 53

/-- `y` is as near to `n` as any whole number of 53 bits. -/
def Nearest53 (n y : Nat) : Prop := Bits53 y ∧ ∀ z, Bits53 z → ((y : Int) - n).natAbs ≤ ((z : Int) - n).natAbs

/-! ## Proof -/

theorem bits_le {n k j : Nat} (h : n = k * 2 ^ j) (hk : k ≤ 2 ^ 53) : Bits53 n := by
  by_cases c : k < 2 ^ 53
  · exact ⟨k, j, h, c⟩
  · refine ⟨1, 53 + j, ?_, by decide⟩
    rw [h, show k = 2 ^ 53 by omega, Nat.pow_add, Nat.one_mul]

theorem unit_eq : unit = 2 ^ 1074 := by unfold unit; exact Eq.refl (2 ^ 1074)

/-- The double of `n` and what it is as an integer. -/
theorem round_int (n : Nat) (hn : n < 2 ^ 63) : ∃ y, magVal dbl (roundMag (n * unit) 1) = y * unit ∧ Nearest53 n y := by
  have hu := unit_pos
  have hf : roundMag (n * unit) 1 < dbl.I := by
    have h1 : roundMag (n * unit) 1 ≤ roundMag (2 ^ 63 * unit) 1 := roundMag_mono _ _ 1 (by omega) (Nat.mul_le_mul_right _ (by omega))
    have h2 : roundMag (2 ^ 63 * unit) 1 < dbl.I := by unfold unit; decide +kernel
    omega
  have he : ext (n * unit) 1 = roundMag (n * unit) 1 := by
    have := roundMag_ext (n * unit) 1; omega
  have hv : ∃ y, magVal dbl (roundMag (n * unit) 1) = y * unit ∧ Bits53 y := by
    by_cases c : n ≤ 2 ^ 53
    · obtain ⟨m, h1, h2⟩ := exact_mag (Exact.small (i := n) (by omega))
      have h3 : n * unit = magVal dbl m := by
        rw [← h2, Int.natAbs_mul, Int.natAbs_natCast, Int.natAbs_natCast]
      refine ⟨n, ?_, bits_le (k := n) (j := 0) (by omega) c⟩
      have := roundMag_exact m 1 (by omega) (by omega)
      rw [Nat.mul_one] at this
      rw [h3, this]
    · obtain ⟨h1, _⟩ := roundMag_val (n * unit) 1 (by omega) hf
      obtain ⟨p1, _⟩ := place_spec (n * unit) 1
      rw [Nat.div_one] at p1
      have p2 : 2 ^ 53 * unit < n * unit := Nat.mul_lt_mul_of_pos_right (by omega) hu
      have p3 : (2 : Nat) ^ (53 + 1074) < 2 ^ (53 + lastPlace (n * unit) 1) := by
        rw [Nat.pow_add, ← unit_eq]; exact Nat.lt_trans p2 p1
      have p4 := (Nat.pow_lt_pow_iff_right (by omega : 1 < 2)).1 p3
      obtain ⟨j, hj⟩ : ∃ j, lastPlace (n * unit) 1 = j + 1074 := ⟨lastPlace (n * unit) 1 - 1074, by omega⟩
      refine ⟨sig (n * unit) 1 * 2 ^ j, ?_, bits_le rfl (sig_bounds _ 1 (by omega)).1⟩
      rw [h1, hj, Nat.pow_add, ← unit_eq, Nat.mul_assoc]
  obtain ⟨y, hy, hb⟩ := hv
  refine ⟨y, hy, hb, fun z hz => ?_⟩
  obtain ⟨k, j, hz, hk⟩ := hz
  obtain ⟨m, hm⟩ := exists_mag k (j + 1074) (by omega)
  have hm' : magVal dbl m = z * unit := by rw [hm, hz, Nat.pow_add, ← unit_eq, Nat.mul_assoc]
  clear hf hb hm
  generalize unit = U at *
  have key : ((y * U : Nat) - ((n * U : Nat) : Int)).natAbs ≤ ((z * U : Nat) - ((n * U : Nat) : Int)).natAbs := by
    by_cases c : m = ext (n * U) 1
    · rw [he] at c
      have e : y * U = z * U := hy.symm.trans ((congrArg (magVal dbl) c).symm.trans hm')
      rw [e]; exact Nat.le_refl _
    · have := roundMag_nearest (n * U) 1 (by omega) m c
      rw [he, hy, hm', Nat.mul_one, Nat.mul_one] at this
      rcases this with h | ⟨h, _⟩
      · exact Nat.le_of_lt h
      · exact Nat.le_of_eq h
  have fac : ∀ w : Nat, ((w * U : Nat) - ((n * U : Nat) : Int)).natAbs = ((w : Int) - n).natAbs * U := by
    intro w
    rw [Int.natCast_mul, Int.natCast_mul, ← Int.sub_mul, Int.natAbs_mul, Int.natAbs_natCast]
  rw [fac, fac] at key
  exact Nat.le_of_mul_le_mul_right key hu

theorem abs_eq (v : Int) : (if v < 0 then -v else v) = (v.natAbs : Int) := by split <;> omega

theorem absLong_eq (v : Int) (h : I64 v) (hm : v ≠ -2 ^ 63) (y : Nat) (hy : magVal dbl (roundMag (v.natAbs * unit) 1) = y * unit) :
    absLong v = if y < 2 ^ 63 then .ok (y : Int) else .ub := by
  have hu : (unit : Int) ≠ 0 := Int.natCast_ne_zero.2 (Nat.ne_of_gt unit_pos)
  have e : (if v < 0 then -v else v) = (v.natAbs : Int) := abs_eq v
  unfold absLong abs64
  rw [if_neg hm, e]
  rw [Res.bind]
  have hR : val dbl (ofInt (v.natAbs : Int)) = (y : Int) * unit := by
    rw [(ofInt_val _).2.1]
    unfold R
    have h0 : ¬ ((v.natAbs : Int) * unit < 0) := by
      rw [← Int.natCast_mul]; exact Int.not_lt.2 (Int.natCast_nonneg _)
    rw [if_neg h0, Int.natAbs_mul, Int.natAbs_natCast, Int.natAbs_natCast, hy, Int.natCast_mul]
  clear hy
  rw [toI64_val, hR, Int.mul_tdiv_cancel _ hu]
  by_cases c : y < 2 ^ 63
  · rw [if_pos c, if_pos (by clear hR; omega)]
  · rw [if_neg c, if_neg (by clear hR; omega)]

/-- **C179**, for every Int64: `long y = Math.Abs(x)` is undefined for the values from 2^63 - 512 on in size, and otherwise a nearest number of 53 bits; it is the absolute value exactly for the values whose size has 53 bits. -/
theorem C179_abs_exact (v : Int) (h : I64 v) :
    (2 ^ 63 - 512 ≤ v.natAbs → absLong v = .ub) ∧
    (v.natAbs < 2 ^ 63 - 512 → ∃ y : Nat, absLong v = .ok (y : Int) ∧ Nearest53 v.natAbs y) ∧
    (absLong v = .ok (v.natAbs : Int) ↔ Bits53 v.natAbs ∧ v ≠ -2 ^ 63) := by
  by_cases hm : v = -2 ^ 63
  · have : absLong v = .ub := by unfold absLong abs64; rw [if_pos hm]; rfl
    refine ⟨fun _ => this, fun c => absurd c (by rw [hm]; decide +kernel), fun c => ?_, fun c => absurd hm c.2⟩
    rw [this] at c; exact nomatch c
  · have hb : v.natAbs < 2 ^ 63 := by
      unfold I64 at h; omega
    obtain ⟨y, hy, hn⟩ := round_int v.natAbs hb
    have ha := absLong_eq v h hm y hy
    have hu := unit_pos
    have big : 2 ^ 63 - 512 ≤ v.natAbs → absLong v = .ub := by
      intro c
      have h1 : roundMag ((2 ^ 63 - 512) * unit) 1 ≤ roundMag (v.natAbs * unit) 1 := roundMag_mono _ _ 1 (by omega) (Nat.mul_le_mul_right _ c)
      have h2 : magVal dbl (roundMag ((2 ^ 63 - 512) * unit) 1) = 2 ^ 63 * unit := by unfold unit; decide +kernel
      have h3 := (magVal_le dbl dM0).2 h1
      rw [h2, hy] at h3
      have h4 := Nat.le_of_mul_le_mul_right h3 hu
      rw [ha, if_neg (Nat.not_lt.2 h4)]
    have small : v.natAbs < 2 ^ 63 - 512 → y < 2 ^ 63 := by
      intro c
      have h1 : roundMag (v.natAbs * unit) 1 ≤ roundMag ((2 ^ 63 - 513) * unit) 1 := roundMag_mono _ _ 1 (by omega) (Nat.mul_le_mul_right _ (Nat.le_of_lt_succ c))
      have h2 : magVal dbl (roundMag ((2 ^ 63 - 513) * unit) 1) = (2 ^ 63 - 1024) * unit := by unfold unit; decide +kernel
      have h3 := (magVal_le dbl dM0).2 h1
      rw [h2, hy] at h3
      have h4 := Nat.le_of_mul_le_mul_right h3 hu
      exact Nat.lt_of_le_of_lt h4 (by decide +kernel)
    clear hy
    refine ⟨big, fun c => ⟨y, by rw [ha, if_pos (small c)], hn⟩, fun c => ?_, fun ⟨c, _⟩ => ?_⟩
    · rw [ha] at c
      split at c
      · injection c with c
        have : y = v.natAbs := by omega
        rw [← this]; exact ⟨hn.1, by omega⟩
      · exact nomatch c
    · have h1 := hn.2 v.natAbs c
      have h2 : y = v.natAbs := by omega
      rw [ha, if_pos (by omega), h2]

/-- **C179** (partial: sizes of 53 bits). Missing: all other values (C179_refuted). -/
theorem C179_abs_partial (v : Int) (h : I64 v) (hv : Bits53 v.natAbs) (hm : v ≠ -2 ^ 63) : absLong v = .ok v.natAbs := (C179_abs_exact v h).2.2.2 ⟨hv, hm⟩

/-- The hypotheses: every value up to 2^53, and for instance -2^62. -/
example : I64 (-4611686018427387904) ∧ Bits53 (-4611686018427387904 : Int).natAbs ∧ absLong (-4611686018427387904) = .ok 4611686018427387904 :=
  ⟨by unfold I64; omega, ⟨1, 62, by decide +kernel, by decide +kernel⟩, by decide +kernel⟩

/-- **C179**, the rest refuted: `Math.Abs(9007199254740993)` as a long is 9007199254740992, and `Math.Abs(9223372036854775807)` is undefined. -/
theorem C179_refuted : absLong 9007199254740993 = .ok 9007199254740992 ∧ absLong (-9007199254740993) = .ok 9007199254740992 ∧ absLong 9223372036854775807 = .ub ∧ absLong (-9223372036854775808) = .ub := by
  refine ⟨by decide +kernel, by decide +kernel, by decide +kernel, by decide +kernel⟩

end Verif.MathAbs
