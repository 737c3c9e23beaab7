import Verif.FloatIeeeProps
/-!
# C133 continued: two whole constants

A `float` constant that is a whole number is written as an integer, so where both operands are such constants the C++ computes with integers.
-/
namespace Verif.FloatExpr
open Verif.FltModel Verif.FltSpec Verif.FltProps Verif.Rnd Verif.FloatText Verif.FloatTextSpec

theorem sgl_large : 2 ^ 24 * 2 ^ places sgl < magVal sgl sgl.I := by decide +kernel

theorem small_mag (n : Nat) (h : n ≤ 2 ^ 24) : ∃ m, m < sgl.I ∧ magVal sgl m = n * 2 ^ places sgl := by
  obtain ⟨m, hm⟩ := exists_mag bin_sgl n (places sgl) (by rw [fbits_sgl]; exact h)
  refine ⟨m, ?_, hm⟩
  by_contra hc
  have h1 := (magVal_le sgl (M0 bin_sgl)).2 (show sgl.I ≤ m by omega)
  have h2 := sgl_large
  have h3 := Nat.mul_le_mul_right (2 ^ places sgl) h
  generalize 2 ^ places sgl = P at *
  omega

/-- What a small whole number is as a float. -/
theorem whole_facts (n : Int) (h : n.natAbs ≤ 2 ^ 24) : nan sgl (ofInt sgl n) = false ∧ mag sgl (ofInt sgl n) ≠ sgl.I ∧ neg sgl (ofInt sgl n) = decide (n < 0) ∧
    magVal sgl (mag sgl (ofInt sgl n)) = n.natAbs * 2 ^ places sgl ∧ mag sgl (ofInt sgl n) < sgl.I ∧ ofInt sgl n < 2 * sgl.S := by
  obtain ⟨m, h1, h2⟩ := small_mag n.natAbs h
  have e : ofInt sgl n = pack sgl (decide (n < 0)) m := by
    unfold ofInt
    rw [← h2]
    have := roundMag_exact bin_sgl m 1 Nat.one_pos (le_of_lt h1)
    rw [Nat.mul_one] at this
    rw [this]
  obtain ⟨p1, p2, p3⟩ := pack_parts bin_sgl (decide (n < 0)) m (le_of_lt h1)
  rw [e, p1, p2]
  refine ⟨(nan_false _).2 (by rw [p2]; omega), by omega, rfl, h2, h1, p3⟩

theorem whole_val (n : Int) (h : n.natAbs ≤ 2 ^ 24) : val sgl (ofInt sgl n) = n * ((2 ^ places sgl : Nat) : Int) := by
  obtain ⟨_, _, h3, h4, _⟩ := whole_facts n h
  rw [val_signed, h3, h4]
  generalize 2 ^ places sgl = P
  unfold signed
  by_cases c : n < 0
  · rw [if_pos (by simpa using c), Nat.cast_mul]
    have : (n.natAbs : Int) = -n := by omega
    rw [this, Int.neg_mul, Int.neg_neg]
  · rw [if_neg (by simpa using c), Nat.cast_mul]
    have : (n.natAbs : Int) = n := by omega
    rw [this]

theorem whole_number (n : Int) (h : n.natAbs ≤ 2 ^ 24) : number sgl (ofInt sgl n) = n := by
  rw [number_val, whole_val n h]
  have := places_pos sgl
  rw [Int.cast_mul, Int.cast_natCast, Nat.cast_pow, Nat.cast_ofNat, mul_div_assoc, div_self (ne_of_gt this), mul_one]

theorem whole_class (n : Int) (h : n.natAbs ≤ 2 ^ 24) : classOf sgl (ofInt sgl n) ≠ .nan := by
  have h5 := (whole_facts n h).2.2.2.2.1
  exact ((class_fin (facts (Or.inr rfl)) _).2 h5).1

theorem whole_add (m n : Int) (hm : m.natAbs ≤ 2 ^ 24) (hn : n.natAbs ≤ 2 ^ 24) : add sgl (ofInt sgl m) (ofInt sgl n) = ofInt sgl (m + n) := by
  obtain ⟨a1, a2, a3, _⟩ := whole_facts m hm
  obtain ⟨b1, b2, b3, _⟩ := whole_facts n hn
  unfold add
  rw [a1, b1, if_neg (by decide), if_neg a2, if_neg b2, whole_val m hm, whole_val n hn, ← Int.add_mul, a3, b3]
  have hP : 0 < 2 ^ places sgl := Nat.two_pow_pos _
  unfold ofInt
  generalize 2 ^ places sgl = P at *
  by_cases c : m + n = 0
  · rw [if_pos (by rw [c, Int.zero_mul]), c]
    have e : (decide (m < 0) && decide (n < 0)) = decide ((0 : Int) < 0) := by
      rw [Bool.eq_iff_iff]; simp; omega
    rw [e, Int.natAbs_zero, Nat.zero_mul]
    have := roundMag_exact bin_sgl 0 1 Nat.one_pos (Nat.zero_le _)
    rw [magVal_zero, Nat.zero_mul] at this
    rw [this]
  · have h1 : (m + n) * (P : Int) ≠ 0 := Int.mul_ne_zero c (by omega)
    rw [if_neg h1, Int.natAbs_mul, Int.natAbs_natCast]
    congr 1
    rw [decide_eq_decide]
    constructor
    · intro h
      by_contra h2
      have := Int.mul_nonneg (show 0 ≤ m + n by omega) (show (0 : Int) ≤ P by omega)
      omega
    · intro h; exact Int.mul_neg_of_neg_of_pos h (by omega)

theorem whole_negate (n : Int) (hn : n.natAbs ≤ 2 ^ 24) (h0 : n ≠ 0) : negate sgl (ofInt sgl n) = ofInt sgl (-n) := by
  obtain ⟨m, h1, h2⟩ := small_mag n.natAbs hn
  have hr : roundMag sgl (n.natAbs * 2 ^ places sgl) 1 = m := by
    have := roundMag_exact bin_sgl m 1 Nat.one_pos (le_of_lt h1)
    rwa [Nat.mul_one, h2] at this
  obtain ⟨p1, p2, p3⟩ := pack_parts bin_sgl (decide (n < 0)) m (le_of_lt h1)
  unfold ofInt negate
  rw [Int.natAbs_neg, hr, p1, p2]
  congr 1
  rw [Bool.eq_iff_iff]; simp; omega

theorem whole_sub (m n : Int) (hm : m.natAbs ≤ 2 ^ 24) (hn : n.natAbs ≤ 2 ^ 24) : sub sgl (ofInt sgl m) (ofInt sgl n) = ofInt sgl (m - n) := by
  obtain ⟨b1, b2, b3, b4, b5, b6⟩ := whole_facts n hn
  unfold sub
  rw [b1, if_neg (by decide)]
  by_cases c : n = 0
  · subst c
    obtain ⟨a1, a2, a3, a4, a5, a6⟩ := whole_facts m hm
    obtain ⟨n1, n2, n3, n4⟩ := negate_parts (F := sgl) (Or.inr rfl) (ofInt sgl 0) b1
    have hz : magVal sgl (mag sgl (ofInt sgl 0)) = 0 := by rw [b4, Int.natAbs_zero, Nat.zero_mul]
    have hv : val sgl (negate sgl (ofInt sgl 0)) = 0 := by rw [val_signed, n3, hz]; unfold signed; simp
    unfold add
    rw [a1, n1, if_neg (by decide), if_neg a2, if_neg (by rw [n3]; exact b2), hv, Int.add_zero, whole_val m hm, a3, n2, b3]
    have hP : 0 < 2 ^ places sgl := Nat.two_pow_pos _
    unfold ofInt
    generalize 2 ^ places sgl = P at *
    rw [Int.sub_zero]
    by_cases c : m = 0
    · subst c
      rw [if_pos (Int.zero_mul _), Int.natAbs_zero, Nat.zero_mul]
      have := roundMag_exact bin_sgl 0 1 Nat.one_pos (Nat.zero_le _)
      rw [magVal_zero, Nat.zero_mul] at this
      rw [this]; rfl
    · rw [if_neg (Int.mul_ne_zero c (by omega)), Int.natAbs_mul, Int.natAbs_natCast]
      congr 1
      rw [decide_eq_decide]
      constructor
      · intro h
        by_contra h2
        have := Int.mul_nonneg (show 0 ≤ m by omega) (show (0 : Int) ≤ P by omega)
        omega
      · intro h; exact Int.mul_neg_of_neg_of_pos h (by omega)
  · rw [whole_negate n hn c, whole_add m (-n) hm (by rw [Int.natAbs_neg]; exact hn)]
    rfl

theorem whole_mul (m n : Int) (hm : m.natAbs ≤ 2 ^ 24) (hn : n.natAbs ≤ 2 ^ 24) (h0 : m * n ≠ 0 ∨ 0 ≤ m ∧ 0 ≤ n) : mul sgl (ofInt sgl m) (ofInt sgl n) = ofInt sgl (m * n) := by
  obtain ⟨a1, a2, a3, a4, _⟩ := whole_facts m hm
  obtain ⟨b1, b2, b3, b4, _⟩ := whole_facts n hn
  unfold mul
  rw [a1, b1, if_neg (by decide), if_neg (by rw [not_or]; exact ⟨a2, b2⟩), a3, b3, a4, b4]
  have hP : 0 < 2 ^ places sgl := Nat.two_pow_pos _
  unfold ofInt
  generalize 2 ^ places sgl = P at *
  have e : m.natAbs * P * (n.natAbs * P) = (m * n).natAbs * P * P := by rw [Int.natAbs_mul]; ring
  have hs := roundMag_scale (F := sgl) ((m * n).natAbs * P) 1 P Nat.one_pos hP
  rw [Nat.one_mul] at hs
  rw [e, hs]
  congr 1
  rw [Bool.eq_iff_iff]
  simp only [bne_iff_ne, ne_eq, decide_eq_decide, decide_eq_true_eq]
  have hlt : m * n < 0 ↔ (m < 0 ∧ 0 < n) ∨ (0 < m ∧ n < 0) := by
    constructor
    · intro h
      rcases Int.lt_trichotomy m 0 with c | c | c
      · left; refine ⟨c, ?_⟩; by_contra h2
        have := Int.mul_nonneg_of_nonpos_of_nonpos (show m ≤ 0 by omega) (show n ≤ 0 by omega); omega
      · subst c; simp at h
      · right; refine ⟨c, ?_⟩; by_contra h2
        have := Int.mul_nonneg (show 0 ≤ m by omega) (show 0 ≤ n by omega); omega
    · rintro (⟨h1, h2⟩ | ⟨h1, h2⟩)
      · exact Int.mul_neg_of_neg_of_pos h1 h2
      · exact Int.mul_neg_of_pos_of_neg h1 h2
  rw [hlt]
  rcases h0 with h | h
  · have : m ≠ 0 := by rintro rfl; simp at h
    have : n ≠ 0 := by rintro rfl; simp at h
    omega
  · omega

/-- Integers compared. -/
def Holds : Rel → Int → Int → Prop
  | .eq, a, b => a = b
  | .ne, a, b => a ≠ b
  | .lt, a, b => a < b
  | .le, a, b => a ≤ b
  | .gt, a, b => b < a
  | .ge, a, b => b ≤ a

/-- **C133**, two whole constants (partial): the translation compares the integers, which is the source's outcome, and a sum, a difference or a product stored in a `float` variable is the source's value. Not covered: a
product that is zero because of a zero and a negative factor (below), one that does not fit an `int`, and quotients and remainders (`C133_store_partial` has them). -/
theorem C133_literals_partial (env : Env) (m n : Int) (hm : m.natAbs ≤ 2 ^ 24) (hn : n.natAbs ≤ 2 ^ 24) :
    (∀ o, (cppComp env o (.whole m) (.whole n) = true ↔ Holds o m n) ∧ (ilComp env o (.whole m) (.whole n) = true ↔ Holds o m n)) ∧
    cppStore env .f4 (.bin .add (.whole m) (.whole n)) = (X.bin .add (.whole m) (.whole n)).eval env ∧
    cppStore env .f4 (.bin .sub (.whole m) (.whole n)) = (X.bin .sub (.whole m) (.whole n)).eval env ∧
    (m * n ≠ 0 ∨ 0 ≤ m ∧ 0 ≤ n → cppStore env .f4 (.bin .mul (.whole m) (.whole n)) = (X.bin .mul (.whole m) (.whole n)).eval env) := by
  refine ⟨fun o => ⟨?_, ?_⟩, ?_, ?_, fun h => ?_⟩
  · cases o <;> simp [cppComp, tr, CX.eval, V.common, Holds]
  · obtain ⟨h1, h2, h3, h4, h5, h6⟩ := (C133_relations sgl (Or.inr rfl) (ofInt sgl m) (ofInt sgl n)).1 (whole_class m hm) (whole_class n hn)
    rw [whole_number m hm, whole_number n hn] at h1 h2 h3 h4 h5 h6
    show rel sgl o (ofInt sgl m) (ofInt sgl n) = true ↔ _
    cases o <;> unfold Holds
    · rw [h1]; exact Int.cast_inj
    · rw [h2]; exact Int.cast_inj.not
    · rw [h3]; exact Int.cast_lt
    · rw [h4]; exact Int.cast_le
    · rw [h5]; exact Int.cast_lt
    · rw [h6]; exact Int.cast_le
  · exact (whole_add m n hm hn).symm
  · exact (whole_sub m n hm hn).symm
  · exact (whole_mul m n hm hn h).symm

example : (-3 : Int).natAbs ≤ 2 ^ 24 ∧ (16777216 : Int).natAbs ≤ 2 ^ 24 ∧ (-3 : Int) * 16777216 ≠ 0 ∧ cppStore ⟨fun _ => 0, fun _ => 0, fun _ => 0⟩ .f4 (.bin .sub (.whole 16777216) (.whole (-3))) = 0x4B800002 := by decide +kernel

/-- C133 (refuted): `0f * -5f` is -0 in the source, 0 in the translation, so the signs of infinities computed from it differ. -/
theorem C133_zero_product_refuted (env : Env) : (X.bin .mul (.whole 0) (.whole (-5))).eval env = 0x80000000 ∧ cppStore env .f4 (.bin .mul (.whole 0) (.whole (-5))) = 0 := by
  refine ⟨?_, ?_⟩
  · show mul sgl (ofInt sgl 0) (ofInt sgl (-5)) = _
    decide +kernel
  · show ofInt sgl (0 * -5) = 0
    decide +kernel

end Verif.FloatExpr
