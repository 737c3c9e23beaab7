import Verif.FloatMathProps
set_option linter.unusedSimpArgs false
set_option linter.unusedVariables false
/-!
# Math.Round(Double) (C74)
-/
namespace Verif.FltProps
open FltModel FltSpec

/-- One, in units of the least positive double (2^-1074). -/
def one : Int := 2 ^ 1074

/-- `n` is the integer nearest to the number `v / one`, the even one of two equally near. -/
def NearestEven (v n : Int) : Prop := 2 * (v - n * one).natAbs ≤ one ∧ (2 * (v - n * one).natAbs = one → n % 2 = 0)

/-- A nearest-even integer is unique. -/
theorem nearestEven_unique {v m n : Int} (hm : NearestEven v m) (hn : NearestEven v n) : m = n := by
  unfold NearestEven at *
  have hp : 0 < one := by decide +kernel
  generalize one = u at *
  have key : ∀ k l : Int, 2 * (v - k * u).natAbs ≤ u → (2 * (v - k * u).natAbs = u → k % 2 = 0) →
      2 * (v - l * u).natAbs ≤ u → (2 * (v - l * u).natAbs = u → l % 2 = 0) → ¬ k < l := by
    intro k l a1 a2 b1 b2 hlt
    have e : l * u = k * u + (l - k) * u := by rw [← Int.add_mul]; congr 1; omega
    have hle : 1 * u ≤ (l - k) * u := Int.mul_le_mul_of_nonneg_right (by omega) (by omega)
    rcases (by omega : l - k = 1 ∨ 2 ≤ l - k) with c | c
    · rw [c, Int.one_mul] at e
      generalize k * u = ku at *
      generalize l * u = lu at *
      have := a2 (by omega)
      have := b2 (by omega)
      omega
    · have hle : 2 * u ≤ (l - k) * u := Int.mul_le_mul_of_nonneg_right c (by omega)
      omega
  have := key m n hm.1 hm.2 hn.1 hn.2
  have := key n m hn.1 hn.2 hm.1 hm.2
  omega

/-- The numbers with exponent field `e ≥ 1`, the next power of two included, are evenly spaced. -/
theorem magVal_binade (F : Fmt) (h : 0 < F.M) (e f : Nat) (he : 1 ≤ e) (hf : f ≤ F.M) :
    magVal F (e * F.M + f) = (F.M + f) * 2 ^ (e - 1) := by
  have h0 : ∀ f, f < F.M → magVal F (e * F.M + f) = (F.M + f) * 2 ^ (e - 1) := by
    intro f hf
    unfold magVal
    have d : (e * F.M + f) / F.M = e := by rw [Nat.mul_comm, Nat.mul_add_div h, Nat.div_eq_of_lt hf]; rfl
    have m : (e * F.M + f) % F.M = f := by rw [Nat.mul_comm, Nat.mul_add_mod, Nat.mod_eq_of_lt hf]
    rw [d, m, if_neg (by omega)]
  rcases Nat.lt_or_ge f F.M with c | c
  · exact h0 f c
  · have hfm : f = (F.M - 1) + 1 := by omega
    rw [hfm, ← Nat.add_assoc, magVal_succ F h, h0 (F.M - 1) (by omega)]
    have d : (e * F.M + (F.M - 1)) / F.M = e := by rw [Nat.mul_comm, Nat.mul_add_div h, Nat.div_eq_of_lt (by omega)]; rfl
    rw [d]
    generalize 2 ^ (e - 1) = p
    rw [← Nat.add_assoc F.M, Nat.add_mul (F.M + (F.M - 1)) 1, Nat.one_mul]

theorem and_not_low (b k : Nat) (hb : b < 2 ^ 64) (hk : k ≤ 64) : b &&& not64 (2 ^ k - 1) = b / 2 ^ k * 2 ^ k := by
  have hp : 0 < 2 ^ k := Nat.pow_pos (by omega)
  have hle : 2 ^ k ≤ 2 ^ 64 := Nat.pow_le_pow_right (by omega) hk
  have e : not64 (2 ^ k - 1) = 2 ^ 64 - (2 ^ k - 1 + 1) := by unfold not64; omega
  rw [e, Nat.mul_comm]
  apply Nat.eq_of_testBit_eq
  intro i
  rw [Nat.testBit_and, Nat.testBit_two_pow_sub_succ (by omega), Nat.testBit_two_pow_mul, Nat.testBit_two_pow_sub_one, Nat.testBit_div_two_pow]
  by_cases c : k ≤ i
  · rw [decide_eq_true c, decide_eq_false (show ¬ i < k by omega), Nat.sub_add_cancel c]
    by_cases d : i < 64
    · simp [d]
    · rw [Nat.testBit_lt_two_pow (Nat.lt_of_lt_of_le hb (Nat.pow_le_pow_right (by omega) (by omega)))]; simp
  · simp [c]; omega

theorem and_not_bit (b k : Nat) (hb : b < 2 ^ 64) (hk : k < 64) (hz : b % 2 ^ k = 0) :
    b &&& not64 (2 ^ k) = b / 2 ^ (k + 1) * 2 ^ (k + 1) := by
  have hle : 2 ^ k < 2 ^ 64 := Nat.pow_lt_pow_right (by omega) hk
  have e : not64 (2 ^ k) = 2 ^ 64 - (2 ^ k + 1) := by unfold not64; omega
  rw [e, Nat.mul_comm]
  apply Nat.eq_of_testBit_eq
  intro i
  rw [Nat.testBit_and, Nat.testBit_two_pow_sub_succ hle, Nat.testBit_two_pow_mul, Nat.testBit_two_pow, Nat.testBit_div_two_pow]
  rcases Nat.lt_trichotomy i k with c | c | c
  · have : b.testBit i = false := by
      have h := Nat.testBit_mod_two_pow b k i
      rw [hz, decide_eq_true c, Nat.zero_testBit] at h
      simpa using h.symm
    rw [this]; simp; omega
  · subst c; simp; omega
  · rw [decide_eq_false (show ¬ k = i by omega), decide_eq_true (show i ≥ k + 1 by omega), Nat.sub_add_cancel (show k + 1 ≤ i by omega)]
    by_cases d : i < 64
    · simp [d]
    · rw [Nat.testBit_lt_two_pow (Nat.lt_of_lt_of_le hb (Nat.pow_le_pow_right (by omega) (by omega)))]; simp

/-- The exponent field of the source is the specification's. -/
theorem extractExponent_expo (a : Nat) (ha : a < 2 ^ 64) : extractExponent a = a % 0x8000000000000000 / 0x10000000000000 := by
  unfold extractExponent
  have h := Nat.and_two_pow_sub_one_eq_mod (a >>> 52) 11
  rw [show (2 : Nat) ^ 11 - 1 = 0x7FF by decide] at h
  rw [h, Nat.shiftRight_eq_div_pow]
  omega

theorem extractSignificand_frac (a : Nat) : extractSignificand a = a % 0x10000000000000 := by
  unfold extractSignificand
  have h := Nat.and_two_pow_sub_one_eq_mod a 52
  exact h

/-- Rounding `n` to a multiple of `p` as the source does it: add half, then clear either the low bits or, on a tie, the low bits
and the last remaining one. -/
def roundTo (n p : Nat) : Nat := if (n + p / 2) % p = 0 then (n + p / 2) / (2 * p) * (2 * p) else (n + p / 2) / p * p

/-- What `roundTo` does: the nearest multiple of `p = 2h`, on a tie the one that is a multiple of `2p`. -/
theorem roundTo_spec (n h : Nat) (hh : 0 < h) : ∃ q, roundTo n (2 * h) = q * (2 * h) ∧ n ≤ q * (2 * h) + h ∧ q * (2 * h) ≤ n + h ∧
    (n = q * (2 * h) + h ∨ n + h = q * (2 * h) → q % 2 = 0) := by
  unfold roundTo
  rw [show 2 * h / 2 = h by omega]
  have dm := Nat.div_add_mod (n + h) (2 * h)
  have ml := Nat.mod_lt (n + h) (show 0 < 2 * h by omega)
  generalize hq : (n + h) / (2 * h) = q at *
  generalize hr : (n + h) % (2 * h) = r at *
  rw [Nat.mul_comm] at dm
  split
  · rename_i hz
    have hd : (n + h) / (2 * (2 * h)) = q / 2 := by rw [Nat.mul_comm 2 (2 * h), ← Nat.div_div_eq_div_mul, hq]
    rw [hd]
    have hqq := Nat.div_add_mod q 2
    have hq2 := Nat.mod_lt q (show 0 < 2 by omega)
    generalize q / 2 = t at *
    generalize q % 2 = s at *
    refine ⟨t * 2, ?_, ?_, ?_, ?_⟩
    · rw [Nat.mul_assoc]
    · rcases (by omega : s = 0 ∨ s = 1) with c | c
      · have : q = t * 2 := by omega
        rw [this] at dm; omega
      · have : q = t * 2 + 1 := by omega
        rw [this, Nat.add_mul] at dm; omega
    · rcases (by omega : s = 0 ∨ s = 1) with c | c
      · have : q = t * 2 := by omega
        rw [this] at dm; omega
      · have : q = t * 2 + 1 := by omega
        rw [this, Nat.add_mul] at dm; omega
    · intro _; omega
  · rename_i hz
    refine ⟨q, rfl, by omega, by omega, fun hc => ?_⟩
    rcases hc with c | c
    · omega
    · omega

/-- In the middle range the source computes `roundTo` of the whole pattern. -/
theorem round_mid (a : Nat) (ha : a < 2 ^ 64) (h1 : 0x3FF ≤ a % 0x8000000000000000 / 0x10000000000000)
    (h2 : a % 0x8000000000000000 / 0x10000000000000 < 0x433) :
    round a = roundTo a (2 ^ (0x433 - a % 0x8000000000000000 / 0x10000000000000)) := by
  unfold round
  rw [extractExponent_expo a ha]
  generalize he : a % 0x8000000000000000 / 0x10000000000000 = e at *
  simp only []
  rw [if_neg (by omega), if_neg (by omega)]
  obtain ⟨k, hk⟩ : ∃ k, k = 0x433 - e := ⟨_, rfl⟩
  rw [← hk, Nat.one_shiftLeft, Nat.shiftRight_eq_div_pow, Nat.pow_one]
  have hkp : 2 ^ k ≤ 2 ^ 52 := Nat.pow_le_pow_right (by omega) (by omega)
  have hb : a + 2 ^ k / 2 < 2 ^ 64 := by omega
  rw [Nat.mod_eq_of_lt (by omega), Nat.and_two_pow_sub_one_eq_mod]
  unfold roundTo
  split
  · rename_i hz
    rw [and_not_bit _ k hb (by omega) hz, Nat.pow_succ, Nat.mul_comm 2]
  · rw [and_not_low _ k hb (by omega)]

/-- The arithmetic of the middle range. `a = s*(2h) + e*(N*(2h)) + f`. -/
theorem round_arith (q S' e N f h : Nat) (hh : 0 < h) (hf : f < N * (2 * h))
    (h1 : S' * (2 * h) + e * (N * (2 * h)) + f ≤ q * (2 * h) + h) (h2 : q * (2 * h) ≤ S' * (2 * h) + e * (N * (2 * h)) + f + h) :
    ∃ t, t ≤ N ∧ q = S' + e * N + t ∧ f ≤ t * (2 * h) + h ∧ t * (2 * h) ≤ f + h := by
  have e1 : S' * (2 * h) + e * (N * (2 * h)) = (S' + e * N) * (2 * h) := by rw [Nat.add_mul, Nat.mul_assoc]
  rw [e1] at h1 h2
  have ge : S' + e * N ≤ q := by
    rcases Nat.lt_or_ge q (S' + e * N) with c | c
    · have := Nat.mul_le_mul_right (2 * h) (show q + 1 ≤ S' + e * N by omega)
      rw [Nat.add_mul] at this; omega
    · exact c
  obtain ⟨t, rfl⟩ : ∃ t, q = S' + e * N + t := ⟨q - (S' + e * N), by omega⟩
  rw [Nat.add_mul _ t] at h1 h2
  refine ⟨t, ?_, rfl, by omega, by omega⟩
  rcases Nat.lt_or_ge N t with c | c
  · have := Nat.mul_le_mul_right (2 * h) (show N + 1 ≤ t by omega)
    rw [Nat.add_mul] at this; omega
  · exact c

theorem signed_nearest (s : Bool) (v n : Nat) (h1 : 2 * (v : Int) ≤ 2 * n * one + one) (h2 : 2 * (n : Int) * one ≤ 2 * v + one)
    (h3 : 2 * (v : Int) = 2 * n * one + one ∨ 2 * (n : Int) * one = 2 * v + one → n % 2 = 0) :
    NearestEven (if s = true then -(v : Int) else v) (if s = true then -(n : Int) else n) := by
  unfold NearestEven
  rw [Int.mul_assoc] at h1 h2 h3
  cases s
  · rw [if_neg Bool.false_ne_true, if_neg Bool.false_ne_true]
    generalize (n : Int) * one = x at *
    refine ⟨by omega, fun hh => ?_⟩
    have := h3 (by omega); omega
  · rw [if_pos rfl, if_pos rfl, Int.neg_mul]
    generalize (n : Int) * one = x at *
    refine ⟨by omega, fun hh => ?_⟩
    have := h3 (by omega); omega

theorem split_dbl (a : Nat) (ha : a < 2 ^ 64) : a = (if neg dbl a = true then 0x8000000000000000 else 0) + mag dbl a := by
  unfold neg mag dbl
  by_cases c : 0x8000000000000000 ≤ a
  · rw [if_pos (decide_eq_true c)]; simp only []; omega
  · rw [if_neg (by rw [decide_eq_false c]; exact Bool.false_ne_true)]; simp only []; omega

theorem join_dbl (s : Bool) (m : Nat) (hm : m < 0x8000000000000000) :
    neg dbl ((if s = true then 0x8000000000000000 else 0) + m) = s ∧ mag dbl ((if s = true then 0x8000000000000000 else 0) + m) = m := by
  cases s
  · rw [if_neg Bool.false_ne_true]; unfold neg mag dbl; refine ⟨decide_eq_false (by simp only []; omega), by simp only []; omega⟩
  · rw [if_pos rfl]; unfold neg mag dbl; refine ⟨decide_eq_true (by simp only []; omega), by simp only []; omega⟩

theorem val_parts (a : Nat) : val dbl a = if neg dbl a = true then -(magVal dbl (mag dbl a) : Int) else (magVal dbl (mag dbl a) : Int) := rfl

/-- What is proved of a rounded result. -/
def RoundsTo (a r : Nat) : Prop :=
  ∃ n : Int, NearestEven (val dbl a) n ∧ val dbl r = n * one ∧ neg dbl r = neg dbl a ∧ r < 2 ^ 64 ∧ mag dbl r < dbl.I

theorem rounds_of (a r n : Nat) (hs : neg dbl r = neg dbl a) (hr : r < 2 ^ 64) (hm : mag dbl r < dbl.I) (hv : (magVal dbl (mag dbl r) : Int) = n * one)
    (h1 : 2 * (magVal dbl (mag dbl a) : Int) ≤ 2 * n * one + one) (h2 : 2 * (n : Int) * one ≤ 2 * (magVal dbl (mag dbl a) : Int) + one)
    (h3 : 2 * (magVal dbl (mag dbl a) : Int) = 2 * n * one + one ∨ 2 * (n : Int) * one = 2 * (magVal dbl (mag dbl a) : Int) + one → n % 2 = 0) :
    RoundsTo a r := by
  refine ⟨if neg dbl a = true then -(n : Int) else n, ?_, ?_, hs, hr, hm⟩
  · rw [val_parts]; exact signed_nearest (neg dbl a) _ n h1 h2 h3
  · rw [val_parts, hs, hv]
    split
    · rw [Int.neg_mul]
    · rfl

theorem round_mid_spec (a : Nat) (ha : a < 2 ^ 64) (c1 : 0x3FF ≤ a % 0x8000000000000000 / 0x10000000000000)
    (c2 : a % 0x8000000000000000 / 0x10000000000000 < 0x433) : RoundsTo a (round a) := by
  have hM := (facts (Or.inl rfl : Lib dbl)).M0
  rw [round_mid a ha c1 c2]
  have hsplit := split_dbl a ha
  have hmag : mag dbl a = a % 0x8000000000000000 := rfl
  generalize hm : a % 0x8000000000000000 = m at *
  have hdm := Nat.div_add_mod m 0x10000000000000
  have hfl := Nat.mod_lt m (show 0 < 0x10000000000000 by omega)
  generalize he : m / 0x10000000000000 = e at *
  generalize hf : m % 0x10000000000000 = f at *
  obtain ⟨j, hj⟩ : ∃ j, 0x433 - e = j + 1 := ⟨0x432 - e, by omega⟩
  rw [hj, Nat.pow_succ, Nat.mul_comm _ 2]
  have hpos : 0 < 2 ^ j := Nat.pow_pos (by omega)
  -- powers
  have hN : 0x10000000000000 = 2 ^ (51 - j) * (2 * 2 ^ j) := by
    rw [← Nat.pow_succ', ← Nat.pow_add, show 51 - j + (j + 1) = 52 by omega]
  have hS : 0x8000000000000000 = 2 * 2 ^ (61 - j) * (2 * 2 ^ j) := by
    rw [← Nat.pow_succ', ← Nat.pow_succ', ← Nat.pow_add, show 61 - j + 1 + (j + 1) = 63 by omega]
  have hone : (2 * 2 ^ j) * 2 ^ (e - 1) = 2 ^ 1074 := by rw [← Nat.pow_succ', ← Nat.pow_add, show j + 1 + (e - 1) = 1074 by omega]
  have hNpar : (e - 1) * 2 ^ (51 - j) % 2 = 0 := by
    rcases (by omega : j = 51 ∨ j < 51) with c | c
    · rw [c, show e - 1 = 0x3FE by omega]
    · obtain ⟨i, hi⟩ : ∃ i, 51 - j = i + 1 := ⟨50 - j, by omega⟩
      rw [hi, Nat.pow_succ, ← Nat.mul_assoc]; omega
  obtain ⟨q, hq, b1, b2, tie⟩ := roundTo_spec a (2 ^ j) hpos
  generalize 2 ^ (51 - j) = N at *
  generalize hh : 2 ^ j = h at *
  obtain ⟨S', hS', hSe⟩ : ∃ S', (if neg dbl a = true then 0x8000000000000000 else 0) = S' * (2 * h) ∧ S' % 2 = 0 := by
    split
    · exact ⟨_, hS, by omega⟩
    · exact ⟨0, by omega, rfl⟩
  have hm' : m = e * (N * (2 * h)) + f := by rw [← hN]; omega
  have haeq : a = S' * (2 * h) + e * (N * (2 * h)) + f := by rw [← hS', Nat.add_assoc, ← hm', ← hmag]; exact hsplit
  have hfl' : f < N * (2 * h) := by rw [← hN]; exact hfl
  obtain ⟨t, htN, hqe, f1, f2⟩ := round_arith q S' e N f h hpos hfl' (by rw [← haeq]; exact b1) (by rw [← haeq]; exact b2)
  have htM : t * (2 * h) ≤ 0x10000000000000 := by rw [hN]; exact Nat.mul_le_mul_right _ htN
  have hr : roundTo a (2 * h) = (if neg dbl a = true then 0x8000000000000000 else 0) + (e * 0x10000000000000 + t * (2 * h)) := by
    rw [hq, hqe, hS', hN, Nat.add_mul, Nat.add_mul, Nat.mul_assoc e, Nat.add_assoc]
  have hrm : e * 0x10000000000000 + t * (2 * h) < 0x7FF0000000000000 := by omega
  obtain ⟨j1, j2⟩ := join_dbl (neg dbl a) (e * 0x10000000000000 + t * (2 * h)) (by omega)
  rw [← hr] at j1 j2
  have hv : magVal dbl (mag dbl (roundTo a (2 * h))) = (N + t) * 2 ^ 1074 := by
    rw [j2, show e * 0x10000000000000 = e * dbl.M from rfl, magVal_binade dbl hM e _ (by omega) htM, show dbl.M = 0x10000000000000 from rfl,
      hN, ← Nat.add_mul, Nat.mul_assoc, hone]
  have hva : magVal dbl (mag dbl a) = (N * (2 * h) + f) * 2 ^ (e - 1) := by
    rw [hmag, hm', ← hN, show e * 0x10000000000000 = e * dbl.M from rfl, magVal_binade dbl hM e _ (by omega) (Nat.le_of_lt hfl)]
    rfl
  have hhalf : 2 * (h * 2 ^ (e - 1)) = 2 ^ 1074 := by rw [← hone, Nat.mul_assoc]
  have hNt : (N + t) * 2 ^ 1074 = (N * (2 * h) + t * (2 * h)) * 2 ^ (e - 1) := by
    rw [← hone, ← Nat.add_mul, Nat.mul_assoc (N + t)]
  have b64 : roundTo a (2 * h) < 2 ^ 64 := by rw [hr]; split <;> omega
  have ho : one = ((2 ^ 1074 : Nat) : Int) := by decide +kernel
  have e2 : 2 * ((N + t : Nat) : Int) * one = ((2 * ((N + t) * 2 ^ 1074) : Nat) : Int) := by rw [ho, Int.mul_assoc, ← Int.natCast_mul]; omega
  refine rounds_of a _ (N + t) j1 b64 (by rw [j2]; exact hrm) (by rw [hv, ho, Int.natCast_mul]) ?_ ?_ ?_
  · rw [e2, ho, hva, hNt, ← hhalf]
    have := Nat.mul_le_mul_right (2 ^ (e - 1)) (show N * (2 * h) + f ≤ N * (2 * h) + t * (2 * h) + h by omega)
    rw [Nat.add_mul _ h] at this
    omega
  · rw [e2, ho, hva, hNt, ← hhalf]
    have := Nat.mul_le_mul_right (2 ^ (e - 1)) (show N * (2 * h) + t * (2 * h) ≤ N * (2 * h) + f + h by omega)
    rw [Nat.add_mul _ h] at this
    omega
  · rw [e2, ho, hva, hNt, ← hhalf]
    intro hc
    have pp : 0 < 2 ^ (e - 1) := Nat.pow_pos (by omega)
    have hq2 : q % 2 = 0 := by
      apply tie
      have hat : S' * (2 * h) + e * (N * (2 * h)) + t * (2 * h) = q * (2 * h) := by rw [hqe, Nat.add_mul, Nat.add_mul, Nat.mul_assoc e]
      rw [← hat, haeq]
      rcases hc with c | c
      · left
        have : (N * (2 * h) + f) * 2 ^ (e - 1) = (N * (2 * h) + t * (2 * h) + h) * 2 ^ (e - 1) := by rw [Nat.add_mul _ h]; omega
        have := Nat.eq_of_mul_eq_mul_right pp this
        omega
      · right
        have : (N * (2 * h) + t * (2 * h)) * 2 ^ (e - 1) = (N * (2 * h) + f + h) * 2 ^ (e - 1) := by rw [Nat.add_mul _ h]; omega
        have := Nat.eq_of_mul_eq_mul_right pp this
        omega
    have heN : e * N = (e - 1) * N + N := by
      obtain ⟨i, rfl⟩ : ∃ i, e = i + 1 := ⟨e - 1, by omega⟩
      rw [Nat.add_mul, Nat.one_mul]; rfl
    rw [hqe, heN] at hq2
    omega

/-- **C74**: for every finite Double, `Math.Round` returns a finite integral Double: the nearest integer, the even one when two are
equally near, with the sign bit of the argument (so -0.3 and -0 give -0). -/
theorem C74_round_nearest_even (a : Nat) (ha : Pattern dbl a) (hc : classOf dbl a ≠ .nan ∧ classOf dbl a ≠ .infinite) :
    ∃ n : Int, NearestEven (val dbl a) n ∧ val dbl (round a) = n * one ∧ neg dbl (round a) = neg dbl a ∧
      Pattern dbl (round a) ∧ classOf dbl (round a) ≠ .nan ∧ classOf dbl (round a) ≠ .infinite := by
  have hF := facts (Or.inl rfl : Lib dbl)
  have hM := hF.M0
  suffices h : RoundsTo a (round a) by
    obtain ⟨n, h1, h2, h3, h4, h5⟩ := h
    exact ⟨n, h1, h2, h3, dbl_pat.mpr h4, (class_fin hF _).mpr h5⟩
  have hfin := fin_dbl hc
  rw [dbl_pat] at ha
  by_cases c1 : 0x3FF ≤ a % 0x8000000000000000 / 0x10000000000000
  · by_cases c2 : a % 0x8000000000000000 / 0x10000000000000 < 0x433
    · exact round_mid_spec a ha c1 c2
    · -- already an integer
      have hr : round a = a := by
        unfold round; rw [extractExponent_expo a ha]; simp only []; rw [if_neg (by omega), if_pos (by omega)]
      rw [hr]
      have hdm := Nat.div_add_mod (a % 0x8000000000000000) 0x10000000000000
      have hfl := Nat.mod_lt (a % 0x8000000000000000) (show 0 < 0x10000000000000 by omega)
      have hmag : mag dbl a = a % 0x8000000000000000 := rfl
      generalize a % 0x8000000000000000 / 0x10000000000000 = e at *
      generalize a % 0x8000000000000000 % 0x10000000000000 = f at *
      have hv : magVal dbl (mag dbl a) = ((dbl.M + f) * 2 ^ (e - 1075)) * 2 ^ 1074 := by
        rw [hmag, ← hdm, Nat.mul_comm, show e * 0x10000000000000 = e * dbl.M from rfl, magVal_binade dbl hM e _ (by omega) (Nat.le_of_lt hfl),
          Nat.mul_assoc _ _ (2 ^ 1074), ← Nat.pow_add, show e - 1075 + 1074 = e - 1 by omega]
      have ho : one = ((2 ^ 1074 : Nat) : Int) := by decide +kernel
      have hp : 0 < 2 ^ 1074 := Nat.pow_pos (by omega)
      refine rounds_of a a ((dbl.M + f) * 2 ^ (e - 1075)) rfl ha (by rw [hmag]; exact hfin) ?_ ?_ ?_ ?_
      all_goals rw [hv, ho]
      · rw [Int.natCast_mul]
      all_goals
        rw [Int.mul_assoc, ← Int.natCast_mul]
        generalize (dbl.M + f) * 2 ^ (e - 1075) * 2 ^ 1074 = x at *
        generalize 2 ^ 1074 = y at *
        omega
  · have he := extractExponent_expo a ha
    have hmag : mag dbl a = a % 0x8000000000000000 := rfl
    have hnan : nan dbl a = false := by
      unfold nan; rw [hmag]; exact decide_eq_false (by simp only [dbl]; omega)
    have v0 : magVal dbl 0 = 0 := magVal_zero dbl
    have vhalf : magVal dbl 0x3FE0000000000000 = 2 ^ 1073 := by decide +kernel
    have vone : magVal dbl 0x3FF0000000000000 = 2 ^ 1074 := by decide +kernel
    have l1 := magVal_le dbl hM (m := mag dbl a) (n := 0x3FE0000000000000)
    have l1' := magVal_le dbl hM (m := 0x3FE0000000000000) (n := mag dbl a)
    have l2 := magVal_le dbl hM (m := mag dbl a) (n := 0x3FF0000000000000)
    have ho : one = ((2 ^ 1074 : Nat) : Int) := by decide +kernel
    have h2 : (2 : Nat) ^ 1074 = 2 * 2 ^ 1073 := Nat.pow_succ'
    have hp : 0 < 2 ^ 1073 := Nat.pow_pos (by omega)
    have hshift : (a <<< 1) % 0x10000000000000000 = 0 ↔ a % 0x8000000000000000 = 0 := by
      rw [Nat.shiftLeft_eq]; omega
    unfold round
    rw [he, extractSignificand_frac]
    simp only []
    rw [if_pos (by omega)]
    rw [vhalf] at l1 l1'
    rw [vone, h2] at l2
    by_cases cz : a % 0x8000000000000000 = 0
    · rw [if_pos (hshift.mpr cz)]
      refine rounds_of a a 0 rfl ha (by rw [hmag, cz]; decide) ?_ ?_ ?_ ?_
      all_goals rw [hmag, cz, v0, ho, h2]
      all_goals generalize 2 ^ 1073 = y at *; omega
    · rw [if_neg (fun hh => cz (hshift.mp hh))]
      by_cases co : a % 0x8000000000000000 / 0x10000000000000 = 0x3FE ∧ a % 0x10000000000000 ≠ 0
      · rw [if_pos co]
        obtain ⟨k1, k2, k3⟩ := copySign_parts 0x3FF0000000000000 a (by omega) ha hnan
        have km : mag dbl 0x3FF0000000000000 = 0x3FF0000000000000 := by decide +kernel
        rw [km] at k2
        refine rounds_of a _ 1 k3 k1 (by rw [k2]; decide) ?_ ?_ ?_ ?_
        · rw [k2, vone, ho]; omega
        all_goals
          rw [ho, h2]
          have q1 := l2.mpr (by omega)
          have q2 : ¬ magVal dbl (mag dbl a) ≤ 2 ^ 1073 := fun hh => by have := l1.mp hh; omega
          generalize 2 ^ 1073 = y at *
          generalize magVal dbl (mag dbl a) = x at *
          omega
      · rw [if_neg co]
        obtain ⟨k1, k2, k3⟩ := copySign_parts 0 a (by omega) ha hnan
        have km : mag dbl 0 = 0 := by decide +kernel
        rw [km] at k2
        refine rounds_of a _ 0 k3 k1 (by rw [k2]; decide) ?_ ?_ ?_ ?_
        · rw [k2, v0, ho]; omega
        all_goals
          rw [ho, h2]
          have q1 := l1.mpr (by omega)
          generalize 2 ^ 1073 = y at *
          generalize magVal dbl (mag dbl a) = x at *
          omega

/-- The statement applies to -2.5, which rounds to -2; 0.5 rounds to 0, 1.5 to 2, 0.75 to 1, -0.25 to -0. -/
example : Pattern dbl 0xC004000000000000 ∧ (classOf dbl 0xC004000000000000 ≠ .nan ∧ classOf dbl 0xC004000000000000 ≠ .infinite) ∧
    round 0xC004000000000000 = 0xC000000000000000 ∧ round 0x3FE0000000000000 = 0 ∧ round 0x3FF8000000000000 = 0x4000000000000000 ∧
    round 0x3FE8000000000000 = 0x3FF0000000000000 ∧ round 0xBFD0000000000000 = 0x8000000000000000 := by
  unfold Pattern; decide +kernel

/-- **C74**: NaNs and infinities are returned unchanged. -/
theorem C74_round_special (a : Nat) (ha : Pattern dbl a) (hc : classOf dbl a = .nan ∨ classOf dbl a = .infinite) : round a = a := by
  have hF := facts (Or.inl rfl : Lib dbl)
  have h : 0x7FF0000000000000 ≤ a % 0x8000000000000000 := by
    rcases hc with c | c
    · rw [nan_dbl] at c; omega
    · rw [class_inf hF] at c
      simp only [dbl] at c; omega
  rw [dbl_pat] at ha
  unfold round
  rw [extractExponent_expo a ha]
  simp only []
  rw [if_neg (by omega), if_pos (by omega)]

example : Pattern dbl 0xFFF0000000000000 ∧ classOf dbl 0xFFF0000000000000 = .infinite := by unfold Pattern; decide +kernel

/-- **C74**: rounding twice is rounding once. -/
theorem C74_round_idempotent (a : Nat) (ha : Pattern dbl a) : val dbl (round (round a)) = val dbl (round a) ∧ (classOf dbl a = .nan → round (round a) = a) := by
  by_cases hc : classOf dbl a ≠ .nan ∧ classOf dbl a ≠ .infinite
  · obtain ⟨n, h1, h2, h3, h4, h5⟩ := C74_round_nearest_even a ha hc
    obtain ⟨m, g1, g2, _⟩ := C74_round_nearest_even (round a) h4 h5
    refine ⟨?_, fun h => absurd h hc.1⟩
    have : NearestEven (val dbl (round a)) n := by
      unfold NearestEven
      have hp : 0 < one := by decide +kernel
      rw [h2, Int.sub_self]
      refine ⟨by omega, fun hh => by omega⟩
    rw [g2, nearestEven_unique g1 this, h2]
  · have : classOf dbl a = .nan ∨ classOf dbl a = .infinite := by
      cases hcl : classOf dbl a <;> simp [hcl] at hc ⊢
    rw [C74_round_special a ha this, C74_round_special a ha this]
    exact ⟨rfl, fun _ => rfl⟩

end Verif.FltProps
