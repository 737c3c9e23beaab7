import Verif.FloatExprModel
import Verif.FloatModProps
/-!
# Rounding to double first and then to single gives the same as rounding to single once, for quotients and sums of singles
-/
namespace Verif.FloatExpr
open Verif.FltModel Verif.FltProps Verif.Rnd Verif.FloatText Verif.FloatTextSpec

variable {F : Fmt}

theorem abs_near_lt {p q y : ℚ} (h : p < q) (c : 2 * y < p + q) : |p - y| < |q - y| := by
  rcases abs_cases (p - y) with ⟨a, _⟩ | ⟨a, _⟩ <;> rcases abs_cases (q - y) with ⟨b, _⟩ | ⟨b, _⟩ <;> rw [a, b] <;> linarith

theorem abs_near_gt {p q y : ℚ} (h : p < q) (c : p + q < 2 * y) : |q - y| < |p - y| := by
  rcases abs_cases (p - y) with ⟨a, _⟩ | ⟨a, _⟩ <;> rcases abs_cases (q - y) with ⟨b, _⟩ | ⟨b, _⟩ <;> rw [a, b] <;> linarith

theorem abs_near_eq {p q y : ℚ} (c : 2 * y = p + q) : |p - y| = |q - y| := by
  have : p - y = -(q - y) := by linarith
  rw [this, abs_neg]

/-- Two neighbours in a format. -/
theorem neighbours (h0 : IsBin F) (m : Nat) : ∃ K e, magVal F m = K * 2 ^ e ∧ magVal F (m + 1) = (K + 1) * 2 ^ e ∧ K < 2 ^ (fbits F + 1) ∧ (e = 0 ∨ 2 ^ fbits F ≤ K) := by
  have hr := Nat.mod_lt m (M0 h0)
  have hM := h0.M
  have hs := magVal_succ F (M0 h0) m
  by_cases c : m / F.M = 0
  · refine ⟨m % F.M, 0, ?_, ?_, ?_, Or.inl rfl⟩
    · unfold magVal; rw [if_pos c]; simp
    · rw [hs, c]; unfold magVal; rw [if_pos c]; simp
    · rw [Nat.pow_succ]; omega
  · refine ⟨F.M + m % F.M, m / F.M - 1, ?_, ?_, ?_, Or.inr (by omega)⟩
    · unfold magVal; rw [if_neg c]
    · rw [hs, Nat.add_mul]; unfold magVal; rw [if_neg c, Nat.one_mul]
    · rw [Nat.pow_succ]; omega

theorem cast_lt (h0 : IsBin F) {m n : Nat} (h : m < n) : (magVal F m : ℚ) < magVal F n := by exact_mod_cast magVal_lt F (M0 h0) h

/-- The midpoint of two neighbouring singles is a double. -/
theorem midpoint_mag (m : Nat) (hm : m < sgl.I) : ∃ c, c ≤ dbl.I ∧ (magVal dbl c : ℚ) * 2 = ((magVal sgl m : ℚ) + magVal sgl (m + 1)) * 2 ^ 925 := by
  obtain ⟨K, e, h1, h2, h3, _⟩ := neighbours bin_sgl m
  rw [fbits_sgl] at h3
  obtain ⟨c, hc⟩ := exists_mag bin_dbl (2 * K + 1) (e + 924) (by rw [fbits_dbl]; omega)
  have e1 : (magVal dbl c : ℚ) * 2 = ((magVal sgl m : ℚ) + magVal sgl (m + 1)) * 2 ^ 925 := by
    have e0 : (2 : ℚ) ^ 925 = 2 * 2 ^ 924 := by rw [← pow_succ']
    rw [hc, h1, h2, e0]; push_cast; rw [pow_add]
    generalize (2 : ℚ) ^ 924 = W
    ring
  refine ⟨c, ?_, e1⟩
  by_contra hcon
  have l1 : magVal dbl dbl.I < magVal dbl c := magVal_lt dbl (M0 bin_dbl) (by omega)
  have l2 : magVal sgl (m + 1) ≤ magVal sgl sgl.I := (magVal_le sgl (M0 bin_sgl)).2 (by omega)
  have l3 : magVal sgl m ≤ magVal sgl sgl.I := (magVal_le sgl (M0 bin_sgl)).2 (by omega)
  have l4 : magVal sgl sgl.I * 2 ^ 925 ≤ magVal dbl dbl.I := by decide +kernel
  have e2 : magVal dbl c * 2 = (magVal sgl m + magVal sgl (m + 1)) * 2 ^ 925 := by exact_mod_cast e1
  generalize hB : (2 : Nat) ^ 925 = B at *
  have l5 : magVal sgl m * B ≤ magVal sgl sgl.I * B := Nat.mul_le_mul_right _ l3
  have l6 : magVal sgl (m + 1) * B ≤ magVal sgl sgl.I * B := Nat.mul_le_mul_right _ l2
  rw [Nat.add_mul] at e2
  omega

/-- A nearest number does not pass a number of the format. -/
theorem near_le (h0 : IsBin F) {a : ℚ} {m c : Nat} (h : Near F a m) (hc : c ≤ F.I) (hac : a ≤ magVal F c) : m ≤ c := by
  by_contra hcon
  have l := cast_lt h0 (show c < m by omega)
  rcases h.2 c hc (by omega) with x | ⟨x, _⟩ <;> rw [abs_of_nonneg (show (0 : ℚ) ≤ magVal F m - a by linarith), abs_of_nonneg (show (0 : ℚ) ≤ magVal F c - a by linarith)] at x <;> linarith

theorem near_ge (h0 : IsBin F) {a : ℚ} {m c : Nat} (h : Near F a m) (hc : c ≤ F.I) (hac : (magVal F c : ℚ) ≤ a) : c ≤ m := by
  by_contra hcon
  have l := cast_lt h0 (show m < c by omega)
  rcases h.2 c hc (by omega) with x | ⟨x, _⟩ <;> rw [abs_of_nonpos (show (magVal F m : ℚ) - a ≤ 0 by linarith), abs_of_nonpos (show (magVal F c : ℚ) - a ≤ 0 by linarith)] at x <;> linarith

/-- What being nearest says about the neighbour above. -/
theorem near_above (h0 : IsBin F) {a : ℚ} {m : Nat} (h : Near F a m) (hm : m < F.I) :
    2 * a ≤ magVal F m + magVal F (m + 1) ∧ (2 * a = magVal F m + magVal F (m + 1) → m % 2 = 0) := by
  have l1 := cast_lt h0 (show m < m + 1 by omega)
  rcases h.2 (m + 1) (by omega) (by omega) with z | ⟨z, ev⟩
  · have : 2 * a < magVal F m + magVal F (m + 1) := by
      by_contra hcon
      rcases lt_or_eq_of_le (not_lt.1 hcon) with w | w
      · have := abs_near_gt l1 w; linarith
      · have := abs_near_eq w.symm; linarith
    exact ⟨le_of_lt this, fun h => by linarith⟩
  · refine ⟨?_, fun _ => ev⟩
    by_contra hcon
    have := abs_near_gt l1 (not_le.1 hcon); linarith

/-- And about the neighbour below. -/
theorem near_below (h0 : IsBin F) {a : ℚ} {m : Nat} (h : Near F a (m + 1)) :
    magVal F m + magVal F (m + 1) ≤ 2 * a ∧ (2 * a = magVal F m + magVal F (m + 1) → (m + 1) % 2 = 0) := by
  have l1 := cast_lt h0 (show m < m + 1 by omega)
  have hm := h.1
  rcases h.2 m (by omega) (by omega) with z | ⟨z, ev⟩
  · have : magVal F m + magVal F (m + 1) < 2 * a := by
      by_contra hcon
      rcases lt_or_eq_of_le (not_lt.1 hcon) with w | w
      · have := abs_near_lt l1 w; linarith
      · have := abs_near_eq w; linarith
    exact ⟨le_of_lt this, fun h => by linarith⟩
  · refine ⟨?_, fun _ => ev⟩
    by_contra hcon
    have := abs_near_lt l1 (not_le.1 hcon); linarith

/-- `x` (in units of the least single) is rounded to a double and then to a single. If `x` is not rounded onto the midpoint of two neighbouring singles (unless it is that midpoint), the result is `x` rounded to a single. -/
theorem double_round (x : ℚ) (m1 m2 : Nat) (h1 : Near sgl x m1) (h2 : Near dbl (x * 2 ^ 925) m2)
    (H : ∀ m, m < sgl.I → (magVal dbl m2 : ℚ) * 2 = ((magVal sgl m : ℚ) + magVal sgl (m + 1)) * 2 ^ 925 → 2 * x = (magVal sgl m : ℚ) + magVal sgl (m + 1)) :
    Near sgl ((magVal dbl m2 : ℚ) / 2 ^ 925) m1 := by
  refine ⟨h1.1, ?_⟩
  intro k hk hne
  have hmid := midpoint_mag
  have hW : (0 : ℚ) < 2 ^ 925 := by positivity
  generalize (2 : ℚ) ^ 925 = W at *
  generalize hy : (magVal dbl m2 : ℚ) / W = y
  have hy' : (magVal dbl m2 : ℚ) = y * W := by rw [← hy]; field_simp
  rcases Nat.lt_or_ge m1 k with c | c
  · have hm : m1 < sgl.I := by omega
    have l1 := cast_lt bin_sgl (show m1 < k by omega)
    have l2 : (magVal sgl (m1 + 1) : ℚ) ≤ magVal sgl k := by exact_mod_cast (magVal_le sgl (M0 bin_sgl)).2 (show m1 + 1 ≤ k by omega)
    obtain ⟨cm, hcI, hc⟩ := hmid m1 hm
    have hH := H m1 hm
    obtain ⟨hx, hev⟩ := near_above bin_sgl h1 hm
    have hle : m2 ≤ cm := near_le bin_dbl h2 hcI (by nlinarith)
    have hle' : (magVal dbl m2 : ℚ) ≤ magVal dbl cm := by exact_mod_cast (magVal_le dbl (M0 bin_dbl)).2 hle
    rw [hy'] at hle' hH
    have hy2 : 2 * y ≤ magVal sgl m1 + magVal sgl (m1 + 1) := by
      have : 2 * y * W ≤ (magVal sgl m1 + magVal sgl (m1 + 1)) * W := by linarith
      exact le_of_mul_le_mul_right this hW
    rcases lt_or_eq_of_le hy2 with z | z
    · exact Or.inl (abs_near_lt l1 (by linarith))
    · have hx2 := hH (by rw [← z]; ring)
      rcases lt_or_eq_of_le l2 with w | w
      · exact Or.inl (abs_near_lt l1 (by linarith))
      · exact Or.inr ⟨abs_near_eq (by rw [z, w]), hev hx2⟩
  · obtain ⟨m, rfl⟩ : ∃ m, m1 = m + 1 := ⟨m1 - 1, by omega⟩
    have hm : m < sgl.I := by have := h1.1; omega
    have l1 := cast_lt bin_sgl (show k < m + 1 by omega)
    have l2 : (magVal sgl k : ℚ) ≤ magVal sgl m := by exact_mod_cast (magVal_le sgl (M0 bin_sgl)).2 (show k ≤ m by omega)
    obtain ⟨cm, hcI, hc⟩ := hmid m hm
    have hH := H m hm
    obtain ⟨hx, hev⟩ := near_below bin_sgl h1
    have hle : cm ≤ m2 := near_ge bin_dbl h2 hcI (by nlinarith)
    have hle' : (magVal dbl cm : ℚ) ≤ magVal dbl m2 := by exact_mod_cast (magVal_le dbl (M0 bin_dbl)).2 hle
    rw [hy'] at hle' hH
    have hy2 : magVal sgl m + magVal sgl (m + 1) ≤ 2 * y := by
      have : (magVal sgl m + magVal sgl (m + 1)) * W ≤ 2 * y * W := by linarith
      exact le_of_mul_le_mul_right this hW
    rcases lt_or_eq_of_le hy2 with z | z
    · exact Or.inl (abs_near_gt l1 (by linarith))
    · have hx2 := hH (by rw [z]; ring)
      rcases lt_or_eq_of_le l2 with w | w
      · exact Or.inl (abs_near_gt l1 (by linarith))
      · exact Or.inr ⟨(abs_near_eq (by rw [← z, w])).symm, hev hx2⟩

/-- The error of rounding to a normal number. -/
theorem near_error (h0 : IsBin F) {a : ℚ} {m : Nat} (h : Near F a m) (hM : F.M ≤ m) (hI : m < F.I) : |a - magVal F m| * 2 ^ (fbits F + 1) ≤ magVal F m := by
  have hq : m / F.M ≠ 0 := by
    have := Nat.div_pos hM (M0 h0); omega
  obtain ⟨n, rfl⟩ : ∃ n, m = n + 1 := ⟨m - 1, by have := M0 h0; omega⟩
  have u := (near_above h0 h hI).1
  have l := (near_below h0 h).1
  have s1 := magVal_succ F (M0 h0) (n + 1)
  have s2 := magVal_succ F (M0 h0) n
  have hle : n / F.M ≤ (n + 1) / F.M := Nat.div_le_div_right (by omega)
  have hp : 2 ^ (n / F.M - 1) ≤ 2 ^ ((n + 1) / F.M - 1) := Nat.pow_le_pow_right (by omega) (by omega)
  have hv : 2 ^ fbits F * 2 ^ ((n + 1) / F.M - 1) ≤ magVal F (n + 1) := by
    unfold magVal
    rw [if_neg hq, ← h0.M]
    exact Nat.mul_le_mul_right _ (by omega)
  generalize 2 ^ ((n + 1) / F.M - 1) = p at *
  generalize 2 ^ (n / F.M - 1) = p' at *
  rw [s1] at u
  rw [s2] at l u hv ⊢
  generalize magVal F n = v at *
  have hp' : (p' : ℚ) ≤ p := by exact_mod_cast hp
  have hv' : (2 : ℚ) ^ fbits F * p ≤ (v : ℚ) + p' := by exact_mod_cast hv
  push_cast at *
  have : |a - (v + p')| * 2 ≤ p := by
    rcases abs_cases (a - (v + p')) with ⟨e, _⟩ | ⟨e, _⟩ <;> rw [e] <;> linarith
  rw [pow_succ]
  have h2 : (0 : ℚ) < 2 ^ fbits F := by positivity
  nlinarith

/-- Two numbers of few bits are equal when they are very close. -/
theorem gap (A C g h : Nat) (hA : A < 2 ^ 24) (hC : C < 2 ^ 49)
    (h1 : 2 ^ 53 * (A * 2 ^ g) ≤ 2 ^ 53 * (C * 2 ^ h) + C * 2 ^ h) (h2 : 2 ^ 53 * (C * 2 ^ h) ≤ 2 ^ 53 * (A * 2 ^ g) + C * 2 ^ h) : A * 2 ^ g = C * 2 ^ h := by
  rcases Nat.le_total h g with c | c
  · obtain ⟨j, rfl⟩ : ∃ j, g = h + j := ⟨g - h, by omega⟩
    have e : A * 2 ^ (h + j) = (A * 2 ^ j) * 2 ^ h := by rw [Nat.pow_add]; ring
    rw [e] at h1 h2 ⊢
    generalize A * 2 ^ j = A' at *
    have hp : 0 < 2 ^ h := Nat.two_pow_pos _
    generalize 2 ^ h = P at *
    have k1 : (2 ^ 53 * A') * P ≤ (2 ^ 53 * C + C) * P := by linarith
    have k2 : (2 ^ 53 * C) * P ≤ (2 ^ 53 * A' + C) * P := by linarith
    have := Nat.le_of_mul_le_mul_right k1 hp
    have := Nat.le_of_mul_le_mul_right k2 hp
    congr 1; omega
  · obtain ⟨j, rfl⟩ : ∃ j, h = g + j := ⟨h - g, by omega⟩
    have e : C * 2 ^ (g + j) = (C * 2 ^ j) * 2 ^ g := by rw [Nat.pow_add]; ring
    rw [e] at h1 h2 ⊢
    generalize C * 2 ^ j = C' at *
    have hp : 0 < 2 ^ g := Nat.two_pow_pos _
    generalize 2 ^ g = P at *
    have k1 : (2 ^ 53 * A) * P ≤ (2 ^ 53 * C' + C') * P := by linarith
    have k2 : (2 ^ 53 * C') * P ≤ (2 ^ 53 * A + C') * P := by linarith
    have := Nat.le_of_mul_le_mul_right k1 hp
    have := Nat.le_of_mul_le_mul_right k2 hp
    congr 1; omega

/-- A number whose double is the midpoint of two neighbouring singles is close to that midpoint. -/
theorem mid_close (x : ℚ) (m m2 : Nat) (h : Near dbl (x * 2 ^ 925) m2) (hm : m < sgl.I)
    (e : (magVal dbl m2 : ℚ) * 2 = ((magVal sgl m : ℚ) + magVal sgl (m + 1)) * 2 ^ 925) :
    |2 * x - ((magVal sgl m : ℚ) + magVal sgl (m + 1))| * 2 ^ 53 ≤ (magVal sgl m : ℚ) + magVal sgl (m + 1) := by
  have e1 : magVal dbl m2 * 2 = (magVal sgl m + magVal sgl (m + 1)) * 2 ^ 925 := by exact_mod_cast e
  have l1 : 0 < magVal sgl (m + 1) := by
    have := magVal_lt sgl (M0 bin_sgl) (show 0 < m + 1 by omega)
    rwa [magVal_zero] at this
  have l2 : magVal sgl (m + 1) ≤ magVal sgl sgl.I := (magVal_le sgl (M0 bin_sgl)).2 (by omega)
  have l3 : magVal sgl m ≤ magVal sgl sgl.I := (magVal_le sgl (M0 bin_sgl)).2 (by omega)
  have l4 : magVal sgl sgl.I * 2 ^ 925 < magVal dbl dbl.I := by decide +kernel
  have l7 : magVal dbl dbl.M * 2 < 2 ^ 925 := by decide +kernel
  generalize hB : (2 : Nat) ^ 925 = B at *
  have l5 : magVal sgl m * B ≤ magVal sgl sgl.I * B := Nat.mul_le_mul_right _ l3
  have l6 : magVal sgl (m + 1) * B ≤ magVal sgl sgl.I * B := Nat.mul_le_mul_right _ l2
  have l8 : 1 * B ≤ magVal sgl (m + 1) * B := Nat.mul_le_mul_right _ l1
  rw [Nat.add_mul] at e1
  have hI : m2 < dbl.I := by
    by_contra hcon
    have := (magVal_le dbl (M0 bin_dbl)).2 (show dbl.I ≤ m2 by omega)
    omega
  have hM : dbl.M ≤ m2 := by
    by_contra hcon
    have := (magVal_le dbl (M0 bin_dbl)).2 (show m2 ≤ dbl.M by omega)
    omega
  have err := near_error bin_dbl h hM hI
  rw [fbits_dbl] at err
  have hW : (0 : ℚ) < 2 ^ 925 := by positivity
  generalize (2 : ℚ) ^ 925 = W at *
  generalize (magVal sgl m : ℚ) + magVal sgl (m + 1) = c at *
  have e2 : x * W - magVal dbl m2 = (2 * x - c) * (W / 2) := by linarith
  have hW2 : 0 < W / 2 := by linarith
  rw [e2, abs_mul, abs_of_pos hW2] at err
  have e3 : (magVal dbl m2 : ℚ) = c * (W / 2) := by linarith
  rw [e3] at err
  have : (|2 * x - c| * 2 ^ 53) * (W / 2) ≤ c * (W / 2) := by
    calc _ = |2 * x - c| * (W / 2) * 2 ^ (52 + 1) := by ring
      _ ≤ _ := err
  exact le_of_mul_le_mul_right this hW2

/-- From the pieces: a number that is not rounded onto a midpoint is rounded twice like once. -/
theorem round_twice (n d N D : Nat) (hd : 0 < d) (hD : 0 < D) (hN : (N : ℚ) / D = (n : ℚ) / d * 2 ^ 925)
    (H : ∀ K e : Nat, K < 2 ^ 24 → (e = 0 ∨ 2 ^ 23 ≤ K) → |2 * ((n : ℚ) / d) - (((2 * K + 1) * 2 ^ e : Nat) : ℚ)| * 2 ^ 53 ≤ (((2 * K + 1) * 2 ^ e : Nat) : ℚ) →
      2 * ((n : ℚ) / d) = (((2 * K + 1) * 2 ^ e : Nat) : ℚ)) :
    roundMag sgl (magVal dbl (roundMag dbl N D) * 2 ^ places sgl) (2 ^ places dbl) = roundMag sgl n d := by
  have h1 := near_roundMag bin_sgl n d hd
  have h2 := near_roundMag bin_dbl N D hD
  rw [hN] at h2
  have h3 := near_roundMag bin_sgl (magVal dbl (roundMag dbl N D) * 2 ^ places sgl) (2 ^ places dbl) (Nat.two_pow_pos _)
  have h4 := double_round _ _ _ h1 h2 (by
    intro m hm e
    have hc := mid_close _ m _ h2 hm e
    obtain ⟨K, e', k1, k2, k3, k4⟩ := neighbours bin_sgl m
    rw [fbits_sgl] at k3 k4
    have e3 : (magVal sgl m : ℚ) + magVal sgl (m + 1) = (((2 * K + 1) * 2 ^ e' : Nat) : ℚ) := by rw [k1, k2]; push_cast; ring
    rw [e3] at hc ⊢
    exact H K e' k3 k4 hc)
  refine near_unique bin_sgl _ _ _ ?_ h4
  have e5 : ((magVal dbl (roundMag dbl N D) * 2 ^ places sgl : Nat) : ℚ) / ((2 ^ places dbl : Nat) : ℚ) = (magVal dbl (roundMag dbl N D) : ℚ) / 2 ^ 925 := by
    rw [places_dbl, places_sgl]
    rw [Nat.cast_mul, Nat.cast_pow, Nat.cast_pow, Nat.cast_ofNat]
    rw [show (2 : ℚ) ^ 1074 = 2 ^ 925 * 2 ^ 149 by rw [← pow_add]]
    have : (0 : ℚ) < 2 ^ 925 := by positivity
    have : (0 : ℚ) < 2 ^ 149 := by positivity
    generalize (2 : ℚ) ^ 925 = W at *
    generalize (2 : ℚ) ^ 149 = W' at *
    field_simp
  rw [e5] at h3
  exact h3

/-- Quotients of singles. -/
theorem div_twice (a b : Nat) (hb : 0 < magVal sgl b) :
    roundMag sgl (magVal dbl (roundMag dbl (magVal sgl a * 2 ^ 1074) (magVal sgl b)) * 2 ^ places sgl) (2 ^ places dbl) = roundMag sgl (magVal sgl a * 2 ^ 149) (magVal sgl b) := by
  have hbq : (0 : ℚ) < magVal sgl b := by exact_mod_cast hb
  refine round_twice _ _ _ _ hb hb ?_ ?_
  · rw [Nat.cast_mul, Nat.cast_mul, Nat.cast_pow, Nat.cast_pow, Nat.cast_ofNat]
    rw [show (2 : ℚ) ^ 1074 = 2 ^ 149 * 2 ^ 925 by rw [← pow_add]]
    generalize (2 : ℚ) ^ 925 = W at *
    generalize (2 : ℚ) ^ 149 = W' at *
    field_simp
  · intro K e hK _ h
    obtain ⟨A, g, ha, hA⟩ := mag_form bin_sgl a
    obtain ⟨B, f, hb', hB⟩ := mag_form bin_sgl b
    rw [fbits_sgl] at hA hB
    generalize hc : ((2 * K + 1) * 2 ^ e : Nat) = c at *
    have e1 : 2 * (((magVal sgl a * 2 ^ 149 : Nat) : ℚ) / magVal sgl b) - c = (2 * ((magVal sgl a * 2 ^ 149 : Nat) : ℚ) - c * magVal sgl b) / magVal sgl b := by field_simp
    rw [e1, abs_div, abs_of_pos hbq, div_mul_eq_mul_div, div_le_iff₀ hbq] at h
    have n1 : magVal sgl a * 2 ^ 149 * 2 = A * 2 ^ (g + 150) := by
      rw [ha, Nat.pow_add 2 g 150, show (2 : Nat) ^ 150 = 2 ^ 149 * 2 by rw [← Nat.pow_succ]]; ring
    have n2 : c * magVal sgl b = ((2 * K + 1) * B) * 2 ^ (e + f) := by
      rw [hb', ← hc, Nat.pow_add]; ring
    have hC : (2 * K + 1) * B < 2 ^ 49 := by
      have : (2 * K + 1) * B ≤ (2 ^ 25) * B := Nat.mul_le_mul_right _ (by omega)
      omega
    have q1 : 2 * ((magVal sgl a * 2 ^ 149 : Nat) : ℚ) = ((A * 2 ^ (g + 150) : Nat) : ℚ) := by rw [← n1]; push_cast; ring
    have q2 : (c : ℚ) * magVal sgl b = ((((2 * K + 1) * B) * 2 ^ (e + f) : Nat) : ℚ) := by rw [← n2]; push_cast; ring
    rw [q1, q2] at h
    have k : A * 2 ^ (g + 150) = ((2 * K + 1) * B) * 2 ^ (e + f) := by
      have hg := gap A ((2 * K + 1) * B) (g + 150) (e + f) hA hC
      generalize A * 2 ^ (g + 150) = X at *
      generalize ((2 * K + 1) * B) * 2 ^ (e + f) = Y at *
      apply hg
      · have : (2 : ℚ) ^ 53 * X ≤ 2 ^ 53 * Y + Y := by
          have := le_abs_self ((X : ℚ) - Y); linarith
        exact_mod_cast this
      · have : (2 : ℚ) ^ 53 * Y ≤ 2 ^ 53 * X + Y := by
          have := neg_abs_le ((X : ℚ) - Y); linarith
        exact_mod_cast this
    rw [k] at q1
    rw [← q2] at q1
    field_simp
    linarith

/-- A sum of two numbers of 24 bits that is very close to the midpoint of two neighbouring numbers of 24 bits is that midpoint. -/
theorem sum_gap (S T : Int) (g f K e : Nat) (hS : S.natAbs < 2 ^ 24) (hT : T.natAbs < 2 ^ 24) (hfg : f ≤ g) (hK : K < 2 ^ 24) (he : e = 0 ∨ 2 ^ 23 ≤ K)
    (h1 : 2 ^ 53 * (2 * (S * 2 ^ g + T * 2 ^ f)) ≤ 2 ^ 53 * ((2 * K + 1) * 2 ^ e : Int) + (2 * K + 1) * 2 ^ e)
    (h2 : 2 ^ 53 * ((2 * K + 1) * 2 ^ e : Int) ≤ 2 ^ 53 * (2 * (S * 2 ^ g + T * 2 ^ f)) + (2 * K + 1) * 2 ^ e) :
    2 * (S * 2 ^ g + T * 2 ^ f) = ((2 * K + 1) * 2 ^ e : Int) := by
  obtain ⟨i, rfl⟩ : ∃ i, g = f + i := ⟨g - f, by omega⟩
  rcases Nat.lt_or_ge (f + 1) e with c | c
  · obtain ⟨j, rfl⟩ : ∃ j, e = f + 1 + j := ⟨e - (f + 1), by omega⟩
    have hK' : 2 ^ 23 ≤ K := by omega
    have hj : 1 ≤ j := by omega
    have e1 : 2 * (S * 2 ^ (f + i) + T * 2 ^ f) = (S * 2 ^ i + T) * (2 * 2 ^ f) := by rw [pow_add]; ring
    have e2 : ((2 * K + 1) * 2 ^ (f + 1 + j) : Int) = ((2 * K + 1) * 2 ^ j) * (2 * 2 ^ f) := by rw [pow_add, pow_succ]; ring
    rw [e1, e2] at h1 h2 ⊢
    have hp : (0 : Int) < 2 * 2 ^ f := by positivity
    generalize (2 * 2 ^ f : Int) = P at *
    have k1 : 2 ^ 53 * (S * 2 ^ i + T) ≤ 2 ^ 53 * ((2 * K + 1) * 2 ^ j : Int) + (2 * K + 1) * 2 ^ j := by
      refine le_of_mul_le_mul_right ?_ hp; linarith
    have k2 : 2 ^ 53 * ((2 * K + 1) * 2 ^ j : Int) ≤ 2 ^ 53 * (S * 2 ^ i + T) + (2 * K + 1) * 2 ^ j := by
      refine le_of_mul_le_mul_right ?_ hp; linarith
    congr 1
    have hC0 : (2 ^ 24 + 1) * (2 : Int) ^ j ≤ (2 * K + 1) * 2 ^ j := mul_le_mul_of_nonneg_right (by omega) (by positivity)
    by_cases hC : ((2 * K + 1) * 2 ^ j : Int) < 2 ^ 53
    · generalize ((2 * K + 1) * 2 ^ j : Int) = C at *
      generalize S * 2 ^ i = Z at *
      omega
    · exfalso
      rcases Nat.lt_or_ge i j with ci | ci
      · have q1 : S * 2 ^ i ≤ 2 ^ 24 * 2 ^ i := mul_le_mul_of_nonneg_right (by omega) (by positivity)
        have q2 : (2 : Int) * 2 ^ i ≤ 2 ^ j := by
          rw [← pow_succ']
          exact pow_le_pow_right₀ (by omega) (by omega)
        generalize ((2 * K + 1) * 2 ^ j : Int) = C at *
        generalize S * 2 ^ i = Z at *
        omega
      · obtain ⟨l, rfl⟩ : ∃ l, i = j + l := ⟨i - j, by omega⟩
        have e3 : S * 2 ^ (j + l) = (S * 2 ^ l) * 2 ^ j := by rw [pow_add]; ring
        rw [e3] at k1 k2
        generalize hS' : S * 2 ^ l = S' at *
        have hQ : (0 : Int) < 2 ^ j := by positivity
        generalize (2 ^ j : Int) = Q at *
        have d1 : 2 ^ 29 * (S' - (2 * K + 1)) ≤ 2 * (2 * K + 1) := by
          refine le_of_mul_le_mul_right ?_ hQ
          have : 2 ^ 29 * (S' - (2 * K + 1)) * Q = 2 ^ 29 * (S' * Q) - 2 ^ 29 * ((2 * K + 1) * Q) := by ring
          rw [this, mul_assoc]
          generalize (2 * (K : Int) + 1) * Q = C at *
          generalize S' * Q = Z at *
          omega
        have d2 : 2 ^ 29 * ((2 * K + 1) - S') ≤ 2 * (2 * K + 1) := by
          refine le_of_mul_le_mul_right ?_ hQ
          have : 2 ^ 29 * ((2 * K + 1) - S') * Q = 2 ^ 29 * ((2 * K + 1) * Q) - 2 ^ 29 * (S' * Q) := by ring
          rw [this, mul_assoc]
          generalize (2 * (K : Int) + 1) * Q = C at *
          generalize S' * Q = Z at *
          omega
        have e4 : S' = 2 * K + 1 := by omega
        cases l with
        | zero => rw [pow_zero, mul_one] at hS'; omega
        | succ l => rw [pow_succ, ← mul_assoc] at hS'; omega
  · obtain ⟨l, hl⟩ : ∃ l, f + 1 = e + l := ⟨f + 1 - e, by omega⟩
    have e1 : 2 * (S * 2 ^ (f + i) + T * 2 ^ f) = ((S * 2 ^ i + T) * 2 ^ l) * 2 ^ e := by
      have : (2 : Int) * 2 ^ f = 2 ^ e * 2 ^ l := by rw [← pow_succ', hl, pow_add]
      rw [pow_add]
      calc _ = (S * 2 ^ i + T) * (2 * 2 ^ f) := by ring
        _ = _ := by rw [this]; ring
    rw [e1] at h1 h2 ⊢
    have hp : (0 : Int) < 2 ^ e := by positivity
    generalize ((S * 2 ^ i + T) * 2 ^ l : Int) = Z at *
    clear e1
    generalize (2 ^ e : Int) = P at *
    have k1 : 2 ^ 53 * Z ≤ 2 ^ 53 * (2 * K + 1 : Int) + (2 * K + 1) := by
      refine le_of_mul_le_mul_right ?_ hp; linarith
    have k2 : 2 ^ 53 * (2 * K + 1 : Int) ≤ 2 ^ 53 * Z + (2 * K + 1) := by
      refine le_of_mul_le_mul_right ?_ hp; linarith
    congr 1; omega

/-- The signed number of a magnitude. -/
def signed (s : Bool) (v : Nat) : Int := if s = true then -(v : Int) else v

theorem signed_form (s : Bool) (m : Nat) : ∃ (S : Int) (g : Nat), signed s (magVal sgl m) = S * 2 ^ g ∧ S.natAbs < 2 ^ 24 := by
  obtain ⟨A, g, ha, hA⟩ := mag_form bin_sgl m
  rw [fbits_sgl] at hA
  refine ⟨signed s A, g, ?_, ?_⟩
  · unfold signed; rw [ha]; split <;> push_cast <;> ring
  · unfold signed; split <;> omega

/-- Sums of singles. -/
theorem add_twice (a b : Nat) (s t : Bool) :
    roundMag sgl (magVal dbl (roundMag dbl ((signed s (magVal sgl a) + signed t (magVal sgl b)).natAbs * 2 ^ 925) 1) * 2 ^ places sgl) (2 ^ places dbl) =
      roundMag sgl (signed s (magVal sgl a) + signed t (magVal sgl b)).natAbs 1 := by
  refine round_twice _ _ _ _ (by omega) (by omega) (by rw [Nat.cast_mul, Nat.cast_pow, Nat.cast_ofNat, Nat.cast_one, div_one, div_one]) ?_
  intro K e hK he h
  obtain ⟨S, g, h1, hS⟩ := signed_form s a
  obtain ⟨T, f, h2, hT⟩ := signed_form t b
  rw [h1, h2] at h ⊢
  rw [Nat.cast_one, div_one] at h ⊢
  have main : ∀ S T : Int, ∀ g f : Nat, S.natAbs < 2 ^ 24 → T.natAbs < 2 ^ 24 → 0 ≤ S * 2 ^ g + T * 2 ^ f →
      |2 * ((S * 2 ^ g + T * 2 ^ f : Int) : ℚ) - (((2 * K + 1) * 2 ^ e : Nat) : ℚ)| * 2 ^ 53 ≤ (((2 * K + 1) * 2 ^ e : Nat) : ℚ) →
      2 * (S * 2 ^ g + T * 2 ^ f) = ((2 * K + 1) * 2 ^ e : Int) := by
    intro S T g f hS hT _ h
    have key : ∀ X Y : Int, |2 * (X : ℚ) - (Y : ℚ)| * 2 ^ 53 ≤ (Y : ℚ) → 2 ^ 53 * (2 * X) ≤ 2 ^ 53 * Y + Y ∧ 2 ^ 53 * Y ≤ 2 ^ 53 * (2 * X) + Y := by
      intro X Y h
      constructor
      · have : (2 : ℚ) ^ 53 * (2 * X) ≤ 2 ^ 53 * Y + Y := by
          have := le_abs_self (2 * (X : ℚ) - Y); linarith
        exact_mod_cast this
      · have : (2 : ℚ) ^ 53 * Y ≤ 2 ^ 53 * (2 * X) + Y := by
          have := neg_abs_le (2 * (X : ℚ) - Y); linarith
        exact_mod_cast this
    have e0 : ((((2 * K + 1) * 2 ^ e : Nat)) : ℚ) = (((2 * K + 1) * 2 ^ e : Int) : ℚ) := by push_cast; rfl
    rw [e0] at h
    obtain ⟨k1, k2⟩ := key _ _ h
    rcases Nat.le_total f g with c | c
    · exact sum_gap S T g f K e hS hT c hK he k1 k2
    · rw [add_comm (S * 2 ^ g)] at k1 k2 ⊢
      exact sum_gap T S f g K e hT hS c hK he k1 k2
  have fin : 2 * ((S * 2 ^ g + T * 2 ^ f).natAbs : Int) = ((2 * K + 1) * 2 ^ e : Int) := by
    rcases le_total 0 (S * 2 ^ g + T * 2 ^ f) with c | c
    · have e1 : ((S * 2 ^ g + T * 2 ^ f).natAbs : Int) = S * 2 ^ g + T * 2 ^ f := by omega
      have e2 : ((S * 2 ^ g + T * 2 ^ f).natAbs : ℚ) = ((S * 2 ^ g + T * 2 ^ f : Int) : ℚ) := (Int.cast_natCast _).symm.trans (congrArg _ e1)
      rw [e2] at h
      rw [e1]
      exact main S T g f hS hT c h
    · have e1 : ((S * 2 ^ g + T * 2 ^ f).natAbs : Int) = (-S) * 2 ^ g + (-T) * 2 ^ f := by rw [neg_mul, neg_mul]; omega
      have e2 : ((S * 2 ^ g + T * 2 ^ f).natAbs : ℚ) = (((-S) * 2 ^ g + (-T) * 2 ^ f : Int) : ℚ) := (Int.cast_natCast _).symm.trans (congrArg _ e1)
      rw [e2] at h
      rw [e1]
      exact main (-S) (-T) g f (by omega) (by omega) (by omega) h
  exact_mod_cast fin

end Verif.FloatExpr
