import Verif.FloatParseProps
/-!
# C128, C129: the text of Doubles and Singles, and its round trip
-/
namespace Verif.FloatText
open Verif.FltModel Verif.FltSpec Verif.FltProps Verif.Rnd Verif.FloatTextSpec

variable {F : Fmt}

/-! ### Six significant digits -/

theorem log10_spec : ∀ (fuel n : Nat), 0 < n → n ≤ fuel → 10 ^ log10 fuel n ≤ n ∧ n < 10 ^ (log10 fuel n + 1) := by
  intro fuel
  induction fuel with
  | zero => intro n h1 h2; omega
  | succ f ih =>
    intro n h1 h2
    unfold log10
    by_cases c : n < 10
    · rw [if_pos c]; omega
    · rw [if_neg c]
      obtain ⟨a, b⟩ := ih (n / 10) (by omega) (by omega)
      rw [Nat.pow_succ] at b ⊢
      rw [Nat.pow_succ (10 : Nat) (log10 f (n / 10) + 1), Nat.pow_succ]
      omega

theorem lead_spec : ∀ (fuel n d : Nat), d ≤ n * 10 ^ fuel → d ≤ n * 10 ^ lead fuel n d ∧ (lead fuel n d = 0 ∨ n * 10 ^ (lead fuel n d - 1) < d) := by
  intro fuel
  induction fuel with
  | zero => intro n d h; exact ⟨h, Or.inl rfl⟩
  | succ f ih =>
    intro n d h
    unfold lead
    by_cases c : d ≤ n
    · rw [if_pos c]; exact ⟨by omega, Or.inl rfl⟩
    · rw [if_neg c]
      obtain ⟨a, b⟩ := ih (n * 10) d (by rw [Nat.mul_assoc, ← Nat.pow_succ']; exact h)
      refine ⟨by rw [Nat.pow_succ', ← Nat.mul_assoc]; exact a, Or.inr ?_⟩
      rw [Nat.add_sub_cancel]
      rcases b with b | b
      · rw [b]; omega
      · by_cases z : lead f (n * 10) d = 0
        · rw [z]; omega
        · have : lead f (n * 10) d = lead f (n * 10) d - 1 + 1 := by omega
          rw [this, Nat.pow_succ', ← Nat.mul_assoc]
          exact b

/-- The decimal exponent. -/
theorem expo_spec (n d : Nat) (hn : 0 < n) (hd : 0 < d) : (10 : ℚ) ^ expo n d ≤ (n : ℚ) / d ∧ (n : ℚ) / d < 10 ^ (expo n d + 1) := by
  have hq : (0 : ℚ) < d := by exact_mod_cast hd
  unfold expo
  by_cases c : d ≤ n
  · rw [if_pos c]
    have hp : 0 < n / d := Nat.div_pos c hd
    obtain ⟨a, b⟩ := log10_spec (n / d) (n / d) hp (Nat.le_refl _)
    generalize log10 (n / d) (n / d) = k at *
    rw [Nat.le_div_iff_mul_le hd] at a
    rw [Nat.div_lt_iff_lt_mul hd] at b
    rw [le_div_iff₀ hq, div_lt_iff₀ hq, show ((k : Int) + 1) = ((k + 1 : Nat) : Int) by push_cast; rfl, zpow_natCast, zpow_natCast]
    exact ⟨by exact_mod_cast a, by exact_mod_cast b⟩
  · rw [if_neg c]
    have h10 : d ≤ n * 10 ^ d := by
      have h1 : d < 10 ^ d := Nat.lt_pow_self (by omega)
      have h2 : 1 * 10 ^ d ≤ n * 10 ^ d := Nat.mul_le_mul_right _ hn
      omega
    obtain ⟨a, b⟩ := lead_spec d n d h10
    generalize lead d n d = k at *
    have hk : k ≠ 0 := by
      intro e; subst e; rw [Nat.pow_zero, Nat.mul_one] at a; omega
    have b := b.resolve_left hk
    obtain ⟨j, rfl⟩ : ∃ j, k = j + 1 := ⟨k - 1, by omega⟩
    rw [Nat.add_sub_cancel] at b
    have e1 : (-((j + 1 : Nat) : Int)) + 1 = -(j : Int) := by push_cast; ring
    rw [e1, zpow_neg, zpow_neg, zpow_natCast, zpow_natCast, le_div_iff₀ hq, div_lt_iff₀ hq]
    have hpj : (0 : ℚ) < 10 ^ j := by positivity
    have hpj1 : (0 : ℚ) < 10 ^ (j + 1) := by positivity
    constructor
    · rw [inv_mul_le_iff₀ hpj1, mul_comm]; exact_mod_cast a
    · rw [← div_eq_inv_mul, lt_div_iff₀ hpj]; exact_mod_cast b

/-- The integer nearest to a quotient. -/
theorem rne_q (n d : Nat) (hd : 0 < d) : |(n : ℚ) / d - Arith.rne n d| ≤ 1 / 2 := by
  have hq : (0 : ℚ) < d := by exact_mod_cast hd
  obtain ⟨h1, h2, _⟩ := Arith.rne_spec n d hd
  generalize Arith.rne n d = k at *
  have h1 : (2 : ℚ) * n ≤ (2 * k + 1) * d := by exact_mod_cast h1
  have h2 : (2 : ℚ) * k * d ≤ 2 * n + d := by exact_mod_cast h2
  rw [abs_le]
  constructor
  · rw [le_sub_iff_add_le, le_div_iff₀ hq]; linarith
  · rw [sub_le_iff_le_add, div_le_iff₀ hq]; linarith

theorem nearest_int (y : ℚ) (k j : ℤ) (h : |y - k| ≤ 1 / 2) : |y - k| ≤ |y - j| := by
  by_cases e : j = k
  · rw [e]
  · have h1 : (1 : ℚ) ≤ |(j : ℚ) - k| := by
      rw [← Int.cast_sub, ← Int.cast_abs]
      exact_mod_cast Int.one_le_abs (sub_ne_zero.2 e)
    have h2 : |(j : ℚ) - k| ≤ |y - k| + |y - j| := by
      rw [show (j : ℚ) - k = (y - k) - (y - j) by ring]
      exact abs_sub _ _
    linarith

theorem scale_q (n d : Nat) (x : Int) : ((n * 10 ^ (5 - x).toNat : Nat) : ℚ) / ((d * 10 ^ (x - 5).toNat : Nat) : ℚ) = (n : ℚ) / d / 10 ^ (x - 5) := by
  rcases le_total 0 (x - 5) with c | c
  · obtain ⟨k, hk⟩ := Int.eq_ofNat_of_zero_le c
    rw [show (5 - x).toNat = 0 by omega, show (x - 5).toNat = k by omega, hk]
    push_cast
    rw [zpow_natCast, mul_one, div_div]
  · obtain ⟨k, hk⟩ := Int.eq_ofNat_of_zero_le (show 0 ≤ 5 - x by omega)
    rw [show (5 - x).toNat = k by omega, show (x - 5).toNat = 0 by omega, show x - 5 = -(k : Int) by omega]
    push_cast
    rw [zpow_neg, zpow_natCast, mul_one, div_inv_eq_mul]
    ring

/-- What the six digits are: with `10^X ≤ v < 10^(X+1)`, the integer nearest to `v / 10^(X-5)`, written with a six-digit integer. -/
theorem digits6_spec (n d : Nat) (hn : 0 < n) (hd : 0 < d) : ∃ X : Int, ∃ k0 : Nat, (10 : ℚ) ^ X ≤ (n : ℚ) / d ∧ (n : ℚ) / d < 10 ^ (X + 1) ∧
    |(n : ℚ) / d / 10 ^ (X - 5) - (k0 : ℤ)| ≤ 1 / 2 ∧ ((digits6 n d).1 : ℚ) * 10 ^ ((digits6 n d).2 - 5) = k0 * 10 ^ (X - 5) ∧
    100000 ≤ (digits6 n d).1 ∧ (digits6 n d).1 < 1000000 ∧ ((digits6 n d).2 = X ∨ (digits6 n d).2 = X + 1) := by
  obtain ⟨a, b⟩ := expo_spec n d hn hd
  refine ⟨expo n d, Arith.rne (n * 10 ^ (5 - expo n d).toNat) (d * 10 ^ (expo n d - 5).toNat), a, b, ?_, ?_⟩
  · have := rne_q (n * 10 ^ (5 - expo n d).toNat) (d * 10 ^ (expo n d - 5).toNat) (by positivity)
    rw [scale_q] at this
    exact_mod_cast this
  · unfold digits6
    simp only []
    generalize hX : expo n d = X at *
    have hD : 0 < d * 10 ^ (X - 5).toNat := by positivity
    have hsc := scale_q n d X
    have hDq : (0 : ℚ) < ((d * 10 ^ (X - 5).toNat : Nat) : ℚ) := by exact_mod_cast hD
    have hZ : (0 : ℚ) < 10 ^ (X - 5) := by positivity
    have e5 : (10 : ℚ) ^ X = 100000 * 10 ^ (X - 5) := by
      rw [show X = 5 + (X - 5) by ring, zpow_add₀ (by norm_num), show (5 + (X - 5) - 5 : Int) = X - 5 by ring]; norm_num
    have e6 : (10 : ℚ) ^ (X + 1) = 1000000 * 10 ^ (X - 5) := by
      rw [show X + 1 = 6 + (X - 5) by ring, zpow_add₀ (by norm_num)]; norm_num
    have lo : 100000 ≤ Arith.rne (n * 10 ^ (5 - X).toNat) (d * 10 ^ (X - 5).toNat) := by
      apply Arith.rne_lower _ _ _ hD
      have : (100000 : ℚ) ≤ ((n * 10 ^ (5 - X).toNat : Nat) : ℚ) / ((d * 10 ^ (X - 5).toNat : Nat) : ℚ) := by
        rw [hsc, le_div_iff₀ hZ, ← e5]; exact a
      rw [le_div_iff₀ hDq] at this
      exact_mod_cast this
    have hi : Arith.rne (n * 10 ^ (5 - X).toNat) (d * 10 ^ (X - 5).toNat) ≤ 1000000 := by
      apply Arith.rne_upper _ _ _ hD
      have : ((n * 10 ^ (5 - X).toNat : Nat) : ℚ) / ((d * 10 ^ (X - 5).toNat : Nat) : ℚ) ≤ 1000000 := by
        rw [hsc, div_le_iff₀ hZ, ← e6]; exact le_of_lt b
      rw [div_le_iff₀ hDq] at this
      exact_mod_cast this
    generalize Arith.rne (n * 10 ^ (5 - X).toNat) (d * 10 ^ (X - 5).toNat) = k at *
    by_cases c : k = 1000000
    · rw [if_pos c]
      subst c
      refine ⟨?_, by simp only []; omega, by simp only []; omega, Or.inr rfl⟩
      rw [show (X + 1 - 5 : Int) = 1 + (X - 5) by ring, zpow_add₀ (by norm_num)]
      push_cast
      ring
    · rw [if_neg c]
      exact ⟨rfl, lo, by simp only []; omega, Or.inl rfl⟩

/-- The six-digit decimal is nearest among all decimals of at most six digits, whatever their exponent. -/
theorem six_nearest (v : ℚ) (X : Int) (k0 : Nat) (a : (10 : ℚ) ^ X ≤ v) (h : |v / 10 ^ (X - 5) - (k0 : ℤ)| ≤ 1 / 2) (m : ℤ) (e : Int) (hm : |m| < 1000000) :
    |v - k0 * 10 ^ (X - 5)| ≤ |v - m * 10 ^ e| := by
  have hZ : (0 : ℚ) < 10 ^ (X - 5) := by positivity
  have sc : ∀ t : ℚ, |v - t * 10 ^ (X - 5)| = |v / 10 ^ (X - 5) - t| * 10 ^ (X - 5) := by
    intro t
    conv_rhs => rw [← abs_of_pos hZ]
    rw [← abs_mul, sub_mul, abs_of_pos hZ, div_mul_cancel₀ _ (ne_of_gt hZ)]
  have big : ∀ j : ℤ, |v - k0 * 10 ^ (X - 5)| ≤ |v - j * 10 ^ (X - 5)| := by
    intro j
    rw [sc, sc]
    exact mul_le_mul_of_nonneg_right (by exact_mod_cast nearest_int _ k0 j h) (le_of_lt hZ)
  rcases le_or_gt (X - 5) e with c | c
  · obtain ⟨k, hk⟩ := Int.eq_ofNat_of_zero_le (show 0 ≤ e - (X - 5) by omega)
    have := big (m * 10 ^ k)
    rwa [show ((m * 10 ^ k : ℤ) : ℚ) * 10 ^ (X - 5) = m * 10 ^ e by
      rw [show e = k + (X - 5) by omega, zpow_add₀ (by norm_num), zpow_natCast]; push_cast; ring] at this
  · have h1 := big 100000
    have e5 : ((100000 : ℤ) : ℚ) * 10 ^ (X - 5) = (10 : ℚ) ^ X := by
      rw [show X = 5 + (X - 5) by ring, zpow_add₀ (by norm_num), show (5 + (X - 5) - 5 : Int) = X - 5 by ring]; norm_num
    rw [e5] at h1
    have hsmall : (m : ℚ) * 10 ^ e ≤ 10 ^ X := by
      have hm' : (m : ℚ) ≤ 1000000 := by
        have := (abs_lt.1 hm).2
        exact_mod_cast le_of_lt this
      have he : (10 : ℚ) ^ e ≤ 10 ^ (X - 6) := zpow_le_zpow_right₀ (by norm_num) (by omega)
      have hpos : (0 : ℚ) < 10 ^ e := by positivity
      calc (m : ℚ) * 10 ^ e ≤ 1000000 * 10 ^ e := mul_le_mul_of_nonneg_right hm' (le_of_lt hpos)
        _ ≤ 1000000 * 10 ^ (X - 6) := mul_le_mul_of_nonneg_left he (by norm_num)
        _ = 10 ^ X := by rw [show X = 6 + (X - 6) by ring, zpow_add₀ (by norm_num), show (6 + (X - 6) - 6 : Int) = X - 6 by ring]; norm_num
    refine le_trans h1 ?_
    rw [abs_of_nonneg (by linarith), abs_of_nonneg (by linarith)]
    linarith

/-! ### The text -/

theorem numeral_app (a b : WStr) : numeral (a ++ b) = numeral a * 10 ^ b.length + numeral b := by
  induction b using List.reverseRecOn with
  | nil => simp [numeral]
  | append_singleton b c ih =>
    rw [← List.append_assoc, numeral_append_one, ih, numeral_append_one, List.length_append, List.length_singleton, Nat.pow_succ]
    ring

theorem padDec_spec (k n : Nat) : (padDec k n).length = k ∧ numeral (padDec k n) = n % 10 ^ k ∧ ∀ c ∈ padDec k n, isDigit c = true := by
  induction k generalizing n with
  | zero => refine ⟨rfl, ?_, ?_⟩; · rw [Nat.pow_zero, Nat.mod_one]; rfl
            · intro c hc; cases hc
  | succ k ih =>
    obtain ⟨h1, h2, h3⟩ := ih (n / 10)
    unfold padDec
    refine ⟨by rw [List.length_append, h1]; rfl, ?_, ?_⟩
    · rw [numeral_append_one, h2, Nat.pow_succ', Nat.mod_mul]
      omega
    · intro c hc
      rw [List.mem_append] at hc
      rcases hc with hc | hc
      · exact h3 c hc
      · simp only [List.mem_singleton] at hc
        subst hc
        simp only [isDigit, Bool.and_eq_true, decide_eq_true_eq]; omega

theorem strip_spec (s : WStr) : ∃ z, s = stripZeros s ++ List.replicate z 48 := by
  unfold stripZeros
  have h : ∀ r : WStr, ∃ z, r = List.replicate z 48 ++ r.dropWhile (· == 48) := by
    intro r
    induction r with
    | nil => exact ⟨0, rfl⟩
    | cons c r ih =>
      rw [List.dropWhile_cons]
      by_cases hc : c = 48
      · subst hc
        obtain ⟨z, hz⟩ := ih
        refine ⟨z + 1, ?_⟩
        simp only [beq_self_eq_true, if_true, List.replicate_succ, List.cons_append]
        rw [← hz]
      · refine ⟨0, ?_⟩
        rw [if_neg (by simpa using hc)]; rfl
  obtain ⟨z, hz⟩ := h s.reverse
  refine ⟨z, ?_⟩
  have := congrArg List.reverse hz
  rwa [List.reverse_reverse, List.reverse_append, List.reverse_replicate] at this

theorem numeral_zeros (z : Nat) : numeral (List.replicate z 48) = 0 := by
  induction z with
  | zero => rfl
  | succ z ih => rw [List.replicate_succ', numeral_append_one, ih]

/-- The digits of a body: `m / 10^k`. -/
theorem body_spec (m k : Nat) : ∃ ip fd : WStr, body m k = ip ++ point fd ∧ ip ≠ [] ∧ (∀ c ∈ ip, isDigit c = true) ∧ (∀ c ∈ fd, isDigit c = true) ∧
    ∃ z, fd.length + z = k ∧ numeral (ip ++ fd) * 10 ^ z = m := by
  obtain ⟨p1, p2, p3⟩ := padDec_spec k (m % 10 ^ k)
  obtain ⟨z, hz⟩ := strip_spec (padDec k (m % 10 ^ k))
  refine ⟨dec (m / 10 ^ k), stripZeros (padDec k (m % 10 ^ k)), rfl, dec_ne_nil _, dec_digits _, ?_, z, ?_, ?_⟩
  · intro c hc; apply p3; rw [hz]; exact List.mem_append_left _ hc
  · have := congrArg List.length hz
    rw [List.length_append, List.length_replicate, p1] at this; omega
  · have h1 : numeral (dec (m / 10 ^ k) ++ padDec k (m % 10 ^ k)) = m := by
      rw [numeral_app, p1, p2, numeral_dec, Nat.mod_mod]
      exact Nat.div_add_mod' m (10 ^ k)
    rw [hz, ← List.append_assoc, numeral_app, numeral_zeros, List.length_replicate, Nat.add_zero] at h1
    exact h1

theorem point_spec (fd : WStr) : (point fd = [] ∧ fd = []) ∨ point fd = 46 :: fd := by
  unfold point
  by_cases h : fd = []
  · rw [if_pos h]; exact Or.inl ⟨rfl, h⟩
  · rw [if_neg h]; exact Or.inr rfl

theorem dec2_spec (n : Nat) : numeral (dec2 n) = n ∧ (∀ c ∈ dec2 n, isDigit c = true) ∧ dec2 n ≠ [] := by
  unfold dec2
  split
  · refine ⟨?_, ?_, by simp⟩
    · rw [show (48 :: dec n : WStr) = [48] ++ dec n from rfl, numeral_app, numeral_dec]
      simp [numeral]
    · intro c hc
      rcases List.mem_cons.1 hc with rfl | hc
      · rfl
      · exact dec_digits n c hc
  · exact ⟨numeral_dec n, dec_digits n, dec_ne_nil n⟩

theorem expoText_spec (x : Int) : ExpText (expoText x) x := by
  obtain ⟨h1, h2, h3⟩ := dec2_spec x.natAbs
  unfold expoText
  by_cases c : x < 0
  · rw [if_pos c]
    refine Or.inr ⟨69, [45], dec2 x.natAbs, true, rfl, Or.inr rfl, Or.inr (Or.inr ⟨rfl, rfl⟩), h3, h2, ?_⟩
    rw [h1, if_pos rfl]; omega
  · rw [if_neg c]
    refine Or.inr ⟨69, [43], dec2 x.natAbs, false, rfl, Or.inr rfl, Or.inr (Or.inl ⟨rfl, rfl⟩), h3, h2, ?_⟩
    rw [h1, if_neg (by simp)]; omega

theorem signText_spec (s : Bool) : SignText (signText s) s := by
  cases s
  · exact Or.inl ⟨rfl, rfl⟩
  · exact Or.inr (Or.inr ⟨rfl, rfl⟩)

/-- A body and an exponent make a numeral. -/
theorem body_decimal (s : Bool) (k6 k : Nat) (hk : k6 < 1000000) (ep : WStr) (x : Int) (he : ExpText ep x) : ∃ m e, DecimalText (signText s ++ (body k6 k ++ ep)) s m e ∧ m < 1000000 ∧
    (m : ℚ) * 10 ^ e = k6 * 10 ^ (x - k) := by
  obtain ⟨ip, fd, hb, hi, hid, hfd, z, hz, hm⟩ := body_spec k6 k
  refine ⟨numeral (ip ++ fd), x - fd.length, ⟨signText s, ip, point fd, fd, ep, x, by rw [hb, List.append_assoc], signText_spec s, hid, hfd, point_spec fd, by simp [hi], he, rfl, rfl⟩, ?_, ?_⟩
  · have : numeral (ip ++ fd) * 1 ≤ numeral (ip ++ fd) * 10 ^ z := Nat.mul_le_mul_left _ (Nat.one_le_pow _ _ (by omega))
    omega
  · rw [← hm, show x - fd.length = z + (x - k) by omega, zpow_add₀ (by norm_num), zpow_natCast]
    push_cast
    ring

/-- The text of a positive number. -/
theorem gText_decimal (s : Bool) (n d : Nat) (hn : 0 < n) (hd : 0 < d) : ∃ m e, DecimalText (signText s ++ gText n d) s m e ∧ m < 1000000 ∧
    (m : ℚ) * 10 ^ e = ((digits6 n d).1 : ℚ) * 10 ^ ((digits6 n d).2 - 5) := by
  obtain ⟨X, k0, _, _, _, _, _, hk, _⟩ := digits6_spec n d hn hd
  unfold gText
  rw [if_neg (by omega)]
  by_cases c : -4 ≤ (digits6 n d).2 ∧ (digits6 n d).2 < 6
  · rw [if_pos c]
    obtain ⟨m, e, h1, h2, h3⟩ := body_decimal s (digits6 n d).1 (5 - (digits6 n d).2).toNat hk [] 0 (Or.inl ⟨rfl, rfl⟩)
    refine ⟨m, e, by rwa [List.append_nil] at h1, h2, ?_⟩
    rw [h3]
    congr 2
    omega
  · rw [if_neg c]
    obtain ⟨m, e, h1, h2, h3⟩ := body_decimal s (digits6 n d).1 5 hk _ _ (expoText_spec (digits6 n d).2)
    exact ⟨m, e, h1, h2, h3⟩

/-! ### Its length -/

theorem dec_length (j : Nat) : ∀ n, n < 10 ^ (j + 1) → (dec n).length ≤ j + 1 := by
  induction j with
  | zero => intro n h; rw [dec_rec, if_pos (by omega)]; simp
  | succ j ih =>
    intro n h
    rw [dec_rec]
    split
    · simp
    · rw [Nat.pow_succ] at h
      have := ih (n / 10) (by omega)
      simp; omega

theorem body_length (m k : Nat) (h : m < 1000000) : (body m k).length ≤ 7 + k := by
  unfold body
  obtain ⟨z, hz⟩ := strip_spec (padDec k (m % 10 ^ k))
  have h1 := congrArg List.length hz
  rw [List.length_append, List.length_replicate, (padDec_spec k (m % 10 ^ k)).1] at h1
  have h2 : (dec (m / 10 ^ k)).length ≤ 5 + 1 := dec_length 5 _ (Nat.lt_of_le_of_lt (Nat.div_le_self _ _) h)
  have h3 : ∀ f : WStr, (point f).length ≤ f.length + 1 := by intro f; unfold point; split <;> simp
  have := h3 (stripZeros (padDec k (m % 10 ^ k)))
  rw [List.length_append]; omega

theorem lib_bounds (hl : Lib F) : 2 ^ places F < 10 ^ 324 ∧ magVal F F.I < 10 ^ 309 * 2 ^ places F := by
  rcases hl with rfl | rfl
  · rw [places_dbl]; decide +kernel
  · rw [places_sgl]; decide +kernel

/-- The exponent of a finite number has at most three digits. -/
theorem expo_small (hl : Lib F) (m : Nat) (h0 : 0 < m) (hm : m < F.I) (X : Int) (a : (10 : ℚ) ^ X ≤ (magVal F m : ℚ) / (2 ^ places F : Nat)) (b : (magVal F m : ℚ) / (2 ^ places F : Nat) < 10 ^ (X + 1)) :
    -325 ≤ X ∧ X < 309 := by
  obtain ⟨l1, l2⟩ := lib_bounds hl
  have hP : (0 : ℚ) < (2 ^ places F : Nat) := by positivity
  have hv1 : 1 ≤ magVal F m := by
    have := magVal_lt F (M0 (lib_bin hl)) h0
    rw [magVal_zero] at this; exact this
  have hv2 := magVal_lt F (M0 (lib_bin hl)) hm
  have p1 : (10 : ℚ) ^ (-324 : ℤ) < 10 ^ (X + 1) := by
    refine lt_trans ?_ b
    rw [zpow_neg, show (324 : ℤ) = ((324 : Nat) : ℤ) from rfl, zpow_natCast, lt_div_iff₀ hP, inv_mul_lt_iff₀ (by positivity)]
    have e : 2 ^ places F < 10 ^ 324 * magVal F m := Nat.lt_of_lt_of_le l1 (Nat.le_mul_of_pos_right _ hv1)
    exact_mod_cast e
  have p2 : (10 : ℚ) ^ X < 10 ^ (309 : ℤ) := by
    refine lt_of_le_of_lt a ?_
    rw [show (309 : ℤ) = ((309 : Nat) : ℤ) from rfl, zpow_natCast, div_lt_iff₀ hP]
    exact_mod_cast Nat.lt_trans hv2 l2
  rw [zpow_lt_zpow_iff_right₀ (by norm_num)] at p1 p2
  omega

theorem gText_length (hl : Lib F) (m : Nat) (hm : m < F.I) : (gText (magVal F m) (2 ^ places F)).length ≤ 20 := by
  unfold gText
  by_cases z : magVal F m = 0
  · rw [if_pos z]; simp
  · rw [if_neg z]
    have hP : 0 < 2 ^ places F := Nat.two_pow_pos _
    have hm0 : 0 < m := by
      rcases Nat.eq_zero_or_pos m with e | e
      · subst e; exact absurd (magVal_zero F) z
      · exact e
    obtain ⟨X, k0, a, b, _, _, _, hk, hx⟩ := digits6_spec (magVal F m) (2 ^ places F) (by omega) hP
    have hX := expo_small hl m hm0 hm X a b
    split
    · rename_i c
      have := body_length (digits6 (magVal F m) (2 ^ places F)).1 (5 - (digits6 (magVal F m) (2 ^ places F)).2).toNat hk
      omega
    · have h1 := body_length (digits6 (magVal F m) (2 ^ places F)).1 5 hk
      have h2 : (dec2 (digits6 (magVal F m) (2 ^ places F)).2.natAbs).length ≤ 4 := by
        unfold dec2
        have := dec_length 2 (digits6 (magVal F m) (2 ^ places F)).2.natAbs (by omega)
        split
        · simp; omega
        · omega
      have h3 : (expoText (digits6 (magVal F m) (2 ^ places F)).2).length ≤ 6 := by
        unfold expoText
        simp only [List.length_cons]; omega
      rw [List.length_append]; omega

/-- A finite number of the format. -/
def Finite (F : Fmt) (b : Nat) : Prop := b < 2 * F.S ∧ classOf F b ≠ .nan ∧ classOf F b ≠ .infinite

theorem finite_mag (hl : Lib F) {b : Nat} (h : Finite F b) : mag F b < F.I := (class_fin (facts hl) b).1 h.2

theorem toString_finite (hl : Lib F) (b : Nat) (h : Finite F b) : toString F b = .ok (signText (neg F b) ++ gText (magVal F (mag F b)) (2 ^ places F)) := by
  have hm := finite_mag hl h
  have e : format F b = signText (neg F b) ++ gText (magVal F (mag F b)) (2 ^ places F) := by
    unfold format
    rw [if_neg (by omega), if_neg (by omega)]
  have hl1 : (signText (neg F b)).length ≤ 1 := by unfold signText; split <;> simp
  have hl2 := gText_length hl (mag F b) hm
  unfold toString
  rw [e, if_pos (by rw [List.length_append]; omega)]

/-- The text of every finite number is a numeral of at most six digits that is nearest to it; the digits are those of `digits6`. -/
theorem text_decimal (hl : Lib F) (b : Nat) (h : Finite F b) : ∃ t m e, toString F b = .ok t ∧ DecimalText t (neg F b) m e ∧ m < 1000000 ∧
    (∀ (m' : ℤ) (e' : Int), |m'| < 1000000 → |(magVal F (mag F b) : ℚ) / 2 ^ places F - m * 10 ^ e| ≤ |(magVal F (mag F b) : ℚ) / 2 ^ places F - m' * 10 ^ e'|) ∧
    (0 < mag F b → ∃ X : Int, ∃ k0 : Nat, (10 : ℚ) ^ X ≤ (magVal F (mag F b) : ℚ) / 2 ^ places F ∧ (magVal F (mag F b) : ℚ) / 2 ^ places F < 10 ^ (X + 1) ∧
      |(magVal F (mag F b) : ℚ) / 2 ^ places F / 10 ^ (X - 5) - (k0 : ℤ)| ≤ 1 / 2 ∧ (m : ℚ) * 10 ^ e = k0 * 10 ^ (X - 5)) ∧ (mag F b = 0 → m = 0) := by
  have ht := toString_finite hl b h
  by_cases z : mag F b = 0
  · refine ⟨_, 0, 0, ht, ?_, by omega, ?_, by omega, fun _ => rfl⟩
    · rw [z, magVal_zero]
      refine ⟨signText (neg F b), [48], [], [], [], 0, rfl, signText_spec _, by decide, by simp, Or.inl ⟨rfl, rfl⟩, by simp, Or.inl ⟨rfl, rfl⟩, rfl, rfl⟩
    · intro m' e' _
      rw [z, magVal_zero]; simp; positivity
  · have hv : 0 < magVal F (mag F b) := by
      have := magVal_lt F (M0 (lib_bin hl)) (Nat.pos_of_ne_zero z)
      rw [magVal_zero] at this; exact this
    have hP : 0 < 2 ^ places F := Nat.two_pow_pos _
    obtain ⟨m, e, h1, h2, h3⟩ := gText_decimal (neg F b) (magVal F (mag F b)) (2 ^ places F) hv hP
    obtain ⟨X, k0, a, b', c, d, _⟩ := digits6_spec (magVal F (mag F b)) (2 ^ places F) hv hP
    push_cast at a b' c
    rw [d] at h3
    refine ⟨_, m, e, ht, h1, h2, ?_, ?_, fun e => absurd e z⟩
    · intro m' e' hm'
      rw [h3]
      exact six_nearest _ X k0 a (by push_cast; exact c) m' e' hm'
    · intro _
      exact ⟨X, k0, a, b', by push_cast; exact c, h3⟩

/-- **C128**: the text of a finite Double or Single is a decimal numeral with the value's sign and at most six digits, and no number that can be written with at most six digits (and any exponent) is nearer to the value.
`ToString` never overruns its buffer. -/
theorem C128_text (F : Fmt) (hl : Lib F) (b : Nat) (h : Finite F b) : ∃ t m e, toString F b = .ok t ∧ DecimalText t (neg F b) m e ∧ m < 10 ^ 6 ∧
    ∀ (sg : Bool) (m' : Nat) (e' : Int), m' < 10 ^ 6 → |number F b - decimal (neg F b) m e| ≤ |number F b - decimal sg m' e'| := by
  obtain ⟨t, m, e, h1, h2, h3, h4, _⟩ := text_decimal hl b h
  refine ⟨t, m, e, h1, h2, h3, ?_⟩
  intro sg m' e' hm'
  rw [number_parts]
  unfold decimal
  have key := h4 ((if sg = neg F b then 1 else -1) * m') e' (by
    split
    · rw [one_mul, abs_of_nonneg (by omega)]; exact_mod_cast hm'
    · rw [neg_one_mul, abs_neg, abs_of_nonneg (by omega)]; exact_mod_cast hm')
  generalize (magVal F (mag F b) : ℚ) / 2 ^ places F = v at *
  have e1 : |(if neg F b = true then (-1 : ℚ) else 1) * v - (if neg F b = true then -1 else 1) * (m : ℚ) * 10 ^ e| = |v - m * 10 ^ e| := by
    rw [mul_assoc, ← mul_sub, abs_mul]
    cases neg F b <;> simp
  have e2 : |(if neg F b = true then (-1 : ℚ) else 1) * v - (if sg = true then -1 else 1) * (m' : ℚ) * 10 ^ e'| = |v - (((if sg = neg F b then 1 else -1) * m' : ℤ) : ℚ) * 10 ^ e'| := by
    have : (if neg F b = true then (-1 : ℚ) else 1) * v - (if sg = true then -1 else 1) * (m' : ℚ) * 10 ^ e' =
        (if neg F b = true then (-1 : ℚ) else 1) * (v - (((if sg = neg F b then 1 else -1) * m' : ℤ) : ℚ) * 10 ^ e') := by
      push_cast
      cases neg F b <;> cases sg <;> simp <;> ring
    rw [this, abs_mul]
    cases neg F b <;> simp
  rw [e1, e2]
  exact key

example : Finite dbl 0xC0C86A0000000000 ∧ toString dbl 0xC0C86A0000000000 = .ok (w "-12500") ∧ toString dbl 0x412E848000000000 = .ok (w "1E+06") ∧ toString dbl 1 = .ok (w "4.94066E-324") ∧
    toString sgl 0x3DCCCCCD = .ok (w "0.1") := by
  refine ⟨⟨by decide, by decide, by decide⟩, by decide +kernel⟩

/-! ### Round trip -/

/-- In the normal range a decimal of six digits that rounds to `v` is the one that is printed. -/
theorem six_unique (v D : ℚ) (X : Int) (k0 m : Nat) (e : Int) (hm : m < 1000000) (a : (10 : ℚ) ^ X ≤ v) (b : v < 10 ^ (X + 1)) (h : |v / 10 ^ (X - 5) - (k0 : ℤ)| ≤ 1 / 2)
    (hD : D = m * 10 ^ e) (hc : |v - D| * 16777216 ≤ v) : D = k0 * 10 ^ (X - 5) := by
  have hZ : (0 : ℚ) < 10 ^ (X - 5) := by positivity
  have e5 : (10 : ℚ) ^ X = 100000 * 10 ^ (X - 5) := by
    rw [show X = 5 + (X - 5) by ring, zpow_add₀ (by norm_num), show (5 + (X - 5) - 5 : Int) = X - 5 by ring]; norm_num
  have e6 : (10 : ℚ) ^ (X + 1) = 1000000 * 10 ^ (X - 5) := by
    rw [show X + 1 = 6 + (X - 5) by ring, zpow_add₀ (by norm_num)]; norm_num
  rw [e5] at a
  rw [e6] at b
  -- in units of the last place
  obtain ⟨y, rfl⟩ : ∃ y, v = y * 10 ^ (X - 5) := ⟨v / 10 ^ (X - 5), (div_mul_cancel₀ _ (ne_of_gt hZ)).symm⟩
  obtain ⟨z, hz⟩ : ∃ z, D = z * 10 ^ (X - 5) := ⟨D / 10 ^ (X - 5), (div_mul_cancel₀ _ (ne_of_gt hZ)).symm⟩
  rw [mul_div_cancel_right₀ _ (ne_of_gt hZ)] at h
  rw [mul_le_mul_iff_left₀ hZ] at a
  rw [mul_lt_mul_iff_left₀ hZ] at b
  have hc' : |y - z| * 16777216 ≤ y := by
    rw [hz, ← sub_mul, abs_mul, abs_of_pos hZ, mul_right_comm, mul_le_mul_iff_left₀ hZ] at hc
    exact hc
  have small : |y - z| < 1 / 16 := by linarith
  have hzm : z = m * 10 ^ (e - (X - 5)) := by
    have := hz.symm.trans hD
    have e' : (10 : ℚ) ^ e = 10 ^ (e - (X - 5)) * 10 ^ (X - 5) := by rw [← zpow_add₀ (by norm_num)]; congr 1; ring
    rw [e', ← mul_assoc, mul_left_inj' (ne_of_gt hZ)] at this
    exact this
  rw [hz]
  congr 1
  rcases le_or_gt 0 (e - (X - 5)) with c | c
  · obtain ⟨k, hk⟩ := Int.eq_ofNat_of_zero_le c
    rw [hk, zpow_natCast] at hzm
    have hzi : z = ((m * 10 ^ k : ℤ) : ℚ) := by rw [hzm]; push_cast; rfl
    have h2 := nearest_int y k0 (m * 10 ^ k : ℤ) h
    rw [← hzi] at h2
    by_contra hne
    have hne' : (m * 10 ^ k : ℤ) ≠ k0 := by
      intro e; apply hne; rw [hzi, e]; push_cast; rfl
    have h3 : (1 : ℚ) ≤ |((m * 10 ^ k : ℤ) : ℚ) - ((k0 : ℤ) : ℚ)| := by
      rw [← Int.cast_sub, ← Int.cast_abs]
      exact_mod_cast Int.one_le_abs (sub_ne_zero.2 hne')
    have h4 : |((m * 10 ^ k : ℤ) : ℚ) - ((k0 : ℤ) : ℚ)| ≤ |y - (k0 : ℤ)| + |y - z| := by
      rw [← hzi, show z - ((k0 : ℤ) : ℚ) = (y - (k0 : ℤ)) - (y - z) by ring]
      exact abs_sub _ _
    linarith
  · exfalso
    have hlo := (abs_lt.1 small).2
    rcases le_or_gt (e - (X - 5)) (-2) with c2 | c2
    · have he : (10 : ℚ) ^ (e - (X - 5)) ≤ 10 ^ (-2 : ℤ) := zpow_le_zpow_right₀ (by norm_num) c2
      have hm' : (m : ℚ) ≤ 1000000 := by exact_mod_cast le_of_lt hm
      have : z ≤ 1000000 * 10 ^ (-2 : ℤ) := by
        rw [hzm]; exact mul_le_mul hm' he (by positivity) (by norm_num)
      norm_num at this
      linarith
    · have he : e - (X - 5) = -1 := by omega
      rw [he] at hzm
      have hm' : (m : ℚ) ≤ 999999 := by exact_mod_cast (by omega : m ≤ 999999)
      have : z ≤ 999999 * 10 ^ (-1 : ℤ) := by
        rw [hzm]; exact mul_le_mul_of_nonneg_right hm' (by positivity)
      norm_num at this
      linarith

theorem lib_M (hl : Lib F) : 8388608 ≤ F.M ∧ 2 * F.M ≤ F.I := by rcases hl with rfl | rfl <;> decide

theorem near_up (hl : Lib F) (a : ℚ) (m : Nat) (h : Near F a m) (hm : m < F.I) : a - magVal F m ≤ ((magVal F (m + 1) : ℚ) - magVal F m) / 2 := by
  have h2 : |(magVal F m : ℚ) - a| ≤ |(magVal F (m + 1) : ℚ) - a| := by
    rcases h.2 (m + 1) (by omega) (by omega) with x | ⟨x, _⟩
    · exact le_of_lt x
    · exact le_of_eq x
  have h3 : (magVal F m : ℚ) < magVal F (m + 1) := by exact_mod_cast magVal_lt F (M0 (lib_bin hl)) (by omega)
  rcases abs_cases ((magVal F m : ℚ) - a) with ⟨p, p'⟩ | ⟨p, p'⟩ <;> rcases abs_cases ((magVal F (m + 1) : ℚ) - a) with ⟨q, q'⟩ | ⟨q, q'⟩ <;> linarith

theorem near_down (hl : Lib F) (a : ℚ) (m : Nat) (h : Near F a (m + 1)) : (magVal F (m + 1) : ℚ) - a ≤ ((magVal F (m + 1) : ℚ) - magVal F m) / 2 := by
  have h2 : |(magVal F (m + 1) : ℚ) - a| ≤ |(magVal F m : ℚ) - a| := by
    rcases h.2 m (by have := h.1; omega) (by omega) with x | ⟨x, _⟩
    · exact le_of_lt x
    · exact le_of_eq x
  have h3 : (magVal F m : ℚ) < magVal F (m + 1) := by exact_mod_cast magVal_lt F (M0 (lib_bin hl)) (by omega)
  rcases abs_cases ((magVal F m : ℚ) - a) with ⟨p, p'⟩ | ⟨p, p'⟩ <;> rcases abs_cases ((magVal F (m + 1) : ℚ) - a) with ⟨q, q'⟩ | ⟨q, q'⟩ <;> linarith

/-- The relative error of rounding to a normal number. -/
theorem near_normal (hl : Lib F) (a : ℚ) (m : Nat) (h : Near F a m) (hm : m < F.I) (hn : F.M ≤ m) : |(magVal F m : ℚ) - a| * 16777216 ≤ magVal F m := by
  have h0 := lib_bin hl
  obtain ⟨hM, _⟩ := lib_M hl
  have up := near_up hl a m h hm
  have hdiv : 1 ≤ m / F.M := (Nat.le_div_iff_mul_le (M0 h0)).2 (by omega)
  have hv : magVal F m = (F.M + m % F.M) * 2 ^ (m / F.M - 1) := by unfold magVal; rw [if_neg (by omega)]
  have big : 8388608 * 2 ^ (m / F.M - 1) ≤ magVal F m := by
    rw [hv]; exact Nat.mul_le_mul_right _ (by omega)
  have s1 := magVal_succ F (M0 h0) m
  have s2 : ∃ k, m = k + 1 ∧ magVal F (k + 1) ≤ magVal F k + 2 ^ (m / F.M - 1) := by
    refine ⟨m - 1, by omega, ?_⟩
    rw [magVal_succ F (M0 h0) (m - 1)]
    refine Nat.add_le_add_left (Nat.pow_le_pow_right (by omega) ?_) _
    have := Nat.div_le_div_right (c := F.M) (show m - 1 ≤ m by omega)
    omega
  obtain ⟨k, hk, s2⟩ := s2
  have down := near_down hl a k (hk ▸ h)
  rw [← hk] at down s2
  have big' : (8388608 : ℚ) * 2 ^ (m / F.M - 1) ≤ magVal F m := by exact_mod_cast big
  have s1' : (magVal F (m + 1) : ℚ) = magVal F m + 2 ^ (m / F.M - 1) := by exact_mod_cast s1
  have s2' : (magVal F m : ℚ) ≤ magVal F k + 2 ^ (m / F.M - 1) := by exact_mod_cast s2
  have : |(magVal F m : ℚ) - a| ≤ 2 ^ (m / F.M - 1) / 2 := by
    rw [abs_le]; constructor <;> linarith
  linarith

theorem magVal_sub (m : Nat) (h : m < F.M) : magVal F m = m := by
  unfold magVal
  rw [if_pos (Nat.div_eq_of_lt h), Nat.mod_eq_of_lt h]

/-- Among the subnormal numbers, which are equally spaced, a nearer number rounds to the same one. -/
theorem near_subnormal (hl : Lib F) (a a' : ℚ) (m : Nat) (h : Near F a m) (hn : m < F.M) (ha : 0 ≤ a) (hc : |(magVal F m : ℚ) - a'| ≤ |(magVal F m : ℚ) - a|) : Near F a' m := by
  have h0 := lib_bin hl
  obtain ⟨hM, hI⟩ := lib_M hl
  have hb := magVal_sub m hn
  have up := near_up hl a m h (by omega)
  have s1 : (magVal F (m + 1) : ℚ) = magVal F m + 1 := by
    have := magVal_succ F (M0 h0) m
    rw [Nat.div_eq_of_lt hn, Nat.zero_sub, Nat.pow_zero] at this
    exact_mod_cast this
  have down : (magVal F m : ℚ) - a ≤ 1 / 2 ∧ (m = 0 → (magVal F m : ℚ) - a ≤ 0) ∧ (∀ k, m = k + 1 → (magVal F m : ℚ) = magVal F k + 1) := by
    cases m with
    | zero => rw [magVal_zero]; refine ⟨by push_cast; linarith, fun _ => by push_cast; linarith, by intro k hk; omega⟩
    | succ k =>
      have := near_down hl a k h
      have s2 := magVal_succ F (M0 h0) k
      rw [Nat.div_eq_of_lt (by omega), Nat.zero_sub, Nat.pow_zero] at s2
      have s2' : (magVal F (k + 1) : ℚ) = magVal F k + 1 := by exact_mod_cast s2
      exact ⟨by linarith, by omega, by intro j hj; obtain rfl : k = j := by omega
                                       exact s2'⟩
  have half : |(magVal F m : ℚ) - a| ≤ 1 / 2 := by rw [abs_le]; constructor <;> linarith [down.1]
  -- at half a unit the pattern is even
  have even : |(magVal F m : ℚ) - a| = 1 / 2 → m % 2 = 0 := by
    intro e
    rcases abs_cases ((magVal F m : ℚ) - a) with ⟨p, p'⟩ | ⟨p, p'⟩
    · -- the number is above
      cases m with
      | zero => rfl
      | succ k =>
        have s2 := down.2.2 k rfl
        rcases h.2 k (by omega) (by omega) with x | ⟨_, x⟩
        · exfalso
          rw [e, show (magVal F k : ℚ) - a = -(1 / 2) by linarith, abs_neg] at x
          norm_num at x
        · exact x
    · rcases h.2 (m + 1) (by omega) (by omega) with x | ⟨_, x⟩
      · exfalso
        rw [e, show (magVal F (m + 1) : ℚ) - a = 1 / 2 by linarith] at x
        norm_num at x
      · exact x
  refine ⟨h.1, ?_⟩
  intro k hk hne
  have dist : (1 : ℚ) ≤ |(magVal F k : ℚ) - magVal F m| := by
    have : (magVal F k : ℤ) ≠ magVal F m := by
      intro e; exact hne (magVal_inj F (M0 h0) (by exact_mod_cast e))
    have h3 : (1 : ℤ) ≤ |(magVal F k : ℤ) - magVal F m| := Int.one_le_abs (sub_ne_zero.2 this)
    exact_mod_cast h3
  have tri : |(magVal F k : ℚ) - magVal F m| ≤ |(magVal F k : ℚ) - a'| + |(magVal F m : ℚ) - a'| := by
    rw [show (magVal F k : ℚ) - magVal F m = (magVal F k - a') - (magVal F m - a') by ring]
    exact abs_sub _ _
  rcases lt_or_ge |(magVal F m : ℚ) - a'| |(magVal F k : ℚ) - a'| with x | x
  · exact Or.inl x
  · right
    refine ⟨by linarith, even (by linarith)⟩

theorem pack_self (b : Nat) (h : b < 2 * F.S) : pack F (neg F b) (mag F b) = b := by
  unfold pack neg mag
  by_cases c : F.S ≤ b
  · rw [decide_eq_true c, if_pos rfl, Nat.mod_eq_sub_mod c, Nat.mod_eq_of_lt (by omega)]; omega
  · rw [decide_eq_false c, Nat.mod_eq_of_lt (by omega)]; simp

/-- **C129, exactly when**: `Parse(v.ToString())` gives `v` back if and only if `v` is what some decimal number of at most six digits rounds to. Missing: all other values (`C129_refuted`). -/
theorem C129_roundtrip_partial (L : Locale) (h46 : L.isSpace 46 = false) (F : Fmt) (hl : Lib F) (b : Nat) (h : Finite F b) :
    (∃ t, toString F b = .ok t ∧ parse L F (some t) = .ok b) ↔ ∃ m e, m < 10 ^ 6 ∧ Rounded F (decimal (neg F b) m e) b := by
  obtain ⟨t, m, e, h1, h2, h3, h4, h5, h6⟩ := text_decimal hl b h
  have hP : (0 : ℚ) < 2 ^ places F := by positivity
  have hs := scan_spec L h46 F [] t [] stops_nil (neg F b) m e (by simp) h2
  rw [List.append_nil, List.nil_append] at hs
  have hp : parse L F (some t) = .ok (pack F (neg F b) (place F (.dec m e))) := by rw [parse_some, hs]
  constructor
  · rintro ⟨t', x1, x2⟩
    rw [h1] at x1
    injection x1 with x1
    subst x1
    rw [hp] at x2
    injection x2 with x2
    refine ⟨m, e, h3, ?_⟩
    have := place_rounded hl (neg F b) m e
    rwa [x2] at this
  · rintro ⟨m', e', hm', hr⟩
    refine ⟨t, h1, ?_⟩
    rw [hp]
    have nr : Near F ((m' : ℚ) * 10 ^ e' * 2 ^ places F) (mag F b) := by
      refine near_of_rounded hl (neg F b) _ b rfl ?_
      rw [mul_div_cancel_right₀ _ (ne_of_gt hP), ← mul_assoc]
      exact hr
    have key : Near F ((m : ℚ) * 10 ^ e * 2 ^ places F) (mag F b) := by
      by_cases c0 : mag F b = 0
      · rw [h6 c0, c0]
        refine ⟨Nat.zero_le _, ?_⟩
        intro k _ hk
        left
        have : 0 < magVal F k := by
          have := magVal_lt F (M0 (lib_bin hl)) (Nat.pos_of_ne_zero hk)
          rwa [magVal_zero] at this
        rw [magVal_zero]
        simp
        omega
      · rcases Nat.lt_or_ge (mag F b) F.M with c | c
        · refine near_subnormal hl _ _ _ nr c (by positivity) ?_
          have := h4 m' e' (by rw [abs_of_nonneg (by omega)]; exact_mod_cast hm')
          have sc : ∀ x : ℚ, |(magVal F (mag F b) : ℚ) - x * 2 ^ places F| = |(magVal F (mag F b) : ℚ) / 2 ^ places F - x| * 2 ^ places F := by
            intro x
            conv_rhs => rw [← abs_of_pos hP]
            rw [← abs_mul, sub_mul, abs_of_pos hP, div_mul_cancel₀ _ (ne_of_gt hP)]
          rw [sc, sc]
          exact mul_le_mul_of_nonneg_right (by exact_mod_cast this) (le_of_lt hP)
        · obtain ⟨X, k0, a, b', c', d⟩ := h5 (by omega)
          have hn := near_normal hl _ _ nr (finite_mag hl h) c
          have := six_unique _ _ X k0 m' e' hm' a b' c' rfl (by
            have sc : |(magVal F (mag F b) : ℚ) / 2 ^ places F - m' * 10 ^ e'| = |(magVal F (mag F b) : ℚ) - m' * 10 ^ e' * 2 ^ places F| / 2 ^ places F := by
              rw [eq_div_iff (ne_of_gt hP)]
              conv_lhs => rw [← abs_of_pos hP]
              rw [← abs_mul, sub_mul, abs_of_pos hP, div_mul_cancel₀ _ (ne_of_gt hP)]
            rw [sc, div_mul_eq_mul_div, div_le_div_iff_of_pos_right hP]
            exact hn)
          rw [d, ← this]
          exact nr
    rw [near_unique (lib_bin hl) _ _ _ (place_near hl m e) key, pack_self b h.1]

theorem padDec_zero (k : Nat) : padDec k 0 = List.replicate k 48 := by
  induction k with
  | zero => rfl
  | succ k ih => unfold padDec; rw [Nat.zero_div, ih, List.replicate_succ']

theorem strip_zeros (k : Nat) : stripZeros (List.replicate k 48) = [] := by
  unfold stripZeros
  rw [List.reverse_replicate]
  induction k with
  | zero => rfl
  | succ k ih => rw [List.replicate_succ, List.dropWhile_cons, if_pos (by rfl)]; exact ih

theorem gText_int (n d : Nat) (hn : 0 < n) (h6 : n < 1000000) (hd : 0 < d) : gText (n * d) d = dec n := by
  have hx : expo (n * d) d = (log10 n n : Int) := by
    unfold expo
    rw [if_pos (Nat.le_mul_of_pos_left d hn), Nat.mul_div_cancel _ hd]
  obtain ⟨a, b⟩ := log10_spec n n hn (Nat.le_refl _)
  generalize log10 n n = x at *
  have hx5 : x ≤ 5 := by
    by_contra hc
    have := Nat.pow_le_pow_right (show 1 ≤ 10 by omega) (show 6 ≤ x by omega)
    omega
  have hk : n * 10 ^ (5 - x) < 1000000 := by
    have : n * 10 ^ (5 - x) < 10 ^ (x + 1) * 10 ^ (5 - x) := Nat.mul_lt_mul_of_pos_right b (by positivity)
    rw [← Nat.pow_add, show x + 1 + (5 - x) = 6 by omega] at this
    exact this
  have hd6 : digits6 (n * d) d = (n * 10 ^ (5 - x), (x : Int)) := by
    unfold digits6
    simp only [hx]
    rw [show (5 - (x : Int)).toNat = 5 - x by omega, show ((x : Int) - 5).toNat = 0 by omega, Nat.pow_zero, Nat.mul_one,
      show n * d * 10 ^ (5 - x) = n * 10 ^ (5 - x) * d by ring, Arith.rne_exact _ _ hd, if_neg (by omega)]
  unfold gText
  rw [if_neg (by have := Nat.mul_pos hn hd; omega), hd6]
  simp only []
  rw [if_pos ⟨by omega, by omega⟩, show (5 - (x : Int)).toNat = 5 - x by omega]
  unfold body
  have hp : 0 < 10 ^ (5 - x) := by positivity
  rw [Nat.mul_div_cancel _ hp, Nat.mul_mod_left, padDec_zero, strip_zeros]
  show dec n ++ [] = _
  rw [List.append_nil]

theorem dec_decimal (i : Int) : DecimalText (decInt i) (decide (i < 0)) i.natAbs 0 := by
  unfold decInt
  by_cases c : i < 0
  · rw [if_pos c, decide_eq_true c]
    exact ⟨[45], dec i.natAbs, [], [], [], 0, by simp, Or.inr (Or.inr ⟨rfl, rfl⟩), dec_digits _, by simp, Or.inl ⟨rfl, rfl⟩, by simp [dec_ne_nil], Or.inl ⟨rfl, rfl⟩, by simp [numeral_dec], rfl⟩
  · rw [if_neg c, decide_eq_false c]
    exact ⟨[], dec i.toNat, [], [], [], 0, by simp, Or.inl ⟨rfl, rfl⟩, dec_digits _, by simp, Or.inl ⟨rfl, rfl⟩, by simp [dec_ne_nil], Or.inl ⟨rfl, rfl⟩, by simp [numeral_dec]; omega, rfl⟩

/-- **C129, integers**: a Double that is an integer of at most six digits is printed as that integer (as `Int32.ToString` prints it) and read back exactly. -/
theorem C129_integer_partial (L : Locale) (h46 : L.isSpace 46 = false) (i : Int) (h6 : i.natAbs < 10 ^ 6) : toString dbl (Arith.ofInt i) = .ok (decInt i) ∧ parse L dbl (some (decInt i)) = .ok (Arith.ofInt i) := by
  have hl : Lib dbl := Or.inl rfl
  have hP : 0 < 2 ^ places dbl := Nat.two_pow_pos _
  have hle := Arith.roundMag_le (i.natAbs * Arith.unit) 1
  obtain ⟨p1, p2, p3⟩ := Arith.pack_parts (decide (i < 0)) _ hle
  obtain ⟨e1, e2⟩ := Arith.ofInt_exact (i := i) (Arith.Exact.small (by omega))
  have hu : Arith.unit = 2 ^ places dbl := by unfold Arith.unit; rw [places_dbl]
  have hmag : magVal dbl (mag dbl (Arith.ofInt i)) = i.natAbs * 2 ^ places dbl := by
    have := Arith.val_abs (Arith.ofInt i)
    rw [e1, Int.natAbs_mul, Int.natAbs_natCast, hu] at this
    exact this.symm
  have hneg : neg dbl (Arith.ofInt i) = decide (i < 0) := p1
  constructor
  · have hfin : Finite dbl (Arith.ofInt i) := ⟨p3, (class_fin (facts hl) _).2 e2⟩
    have key : signText (decide (i < 0)) ++ gText (i.natAbs * 2 ^ places dbl) (2 ^ places dbl) = decInt i := ?_
    · rw [toString_finite hl _ hfin, hneg, hmag, key]
    unfold decInt
    by_cases c : i < 0
    · rw [decide_eq_true c, if_pos c, gText_int _ _ (by omega) h6 hP]; rfl
    · rw [decide_eq_false c, if_neg c]
      by_cases z : i = 0
      · subst z; unfold gText; rw [if_pos (by simp)]; rfl
      · rw [gText_int _ _ (by omega) h6 hP, show i.natAbs = i.toNat by omega]; rfl
  · have := scan_spec L h46 dbl [] (decInt i) [] stops_nil _ _ _ (by simp) (dec_decimal i)
    rw [List.append_nil, List.nil_append] at this
    rw [parse_some, this]
    show Res.ok (pack dbl (decide (i < 0)) (roundMag dbl (i.natAbs * 10 ^ 0 * 2 ^ places dbl) (10 ^ 0))) = _
    rw [roundMag_dbl, Nat.pow_zero, Nat.mul_one, ← hu]
    rfl

example : (-12500 : Int).natAbs < 10 ^ 6 ∧ decInt (-12500) = w "-12500" := by decide +kernel

/-- Both sides hold for 0.1 and -12500; the left one by computation. -/
example : Finite dbl 0x3FB999999999999A ∧ toString dbl 0x3FB999999999999A = .ok (w "0.1") ∧ parse cLocale dbl (some (w "0.1")) = .ok 0x3FB999999999999A := by
  refine ⟨⟨by decide, by decide, by decide⟩, by decide +kernel⟩

/-- **C129 is false**: 1234567 is printed as `1.23457E+06` and read back as 1234570; 1/3 comes back as 0.333333; for Single, 16777217's neighbour 16777216 comes back as 16777200. (.NET prints the shortest text that
round-trips.) -/
theorem C129_refuted : toString dbl 0x4132D68700000000 = .ok (w "1.23457E+06") ∧ parse cLocale dbl (some (w "1.23457E+06")) = .ok 0x4132D68A00000000 ∧
    toString dbl 0x3FD5555555555555 = .ok (w "0.333333") ∧ parse cLocale dbl (some (w "0.333333")) ≠ .ok 0x3FD5555555555555 ∧
    toString sgl 0x4B800000 = .ok (w "1.67772E+07") ∧ parse cLocale sgl (some (w "1.67772E+07")) ≠ .ok 0x4B800000 := by decide +kernel

end Verif.FloatText
