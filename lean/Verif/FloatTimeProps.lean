import Verif.ArithValue
import Verif.FloatTimeModel
import Verif.DateTimeProps
set_option linter.unusedVariables false
/-!
# C124: DateTime.AddDays, AddHours, AddMinutes, AddSeconds, AddMilliseconds
-/
namespace Verif.FloatTime
open Verif.FltModel Verif.FltSpec Verif.FltProps Verif.Arith Verif.DateTime Verif.Calendar

/-! ### Division towards zero -/

theorem tdiv_spec (v U : Int) (hU : 0 < U) : (0 ≤ v → v.tdiv U * U ≤ v ∧ v < v.tdiv U * U + U ∧ 0 ≤ v.tdiv U) ∧
    (v ≤ 0 → v ≤ v.tdiv U * U ∧ v.tdiv U * U - U < v ∧ v.tdiv U ≤ 0) := by
  have pos : ∀ w : Int, 0 ≤ w → w.tdiv U * U ≤ w ∧ w < w.tdiv U * U + U ∧ 0 ≤ w.tdiv U := by
    intro w hw
    rw [Int.tdiv_eq_ediv_of_nonneg hw]
    have h1 := Int.emod_nonneg w (show U ≠ 0 by omega)
    have h2 := Int.emod_lt_of_pos w hU
    have h3 := Int.mul_ediv_add_emod w U
    have h4 : 0 ≤ w / U := Int.ediv_nonneg hw (by omega)
    rw [Int.mul_comm] at h3
    generalize w / U * U = x at *
    omega
  refine ⟨pos v, fun h => ?_⟩
  have := pos (-v) (by omega)
  rw [Int.neg_tdiv, Int.neg_mul] at this
  generalize v.tdiv U * U = x at *
  omega

theorem tdiv_unique (v m U : Int) (hU : 0 < U) (h : (0 ≤ v ∧ m * U ≤ v ∧ v < m * U + U) ∨ (v ≤ 0 ∧ v ≤ m * U ∧ m * U - U < v)) : v.tdiv U = m := by
  have key : ∀ a b : Int, a * U < b * U + U → a ≤ b := by
    intro a b hab
    by_cases c : a ≤ b
    · exact c
    · exfalso
      have := Int.mul_le_mul_of_nonneg_right (show b + 1 ≤ a by omega) (show 0 ≤ U by omega)
      rw [Int.add_mul, Int.one_mul] at this
      omega
  obtain ⟨p, n⟩ := tdiv_spec v U hU
  rcases h with ⟨h0, h1, h2⟩ | ⟨h0, h1, h2⟩
  · obtain ⟨q1, q2, _⟩ := p h0
    have := key (v.tdiv U) m (by omega)
    have := key m (v.tdiv U) (by omega)
    omega
  · obtain ⟨q1, q2, _⟩ := n h0
    have := key (v.tdiv U) m (by omega)
    have := key m (v.tdiv U) (by omega)
    omega

/-! ### The millisecond count -/

/-- Half of 1, in units of the least positive double. -/
def H : Int := 2 ^ 1073

theorem H_two : 2 * H = (unit : Int) := by unfold H unit; decide +kernel
theorem H_pos : 0 < H := by have := H_two; have := unit_pos; omega

theorem roundMag_clip (n : Nat) (h : magVal dbl dbl.I ≤ n) : roundMag n 1 = dbl.I := by
  have h1 := roundMag_mono _ n 1 (by omega) h
  have h2 := roundMag_exact dbl.I 1 (by omega) (by omega)
  rw [Nat.mul_one] at h2
  have := roundMag_le n 1
  omega

/-- Adding a half, whether or not the product is finite. -/
theorem add_half (a b : Nat) (ha : nan dbl a = false) (hb : IsFin b) (hs : neg dbl a = neg dbl b) :
    nan dbl (Arith.add a b) = false ∧ val dbl (Arith.add a b) = R (val dbl a + val dbl b) 1 := by
  by_cases c : IsFin a
  · exact ⟨(add_fin a b c hb).1, (add_fin a b c hb).2.1⟩
  · have hI : mag dbl a = dbl.I := by
      unfold nan at ha
      have := of_decide_eq_false ha
      unfold IsFin at c
      omega
    have e : Arith.add a b = a := by
      unfold Arith.add
      rw [ha, fin_nan hb, if_neg (by decide), if_pos hI, if_neg (by unfold IsFin at hb; omega)]
    rw [e]
    refine ⟨ha, ?_⟩
    rw [val_parts a, val_parts b, hI, hs]
    cases neg dbl b
    · rw [if_neg (by decide), if_neg (by decide)]
      unfold R
      rw [if_neg (by omega), roundMag_clip _ (by omega)]
    · rw [if_pos rfl, if_pos rfl]
      unfold R
      rw [if_pos (by have : 0 < magVal dbl dbl.I := magVal_pos (by decide)
                     omega), roundMag_clip _ (by omega)]

theorem val_zero : val dbl 0 = 0 := by decide +kernel
theorem val_half : val dbl 0x3FE0000000000000 = H ∧ IsFin 0x3FE0000000000000 ∧ neg dbl 0x3FE0000000000000 = false := by unfold H; decide +kernel
theorem val_mhalf : val dbl 0xBFE0000000000000 = -H ∧ IsFin 0xBFE0000000000000 ∧ neg dbl 0xBFE0000000000000 = true := by unfold H; decide +kernel

theorem fle_val (a b : Nat) (ha : nan dbl a = false) (hb : nan dbl b = false) : fle a b = decide (val dbl a ≤ val dbl b) := by
  unfold fle
  rw [flt_val a b ha hb, feq_val a b ha hb]
  by_cases c : val dbl a ≤ val dbl b
  · rw [decide_eq_true c]
    by_cases c' : val dbl a < val dbl b
    · rw [decide_eq_true c']; rfl
    · rw [decide_eq_true (show val dbl a = val dbl b by omega), Bool.or_true]
  · rw [decide_eq_false c, decide_eq_false (by omega), decide_eq_false (by omega)]; rfl

/-- The number the rounded millisecond count is. -/
def B (v : Int) (scale : Int) : Int := R (R (v * scale) 1 + (if 0 ≤ v then H else -H)) 1

/-- `-0.0 >= 0` holds: the half is added to a product with the other sign only when that is zero. -/
theorem millis_val (v : Nat) (hv : IsFin v) (hp : v < 2 ^ 64) (scale : Int) (hs : 0 < scale) (he : Exact scale) :
    nan dbl (millis v scale) = false ∧ val dbl (millis v scale) = B (val dbl v) scale := by
  obtain ⟨e1, e2⟩ := ofInt_exact he
  obtain ⟨m1, m2, m3, m4⟩ := mul_fin v (ofInt scale) hv e2
  have hA : R (val dbl v * val dbl (ofInt scale)) unit = R (val dbl v * scale) 1 := by
    rw [e1, ← Int.mul_assoc]
    have := R_scale (val dbl v * scale) 1 unit (by omega) unit_pos
    rwa [Nat.one_mul] at this
  rw [hA] at m2
  have hz : nan dbl 0 = false := by decide
  unfold millis
  rw [fle_val 0 v hz (fin_nan hv), val_zero]
  unfold B
  rw [← m2]
  have hneg : neg dbl (mul v (ofInt scale)) = (neg dbl v != false) := by
    have hn : neg dbl (ofInt scale) = false := by
      unfold ofInt
      rw [(pack_parts _ _ (roundMag_le _ _)).1]
      exact decide_eq_false (by omega)
    unfold mul
    rw [fin_nan hv, fin_nan e2, if_neg (by decide), if_neg (by unfold IsFin at hv e2; omega), (pack_parts _ _ (roundMag_le _ _)).1, hn]
  by_cases c : 0 ≤ val dbl v
  · rw [decide_eq_true c, if_pos rfl, if_pos c]
    obtain ⟨a1, a2, a3⟩ := val_half
    rw [← a1]
    by_cases cf : IsFin (mul v (ofInt scale))
    · exact ⟨(add_fin _ _ cf a2).1, (add_fin _ _ cf a2).2.1⟩
    · refine add_half _ _ m1 a2 ?_
      rw [hneg, a3]
      cases hn : neg dbl v
      · rfl
      · exfalso
        rw [val_parts, hn, if_pos rfl] at c
        have h0 : val dbl v = 0 := by rw [val_parts, hn, if_pos rfl]; omega
        rw [h0, Int.zero_mul, R_zero 1 (by omega)] at m2
        apply cf
        rw [fin_val, m2]
        exact magVal_pos (by decide)
  · rw [decide_eq_false c, if_neg (by decide), if_neg c]
    obtain ⟨a1, a2, a3⟩ := val_mhalf
    rw [← a1]
    refine add_half _ _ m1 a2 ?_
    rw [hneg, a3]
    cases hn : neg dbl v
    · exfalso
      rw [val_parts, hn, if_neg (by decide)] at c; omega
    · rfl

theorem max_exact : Exact MaxMillis ∧ Exact (-MaxMillis) := by
  constructor <;> exact Exact.small (by decide +kernel)

theorem maxMillis_eq : MaxMillis = 315537897600000 := by decide +kernel

/-- **The sum**: the milliseconds added are the count rounded towards zero. -/
theorem addDouble_val (t : Int) (ht : InRange t) (v : Nat) (hv : IsFin v) (hp : v < 2 ^ 64) (scale : Int) (hs : 0 < scale) (he : Exact scale) :
    addDouble t v scale = if InRange (t + (B (val dbl v) scale).tdiv unit * 10000) then .ok (t + (B (val dbl v) scale).tdiv unit * 10000) else .throw .argumentOutOfRange := by
  obtain ⟨n1, n2⟩ := millis_val v hv hp scale hs he
  obtain ⟨x1, x2⟩ := ofInt_exact max_exact.1
  obtain ⟨y1, y2⟩ := ofInt_exact max_exact.2
  unfold addDouble
  rw [fle_val _ _ n1 (fin_nan y2), fle_val _ _ (fin_nan x2) n1, n2, x1, y1, toI64_val, n2]
  have hU : (0 : Int) < unit := by have := unit_pos; omega
  have hM := maxMillis_eq
  have htm := (inRange_iff t).mp ht
  have hMT : MaxTicks = 3155378975999999999 := by decide +kernel
  rw [hMT] at htm
  obtain ⟨p, n⟩ := tdiv_spec (B (val dbl v) scale) unit hU
  generalize hm : (B (val dbl v) scale).tdiv unit = m at *
  generalize B (val dbl v) scale = b at *
  have mono : ∀ a b : Int, a * unit < b * unit + unit → a ≤ b := by
    intro a b hab
    by_cases c : a ≤ b
    · exact c
    · exfalso
      have := Int.mul_le_mul_of_nonneg_right (show b + 1 ≤ a by omega) (show 0 ≤ (unit : Int) by omega)
      rw [Int.add_mul, Int.one_mul] at this
      omega
  by_cases c1 : b ≤ -MaxMillis * unit
  · rw [decide_eq_true c1, Bool.true_or, if_pos rfl, if_neg]
    rw [inRange_iff, hMT]
    have e := Int.neg_mul MaxMillis (unit : Int)
    have e0 : 0 < MaxMillis * (unit : Int) := Int.mul_pos (by omega) hU
    have := mono m (-MaxMillis) (by have := n (by omega); omega)
    omega
  · rw [decide_eq_false c1, Bool.false_or]
    by_cases c2 : MaxMillis * unit ≤ b
    · rw [decide_eq_true c2, if_pos rfl, if_neg]
      rw [inRange_iff, hMT]
      have e0 : 0 < MaxMillis * (unit : Int) := Int.mul_pos (by omega) hU
      have := mono MaxMillis m (by have := p (by omega); omega)
      omega
    · rw [decide_eq_false c2, if_neg (by decide)]
      have e := Int.neg_mul MaxMillis (unit : Int)
      have m1 : m < MaxMillis := by
        rcases (by omega : 0 ≤ b ∨ b ≤ 0) with h | h
        · have := p h
          by_cases c : m < MaxMillis
          · exact c
          · have := Int.mul_le_mul_of_nonneg_right (show MaxMillis ≤ m by omega) (show 0 ≤ (unit : Int) by omega)
            omega
        · have := n h; omega
      have m2 : -MaxMillis < m := by
        rcases (by omega : 0 ≤ b ∨ b ≤ 0) with h | h
        · have := p h; omega
        · have := n h
          by_cases c : -MaxMillis < m
          · exact c
          · have := Int.mul_le_mul_of_nonneg_right (show m ≤ -MaxMillis by omega) (show 0 ≤ (unit : Int) by omega)
            omega
      rw [if_pos (by refine ⟨by omega, by omega⟩), Res.bind_ok, show TicksPerMillisecond = 10000 from rfl, i64_ok (by unfold I64; omega), Res.bind_ok]
      exact (C06_addTicks t (m * 10000) ht (by unfold I64; omega)).1

/-! ### Whole numbers of units -/

theorem R_half (n : Int) (hn : n.natAbs < 2 ^ 52) : R (n * unit + H) 1 = n * unit + H ∧ R (n * unit - H) 1 = n * unit - H := by
  have key : ∀ x : Int, x.natAbs ≤ 2 ^ 53 → R (x * H) 1 = x * H := by
    intro x hx
    obtain ⟨m, hm⟩ := exists_mag x.natAbs 1073 hx
    have hH : H.natAbs = 2 ^ 1073 := by unfold H; decide +kernel
    have e : (x * H).natAbs = magVal dbl m := by rw [Int.natAbs_mul, hm, hH]
    have hmI : m ≤ dbl.I := by
      apply (magVal_le dbl dM0).1
      rw [hm]
      have h1 := Nat.mul_le_mul_right (2 ^ 1073) hx
      have h2 : 2 ^ 53 * 2 ^ 1073 < magVal dbl dbl.I := by decide +kernel
      generalize 2 ^ 53 * 2 ^ 1073 = y at *
      omega
    have := R_exact (x * H) m 1 (by omega) hmI e
    rwa [Int.natCast_one, Int.mul_one] at this
  have h1 := key (2 * n + 1) (by omega)
  have h2 := key (2 * n - 1) (by omega)
  have hH := H_two
  have e1 : (2 * n + 1) * H = n * unit + H := by rw [Int.add_mul, Int.one_mul, Int.mul_comm 2 n, Int.mul_assoc, hH]
  have e2 : (2 * n - 1) * H = n * unit - H := by rw [Int.sub_mul, Int.one_mul, Int.mul_comm 2 n, Int.mul_assoc, hH]
  rw [e1] at h1
  rw [e2] at h2
  exact ⟨h1, h2⟩

theorem R_whole {n : Int} (h : Exact n) : R (n * unit) 1 = n * unit := by
  have := R_int h 1 (by omega)
  rwa [Int.natCast_one, Int.mul_one] at this

theorem B_whole (k scale : Int) (hs : 0 < scale) :
    ((k * scale).natAbs < 2 ^ 52 → (B (k * unit) scale).tdiv unit = k * scale) ∧
    (2 ^ 52 ≤ k * scale → 2 ^ 52 ≤ (B (k * unit) scale).tdiv unit) ∧ (k * scale ≤ -2 ^ 52 → (B (k * unit) scale).tdiv unit ≤ -2 ^ 52) := by
  have hU : (0 : Int) < unit := by have := unit_pos; omega
  have hH := H_two
  have hHp := H_pos
  have e : k * unit * scale = k * scale * unit := by rw [Int.mul_right_comm]
  have sgn : (0 ≤ k * (unit : Int)) ↔ 0 ≤ k := by
    constructor
    · intro h
      by_cases c : 0 ≤ k
      · exact c
      · have := Int.mul_neg_of_neg_of_pos (show k < 0 by omega) hU; omega
    · intro h; exact Int.mul_nonneg h (by omega)
  have sgn2 : 0 ≤ k → 0 ≤ k * scale := fun h => Int.mul_nonneg h (by omega)
  have sgn3 : ¬ 0 ≤ k → k * scale < 0 := fun h => Int.mul_neg_of_neg_of_pos (by omega) hs
  unfold B
  rw [e]
  generalize k * scale = n at *
  refine ⟨fun h => ?_, fun h => ?_, fun h => ?_⟩
  · obtain ⟨r1, r2⟩ := R_half n h
    rw [R_whole (Exact.small (by omega))]
    apply tdiv_unique _ _ _ hU
    by_cases c : 0 ≤ k
    · rw [if_pos (sgn.2 c), r1]
      left
      have := Int.mul_nonneg (sgn2 c) (show (0 : Int) ≤ unit by omega)
      omega
    · rw [if_neg (fun hh => c (sgn.1 hh)), show n * unit + -H = n * unit - H by omega, r2]
      right
      have := Int.mul_neg_of_neg_of_pos (sgn3 c) hU
      omega
  · have ck : 0 ≤ k := by
      by_cases c : 0 ≤ k
      · exact c
      · have := sgn3 c; omega
    rw [if_pos (sgn.2 ck)]
    have x : R ((2 ^ 52 : Int) * unit) 1 = 2 ^ 52 * unit := R_whole (Exact.small (by decide))
    have h1 := R_mono _ _ 1 (by omega) (Int.mul_le_mul_of_nonneg_right h (show (0 : Int) ≤ unit by omega))
    rw [x] at h1
    have h2 := R_mono _ _ 1 (by omega) (show (2 ^ 52 * unit : Int) ≤ R (n * unit) 1 + H by omega)
    rw [x] at h2
    generalize R (R (n * unit) 1 + H) 1 = b at *
    have h0 : 0 ≤ b := by have := Int.mul_nonneg (show (0 : Int) ≤ 2 ^ 52 by decide) (show (0 : Int) ≤ unit by omega); omega
    rw [Int.tdiv_eq_ediv_of_nonneg h0]
    exact (Int.le_ediv_iff_mul_le hU).2 h2
  · have ck : ¬ 0 ≤ k := fun c => by have := sgn2 c; omega
    rw [if_neg (fun hh => ck (sgn.1 hh))]
    have x : R (-2 ^ 52 * unit : Int) 1 = -2 ^ 52 * unit := R_whole (Exact.small (by decide))
    have h1 := R_mono _ _ 1 (by omega) (Int.mul_le_mul_of_nonneg_right h (show (0 : Int) ≤ unit by omega))
    rw [x] at h1
    have h2 := R_mono _ _ 1 (by omega) (show R (n * unit) 1 + -H ≤ (-2 ^ 52 * unit : Int) by omega)
    rw [x] at h2
    generalize R (R (n * unit) 1 + -H) 1 = b at *
    have h3 := Int.neg_mul (2 ^ 52) (unit : Int)
    have h0 : 0 ≤ -b := by have := Int.mul_nonneg (show (0 : Int) ≤ 2 ^ 52 by decide) (show (0 : Int) ≤ unit by omega); omega
    have h4 : (2 ^ 52 : Int) ≤ (-b).tdiv unit := by
      rw [Int.tdiv_eq_ediv_of_nonneg h0]
      exact (Int.le_ediv_iff_mul_le hU).2 (by omega)
    rw [Int.neg_tdiv] at h4
    omega

/-! ### C124 -/

/-- The five methods, with the milliseconds in one unit. -/
def methods : List ((Int → Nat → Res Int) × Int) :=
  [(addDays, 24 * 60 * 60 * 1000), (addHours, 60 * 60 * 1000), (addMinutes, 60 * 1000), (addSeconds, 1000), (addMilliseconds, 1)]

theorem methods_scale : ∀ p ∈ methods, 0 < p.2 ∧ p.2 < 2 ^ 53 ∧ ∀ t v, p.1 t v = addDouble t v p.2 := by
  intro p hp
  simp only [methods, List.mem_cons, List.not_mem_nil, or_false] at hp
  rcases hp with rfl | rfl | rfl | rfl | rfl
  · exact ⟨by decide, by decide, fun t v => rfl⟩
  · exact ⟨by decide, by decide, fun t v => rfl⟩
  · exact ⟨by decide, by decide, fun t v => rfl⟩
  · exact ⟨by decide, by decide, fun t v => rfl⟩
  · exact ⟨by decide, by decide, fun t v => rfl⟩

/-- A finite double. -/
def Finite (v : Nat) : Prop := Pattern dbl v ∧ classOf dbl v ≠ .nan ∧ classOf dbl v ≠ .infinite

theorem finite_iff (v : Nat) : Finite v ↔ v < 2 ^ 64 ∧ IsFin v := by
  unfold Finite
  rw [dbl_pat, class_fin (facts (Or.inl rfl : Lib dbl))]
  rfl

/-- **C124**, whole numbers: adding `k` days, hours, minutes, seconds or milliseconds, for every integer `k` a Double can hold, gives exactly the date and time `k` units away, or throws
ArgumentOutOfRangeException when that is outside the calendar. -/
theorem C124_whole_units (p : (Int → Nat → Res Int) × Int) (hp : p ∈ methods) (t : Int) (ht : InRange t) (v : Nat) (hv : Finite v) (k : Int)
    (hk : val dbl v = k * one) :
    p.1 t v = if InRange (t + k * (p.2 * 10000)) then .ok (t + k * (p.2 * 10000)) else .throw .argumentOutOfRange := by
  obtain ⟨s1, s2, s3⟩ := methods_scale p hp
  obtain ⟨v1, v2⟩ := (finite_iff v).1 hv
  rw [s3, addDouble_val t ht v v2 v1 p.2 s1 (Exact.small (by omega)), hk, ← unit_one]
  obtain ⟨b1, b2, b3⟩ := B_whole k p.2 s1
  rw [← Int.mul_assoc k]
  have htm := (inRange_iff t).mp ht
  have hMT : MaxTicks = 3155378975999999999 := by decide +kernel
  rw [hMT] at htm
  rcases (by omega : (k * p.2).natAbs < 2 ^ 52 ∨ 2 ^ 52 ≤ k * p.2 ∨ k * p.2 ≤ -2 ^ 52) with c | c | c
  · rw [b1 c]
  · have h := b2 c
    rw [if_neg, if_neg]
    · rw [inRange_iff, hMT]; omega
    · rw [inRange_iff, hMT]; omega
  · have h := b3 c
    rw [if_neg, if_neg]
    · rw [inRange_iff, hMT]; omega
    · rw [inRange_iff, hMT]; omega

theorem R_error1 (n : Int) (hn : n.natAbs < 2 ^ 49 * unit) : 32 * (R n 1 - n).natAbs ≤ unit := by
  have e : 2 ^ (53 + 1070) * 1 = 2 ^ 49 * unit := by unfold unit; decide +kernel
  have h := R_error n 1 1070 (by omega) (by rw [e]; exact hn) (by omega)
  have e2 : unit = 16 * (1 * 2 ^ 1070) := by unfold unit; decide +kernel
  rw [Int.natCast_one, Int.mul_one] at h
  rw [e2]
  generalize 1 * 2 ^ 1070 = y at *
  omega

/-- **C124 (partial)**: every finite Double gives a whole number `m` of milliseconds within 9/16 of a millisecond of `delta` units (full claim: within 1/2, the nearest), and the result is `m` milliseconds away,
or ArgumentOutOfRangeException when that is outside the calendar; no execution is undefined. A `delta` longer than the calendar throws. -/
theorem C124_add_partial (p : (Int → Nat → Res Int) × Int) (hp : p ∈ methods) (t : Int) (ht : InRange t) (v : Nat) (hv : Finite v) :
    ∃ m : Int, p.1 t v = (if InRange (t + m * 10000) then .ok (t + m * 10000) else .throw .argumentOutOfRange) ∧
      ((val dbl v * p.2).natAbs ≤ MaxMillis * one → 16 * (m * one - val dbl v * p.2).natAbs ≤ 9 * one) ∧
      (MaxMillis * one < (val dbl v * p.2).natAbs → p.1 t v = .throw .argumentOutOfRange) := by
  obtain ⟨s1, s2, s3⟩ := methods_scale p hp
  obtain ⟨v1, v2⟩ := (finite_iff v).1 hv
  have hval := addDouble_val t ht v v2 v1 p.2 s1 (Exact.small (by omega))
  refine ⟨(B (val dbl v) p.2).tdiv unit, by rw [s3, hval], ?_, ?_⟩
  · intro h
    rw [← unit_one] at *
    have hH := H_two
    have hHp := H_pos
    have hM := maxMillis_eq
    have hU : (0 : Int) < unit := by have := unit_pos; omega
    obtain ⟨q1, q2⟩ := tdiv_spec (B (val dbl v) p.2) unit hU
    have hn0 : (0 ≤ val dbl v) → 0 ≤ val dbl v * p.2 := fun h => Int.mul_nonneg h (by omega)
    have hn1 : ¬ (0 ≤ val dbl v) → val dbl v * p.2 < 0 := fun h => Int.mul_neg_of_neg_of_pos (by omega) s1
    unfold B at *
    generalize val dbl v * p.2 = n at *
    have bound : ∀ x : Int, (x.natAbs : Int) ≤ (MaxMillis + 1) * unit → x.natAbs < 2 ^ 49 * unit := by
      intro x hx
      rw [hM] at hx
      have : ((315537897600000 : Int) + 1) * unit < ((2 ^ 49 * unit : Nat) : Int) := by
        rw [Int.natCast_mul]
        apply Int.mul_lt_mul_of_pos_right _ hU
        decide
      generalize ((315537897600000 : Int) + 1) * unit = y at *
      omega
    have em : (MaxMillis + 1) * (unit : Int) = MaxMillis * unit + unit := by rw [Int.add_mul, Int.one_mul]
    have r1 := R_error1 n (bound n (by omega))
    have pos : ∀ b m : Int, (0 ≤ b → m * unit ≤ b ∧ b < m * unit + unit ∧ 0 ≤ m) → 32 * (b - (R n 1 + H)).natAbs ≤ unit → 0 ≤ n → 16 * ((m * unit - n).natAbs : Int) ≤ 9 * unit := by
      intro b m h1 h2 h3
      have := h1 (by omega)
      generalize m * (unit : Int) = x at *
      omega
    by_cases c : 0 ≤ val dbl v
    · rw [if_pos c] at *
      have r2 := R_error1 (R n 1 + H) (bound _ (by omega))
      exact pos _ _ q1 r2 (hn0 c)
    · rw [if_neg c] at *
      have r2 := R_error1 (R n 1 + -H) (bound _ (by omega))
      have h0 := hn1 c
      have hb : R (R n 1 + -H) 1 ≤ 0 := by
        have := R_mono (R n 1 + -H) 0 1 (by omega) (by have := R_mono n 0 1 (by omega) (by omega); rw [R_zero 1 (by omega)] at this; omega)
        rwa [R_zero 1 (by omega)] at this
      have := q2 hb
      generalize (R (R n 1 + -H) 1).tdiv unit * unit = x at *
      omega
  · intro h
    rw [s3, hval, if_neg]
    rw [inRange_iff]
    have htm := (inRange_iff t).mp ht
    have hMT : MaxTicks = 3155378975999999999 := by decide +kernel
    rw [hMT] at htm ⊢
    rw [← unit_one] at h
    have hHp := H_pos
    have hM := maxMillis_eq
    have hU : (0 : Int) < unit := by have := unit_pos; omega
    have x := R_whole max_exact.1
    have y := R_whole max_exact.2
    have e := Int.neg_mul MaxMillis (unit : Int)
    have hn0 : (0 ≤ val dbl v) → 0 ≤ val dbl v * p.2 := fun h => Int.mul_nonneg h (by omega)
    have hn1 : ¬ (0 ≤ val dbl v) → val dbl v * p.2 < 0 := fun h => Int.mul_neg_of_neg_of_pos (by omega) s1
    have e0 : 0 < MaxMillis * (unit : Int) := Int.mul_pos (by omega) hU
    unfold B
    generalize val dbl v * p.2 = n at *
    by_cases c : 0 ≤ val dbl v
    · rw [if_pos c]
      have h1 := R_mono (MaxMillis * unit) n 1 (by omega) (by have := hn0 c; omega)
      rw [x] at h1
      have h2 := R_mono (MaxMillis * unit) (R n 1 + H) 1 (by omega) (by omega)
      rw [x] at h2
      generalize R (R n 1 + H) 1 = b at *
      have h3 : MaxMillis ≤ b.tdiv unit := by
        rw [Int.tdiv_eq_ediv_of_nonneg (by omega)]
        exact (Int.le_ediv_iff_mul_le hU).2 h2
      omega
    · rw [if_neg c]
      have h1 := R_mono n (-MaxMillis * unit) 1 (by omega) (by have := hn1 c; omega)
      rw [y] at h1
      have h2 := R_mono (R n 1 + -H) (-MaxMillis * unit) 1 (by omega) (by omega)
      rw [y] at h2
      generalize R (R n 1 + -H) 1 = b at *
      have h3 : MaxMillis ≤ (-b).tdiv unit := by
        rw [Int.tdiv_eq_ediv_of_nonneg (by omega)]
        exact (Int.le_ediv_iff_mul_le hU).2 (by omega)
      rw [Int.neg_tdiv] at h3
      omega

/-- **C124**: an infinite Double throws. -/
theorem C124_infinite (p : (Int → Nat → Res Int) × Int) (hp : p ∈ methods) (t : Int) : p.1 t (posInf dbl) = .throw .argumentOutOfRange ∧ p.1 t (negInf dbl) = .throw .argumentOutOfRange := by
  obtain ⟨s1, s2, s3⟩ := methods_scale p hp
  rw [s3, s3]
  unfold addDouble
  have h : ∀ q ∈ methods, (fle (millis (posInf dbl) q.2) (ofInt (-MaxMillis)) || fle (ofInt MaxMillis) (millis (posInf dbl) q.2)) = true ∧
      (fle (millis (negInf dbl) q.2) (ofInt (-MaxMillis)) || fle (ofInt MaxMillis) (millis (negInf dbl) q.2)) = true := by
    intro q hq
    simp only [methods, List.mem_cons, List.not_mem_nil, or_false] at hq
    rcases hq with rfl | rfl | rfl | rfl | rfl <;> decide +kernel
  rw [if_pos (h p hp).1, if_pos (h p hp).2]
  exact ⟨rfl, rfl⟩

/-- **C124 is refuted for NaN**: the comparisons are all false, and NaN is converted to Int64 (undefined) where .NET throws. -/
theorem C124_nan_refuted (t : Int) : (∀ p ∈ methods, p.1 t NaN = .ub) ∧ classOf dbl NaN = .nan := by
  refine ⟨?_, by decide +kernel⟩
  intro p hp
  obtain ⟨s1, s2, s3⟩ := methods_scale p hp
  rw [s3]
  unfold addDouble
  have h : ∀ q ∈ methods, (fle (millis NaN q.2) (ofInt (-MaxMillis)) || fle (ofInt MaxMillis) (millis NaN q.2)) = false ∧ toI64 (millis NaN q.2) = .ub := by
    intro q hq
    simp only [methods, List.mem_cons, List.not_mem_nil, or_false] at hq
    rcases hq with rfl | rfl | rfl | rfl | rfl <;> decide +kernel
  rw [(h p hp).1, (h p hp).2]
  rfl

/-- **C124 is refuted for the nearest millisecond**: 0.49999999999999994 ms is less than half a millisecond, and one millisecond is added. -/
theorem C124_nearest_refuted : 2 * val dbl 0x3FDFFFFFFFFFFFFF < one ∧ addMilliseconds 0 0x3FDFFFFFFFFFFFFF = .ok 10000 := by decide +kernel

/-! 1.5 days, -1 hour from the start of the calendar, 36 minutes -/
example : (∃ v, Finite v ∧ 2 * val dbl v = 3 * one ∧ addDays 0 v = .ok 1296000000000) ∧ (∃ v, Finite v ∧ val dbl v = -1 * one ∧ addHours 0 v = .throw .argumentOutOfRange) ∧
    (∃ v, Finite v ∧ val dbl v = 36 * one ∧ addMinutes 5 v = .ok 21600000005) := by
  refine ⟨⟨0x3FF8000000000000, ?_, by decide +kernel, by decide +kernel⟩, ⟨0xBFF0000000000000, ?_, by decide +kernel, by decide +kernel⟩, ⟨0x4042000000000000, ?_, by decide +kernel, by decide +kernel⟩⟩
  all_goals rw [finite_iff]; decide +kernel

end Verif.FloatTime
