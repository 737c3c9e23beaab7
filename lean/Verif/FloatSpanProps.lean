import Verif.FloatTimeProps
import Verif.TimeSpanProps
set_option linter.unusedVariables false
/-!
# C125, C126, C127: TimeSpan and doubles
-/
namespace Verif.FloatTime
open Verif.FltModel Verif.FltSpec Verif.FltProps Verif.Arith

/-! ### The nearest double (specification) -/

/-- The double `r` is nearest to the number `n / d` (counted, like `val`, in least positive doubles); of two equally near, it is the one with an even pattern. -/
def Nearest (n : Int) (d : Nat) (r : Nat) : Prop :=
  Finite r ∧ ∀ z, Finite z → (val dbl r * d - n).natAbs < (val dbl z * d - n).natAbs ∨
    ((val dbl r * d - n).natAbs = (val dbl z * d - n).natAbs ∧ (val dbl z = val dbl r ∨ r % 2 = 0))

theorem mag_mod (r : Nat) : mag dbl r % 2 = r % 2 := by
  unfold mag
  exact Nat.mod_mod_of_dvd r (by decide)

theorem nearest_of (n : Int) (d r : Nat) (hd : 0 < d) (hr : r < 2 ^ 64) (hf : IsFin r) (hv : val dbl r = R n d) : Nearest n d r := by
  refine ⟨(finite_iff r).2 ⟨hr, hf⟩, ?_⟩
  have hmag : mag dbl r = ext n.natAbs d := by
    have h1 : magVal dbl (mag dbl r) = magVal dbl (roundMag n.natAbs d) := by
      rw [← val_abs, hv]; unfold R; split <;> omega
    have h2 := magVal_inj dbl dM0 h1
    rw [roundMag_ext] at h2
    unfold IsFin at hf
    omega
  have hR : R n d = if n < 0 then -(magVal dbl (ext n.natAbs d) : Int) else (magVal dbl (ext n.natAbs d) : Int) := by
    unfold R
    have : roundMag n.natAbs d = ext n.natAbs d := by
      rw [roundMag_ext]; unfold IsFin at hf; omega
    rw [this]
  intro z hz
  rw [hv, hR, ← mag_mod r, hmag]
  have hz0 := val_abs z
  have key : ∀ m, m ≠ ext n.natAbs d → ((magVal dbl (ext n.natAbs d) : Int) * d - n.natAbs).natAbs < ((magVal dbl m : Int) * d - n.natAbs).natAbs ∨
      (((magVal dbl (ext n.natAbs d) : Int) * d - n.natAbs).natAbs = ((magVal dbl m : Int) * d - n.natAbs).natAbs ∧ ext n.natAbs d % 2 = 0) := by
    intro m hm
    have := roundMag_nearest n.natAbs d hd m hm
    rw [Int.natCast_mul, Int.natCast_mul] at this
    exact this
  -- the signed value of z, seen from the side of n
  have same : ∀ (w : Int), (w = magVal dbl (mag dbl z) ∨ w = -(magVal dbl (mag dbl z) : Int)) →
      ((magVal dbl (ext n.natAbs d) : Int) * d - n.natAbs).natAbs < (w * d - n.natAbs).natAbs ∨
      (((magVal dbl (ext n.natAbs d) : Int) * d - n.natAbs).natAbs = (w * d - n.natAbs).natAbs ∧ (w = magVal dbl (ext n.natAbs d) ∨ ext n.natAbs d % 2 = 0)) := by
    intro w hw
    by_cases c : w = magVal dbl (mag dbl z)
    · by_cases ce : mag dbl z = ext n.natAbs d
      · right; rw [c, ce]; exact ⟨rfl, Or.inl rfl⟩
      · rcases key _ ce with h | ⟨h1, h2⟩
        · left; rw [c]; exact h
        · right; rw [c]; exact ⟨h1, Or.inr h2⟩
    · have hw' : w = -(magVal dbl (mag dbl z) : Int) := by omega
      have hp : (0 : Int) < (magVal dbl (mag dbl z) : Int) * d := Int.mul_pos (by omega) (by omega)
      left
      rw [hw', Int.neg_mul]
      by_cases ce : (0 : Nat) = ext n.natAbs d
      · rw [← ce, magVal_zero, Int.natCast_zero, Int.zero_mul]; omega
      · have k0 := key 0 ce
        rw [magVal_zero, Int.natCast_zero, Int.zero_mul] at k0
        omega
  by_cases c : n < 0
  · rw [if_pos c]
    have s := same (-(val dbl z)) (by omega)
    rw [Int.neg_mul] at s
    rw [Int.neg_mul]
    generalize (magVal dbl (ext n.natAbs d) : Int) * d = A at *
    generalize val dbl z * d = Z at *
    rcases s with s | ⟨s1, s2⟩
    · left; omega
    · right
      refine ⟨by omega, ?_⟩
      rcases s2 with s2 | s2
      · left; omega
      · right; exact s2
  · rw [if_neg c]
    have s := same (val dbl z) (by omega)
    generalize (magVal dbl (ext n.natAbs d) : Int) * d = A at *
    generalize val dbl z * d = Z at *
    rcases s with s | ⟨s1, s2⟩
    · left; omega
    · right; exact ⟨by omega, s2⟩

/-! ### The limits of Int64 -/

section
attribute [local irreducible] ext roundMag magVal

theorem ext_scale (K c P d : Nat) (hd : 0 < d) (hI : P < dbl.I) (r : roundMag (K * c) 1 = P) : ext (K * (c * d)) d = P := by
  have h2 := roundMag_scale (K * c) 1 d (by omega) hd
  rw [Nat.one_mul, r, roundMag_ext, Nat.mul_assoc] at h2
  omega

theorem limits_gen (u P n d : Nat) (hu : 0 < u) (hd : 0 < d) (hP : 0 < P) (hI : P + 1 < dbl.I) (p0 : magVal dbl P = 2 ^ 53 * (1024 * u)) (p1 : magVal dbl (P + 1) = (2 ^ 53 + 2) * (1024 * u))
    (p2 : magVal dbl (P - 1) = 9007199254740991 * (1024 * u)) (r1 : roundMag ((2 ^ 53 + 1) * (1024 * u)) 1 = P) (r2 : roundMag (18014398509481983 * (512 * u)) 1 = P) :
    (magVal dbl P < magVal dbl (roundMag n d) ↔ (2 ^ 53 + 1) * (1024 * u * d) < n) ∧
    (magVal dbl P ≤ magVal dbl (roundMag n d) ↔ 18014398509481983 * (512 * u * d) ≤ n) := by
  have mono : ∀ n', n ≤ n' → ext n d ≤ ext n' d := fun n' h => ext_mono n n' d hd h
  have mono' : ∀ n', n' ≤ n → ext n' d ≤ ext n d := fun n' h => ext_mono n' n d hd h
  have hmid1 := ext_scale _ _ P d hd (by omega) r1
  have hmid2 := ext_scale _ _ P d hd (by omega) r2
  have lt_iff : ∀ a b : Nat, magVal dbl a < magVal dbl b ↔ a < b := by
    intro a b
    have := magVal_le dbl dM0 (m := b) (n := a)
    omega
  rw [lt_iff, magVal_le dbl dM0, roundMag_ext]
  have hw : 0 < 512 * u * d := Nat.mul_pos (Nat.mul_pos (by omega) hu) hd
  have e3 : 1024 * u * d = 2 * (512 * u * d) := by rw [Nat.mul_assoc, Nat.mul_assoc]; omega
  have e0 : magVal dbl P * d = 2 ^ 54 * (512 * u * d) := by
    rw [p0, Nat.mul_assoc, e3]; omega
  have e1 : magVal dbl (P + 1) * d = (2 ^ 54 + 4) * (512 * u * d) := by
    rw [p1, Nat.mul_assoc, e3]; omega
  have e2 : magVal dbl (P - 1) * d = 18014398509481982 * (512 * u * d) := by
    rw [p2, Nat.mul_assoc, e3]; omega
  have near1 := roundMag_nearest n d hd (P + 1)
  have near2 := roundMag_nearest n d hd (P - 1)
  rw [e1] at near1
  rw [e2] at near2
  rw [e3] at hmid1 ⊢
  clear r1 r2 p0 p1 p2 lt_iff e1 e2 e3
  generalize 512 * u * d = w at *
  obtain ⟨K1, hK1⟩ : ∃ K, K = (2 ^ 53 + 1) * (2 * w) := ⟨_, rfl⟩
  obtain ⟨K2, hK2⟩ : ∃ K, K = 18014398509481983 * w := ⟨_, rfl⟩
  rw [← hK1] at hmid1 ⊢
  rw [← hK2] at hmid2 ⊢
  have a1 := mono K1
  have a2 := mono' K1
  have a3 := mono K2
  have a4 := mono' K2
  rw [hmid1] at a1 a2
  rw [hmid2] at a3 a4
  clear mono mono' hmid1 hmid2
  generalize hE : ext n d = E at *
  constructor
  · constructor
    · intro h
      omega
    · intro h
      have h1 := a2 (by omega)
      by_cases c : E = P
      · exfalso
        have := near1 (by omega)
        rw [c, e0] at this
        omega
      · omega
  · constructor
    · intro h
      by_cases c : K2 ≤ n
      · exact c
      · exfalso
        have h1 := a3 (by omega)
        have h2 : E = P := by omega
        have := near2 (by omega)
        rw [h2, e0] at this
        omega
    · intro h
      have := a4 h
      omega

end

/-- The pattern of 2^63. -/
def P63 : Nat := 0x43E0000000000000

theorem P63_facts : 0 < P63 ∧ P63 + 1 < dbl.I ∧ magVal dbl P63 = 2 ^ 53 * (1024 * unit) ∧ magVal dbl (P63 + 1) = (2 ^ 53 + 2) * (1024 * unit) ∧ magVal dbl (P63 - 1) = 9007199254740991 * (1024 * unit) ∧
    roundMag ((2 ^ 53 + 1) * (1024 * unit)) 1 = P63 ∧ roundMag (18014398509481983 * (512 * unit)) 1 = P63 := by
  unfold P63 unit; decide +kernel

attribute [irreducible] P63

theorem limits_mag (n d : Nat) (hd : 0 < d) :
    (magVal dbl P63 < magVal dbl (roundMag n d) ↔ (2 ^ 53 + 1) * (1024 * unit * d) < n) ∧
    (magVal dbl P63 ≤ magVal dbl (roundMag n d) ↔ 18014398509481983 * (512 * unit * d) ≤ n) := by
  obtain ⟨h1, h2, h3, h4, h5, h6, h7⟩ := P63_facts
  exact limits_gen unit P63 n d unit_pos hd h1 h2 h3 h4 h5 h6 h7

theorem limits (x : Int) (d : Nat) (hd : 0 < d) :
    (2 ^ 63 * one < R x d ↔ (2 ^ 63 + 1024) * one * d < x) ∧ (R x d < -(2 ^ 63 * one) ↔ x < -((2 ^ 63 + 1024) * one * d)) ∧
    (2 ^ 63 * one ≤ R x d ↔ (2 ^ 63 - 512) * one * d ≤ x) := by
  have key := limits_mag x.natAbs d hd
  obtain ⟨hp0, _, p0, _⟩ := P63_facts
  have hw : 0 < 512 * unit * d := Nat.mul_pos (Nat.mul_pos (by omega) unit_pos) hd
  have c1 : (2 ^ 63 + 1024 : Int) * one * d = (((2 ^ 53 + 1) * (1024 * unit * d) : Nat) : Int) := by
    rw [← unit_one, show (2 ^ 63 + 1024 : Int) = (((2 ^ 53 + 1) * 1024 : Nat) : Int) by decide, ← Int.natCast_mul, ← Int.natCast_mul, Nat.mul_assoc, Nat.mul_assoc, Nat.mul_assoc]
  have c2 : (2 ^ 63 - 512 : Int) * one * d = ((18014398509481983 * (512 * unit * d) : Nat) : Int) := by
    rw [← unit_one, show (2 ^ 63 - 512 : Int) = ((18014398509481983 * 512 : Nat) : Int) by decide, ← Int.natCast_mul, ← Int.natCast_mul, Nat.mul_assoc, Nat.mul_assoc, Nat.mul_assoc]
  have c0 : (2 ^ 63 : Int) * one = ((magVal dbl P63 : Nat) : Int) := by
    rw [p0, ← unit_one, show (2 ^ 63 : Int) = ((2 ^ 53 * 1024 : Nat) : Int) by decide, ← Int.natCast_mul, Nat.mul_assoc]
  rw [c0, c1, c2]
  have hpos : 0 < magVal dbl P63 := magVal_pos hp0
  have hk : 0 < 18014398509481983 * (512 * unit * d) := Nat.mul_pos (by decide) hw
  have hk1 : 0 < (2 ^ 53 + 1) * (1024 * unit * d) := Nat.mul_pos (by decide) (Nat.mul_pos (Nat.mul_pos (by omega) unit_pos) hd)
  unfold R
  generalize magVal dbl P63 = P at *
  generalize (2 ^ 53 + 1) * (1024 * unit * d) = K1 at *
  generalize 18014398509481983 * (512 * unit * d) = K2 at *
  generalize magVal dbl (roundMag x.natAbs d) = V at *
  by_cases c : x < 0
  · rw [if_pos c]; omega
  · rw [if_neg c]; omega

/-- What the limits convert to. -/
theorem limit_vals : val dbl (ofInt (2 ^ 63 - 1)) = 2 ^ 63 * one ∧ val dbl (ofInt (-2 ^ 63)) = -(2 ^ 63 * one) ∧ nan dbl (ofInt (2 ^ 63 - 1)) = false ∧
    nan dbl (ofInt (-2 ^ 63)) = false := by decide +kernel

theorem one_pos : 0 < one := by decide +kernel

theorem finish (a : Nat) (ha : nan dbl a = false) :
    (if flt dbl (ofInt (2 ^ 63 - 1)) a || flt dbl a (ofInt (-2 ^ 63)) then (.throw .overflow : Res Int) else toI64 a) =
    if 2 ^ 63 * one < val dbl a ∨ val dbl a < -(2 ^ 63 * one) then .throw .overflow else if 2 ^ 63 * one ≤ val dbl a then .ub else .ok ((val dbl a).tdiv one) := by
  obtain ⟨l1, l2, l3, l4⟩ := limit_vals
  rw [flt_val _ _ l3 ha, flt_val _ _ ha l4, l1, l2, toI64_val, unit_one]
  have ho := one_pos
  by_cases c1 : 2 ^ 63 * one < val dbl a
  · rw [decide_eq_true c1, Bool.true_or, if_pos rfl, if_pos (Or.inl c1)]
  · rw [decide_eq_false c1, Bool.false_or]
    by_cases c2 : val dbl a < -(2 ^ 63 * one)
    · rw [decide_eq_true c2, if_pos rfl, if_pos (Or.inr c2)]
    · rw [decide_eq_false c2, if_neg (by decide), if_neg (show ¬ (2 ^ 63 * one < val dbl a ∨ val dbl a < -(2 ^ 63 * one)) by omega)]
      by_cases c3 : 2 ^ 63 * one ≤ val dbl a
      · rw [if_pos c3, if_neg]
        rw [show val dbl a = 2 ^ 63 * one by omega, Int.mul_tdiv_cancel _ (by omega)]
        omega
      · rw [if_neg c3, if_pos]
        obtain ⟨p, n⟩ := tdiv_spec (val dbl a) one ho
        generalize (val dbl a).tdiv one = m at *
        generalize val dbl a = v at *
        constructor
        · by_cases c : -2 ^ 63 ≤ m
          · exact c
          · have := Int.mul_le_mul_of_nonneg_right (show m ≤ -2 ^ 63 - 1 by omega) (show 0 ≤ one by omega)
            rw [Int.sub_mul, Int.neg_mul, Int.one_mul] at this
            rcases (by omega : 0 ≤ v ∨ v ≤ 0) with h | h
            · have := p h; omega
            · have := n h; omega
        · by_cases c : m < 2 ^ 63
          · exact c
          · have := Int.mul_le_mul_of_nonneg_right (show 2 ^ 63 ≤ m by omega) (show 0 ≤ one by omega)
            rcases (by omega : 0 ≤ v ∨ v ≤ 0) with h | h
            · have := p h; omega
            · have := n h; omega

/-! ### C125 -/

/-- **Specification**: the ticks for the number `x / d` (in least positive doubles): above 2^63 + 1024 or below -(2^63 + 1024) an OverflowException, from 2^63 - 512 on undefined, and otherwise the
double nearest to it made whole. -/
def ToTicks (x : Int) (d : Nat) (whole : Int → Int → Prop) (res : Res Int) : Prop :=
  if (2 ^ 63 + 1024) * one * d < x ∨ x < -((2 ^ 63 + 1024) * one * d) then res = .throw .overflow
  else if (2 ^ 63 - 512) * one * d ≤ x then res = .ub
  else ∃ r n, Nearest x d r ∧ whole (val dbl r) n ∧ res = .ok n

/-- Towards zero. -/
def Truncated (v n : Int) : Prop := n = v.tdiv one

/-- The five functions, with the ticks (100 ns) in one unit. -/
def spans : List ((Nat → Res Int) × Int) :=
  [(fromDays, 24 * 60 * 60 * 10000000), (fromHours, 60 * 60 * 10000000), (fromMinutes, 60 * 10000000), (fromSeconds, 10000000), (fromMilliseconds, 10000)]

theorem spans_scale : ∀ p ∈ spans, 0 < p.2 ∧ p.2 < 2 ^ 53 ∧ ∀ v, p.1 v = interval v (ofInt p.2) := by
  intro p hp
  simp only [spans, List.mem_cons, List.not_mem_nil, or_false] at hp
  rcases hp with rfl | rfl | rfl | rfl | rfl
  · exact ⟨by decide, by decide, fun v => rfl⟩
  · exact ⟨by decide, by decide, fun v => rfl⟩
  · exact ⟨by decide, by decide, fun v => rfl⟩
  · exact ⟨by decide, by decide, fun v => rfl⟩
  · exact ⟨by decide, by decide, fun v => rfl⟩

theorem R_bound_fin {x : Int} {d r : Nat} (hv : val dbl r = R x d) (h : R x d ≤ 2 ^ 63 * one ∧ -(2 ^ 63 * one) ≤ R x d) : IsFin r := by
  rw [fin_val, hv]
  have := inf_big
  have e : 2 ^ 63 * one < ((2 ^ 64 * unit : Nat) : Int) := by unfold one unit; decide +kernel
  generalize 2 ^ 64 * unit = A at *
  generalize 2 ^ 63 * one = B at *
  omega

theorem interval_val (v : Nat) (hv : IsFin v) (scale : Int) (he : Exact scale) :
    interval v (ofInt scale) = (if 2 ^ 63 * one < R (val dbl v * scale) 1 ∨ R (val dbl v * scale) 1 < -(2 ^ 63 * one) then .throw .overflow
      else if 2 ^ 63 * one ≤ R (val dbl v * scale) 1 then .ub else .ok ((R (val dbl v * scale) 1).tdiv one)) ∧
    val dbl (mul v (ofInt scale)) = R (val dbl v * scale) 1 ∧ mul v (ofInt scale) < 2 ^ 64 := by
  obtain ⟨e1, e2⟩ := ofInt_exact he
  obtain ⟨m1, m2, m3, m4⟩ := mul_fin v (ofInt scale) hv e2
  have hA : R (val dbl v * val dbl (ofInt scale)) unit = R (val dbl v * scale) 1 := by
    rw [e1, ← Int.mul_assoc]
    have := R_scale (val dbl v * scale) 1 unit (by omega) unit_pos
    rwa [Nat.one_mul] at this
  rw [hA] at m2
  refine ⟨?_, m2, m4⟩
  unfold interval
  rw [isNaN_nan, fin_nan hv, if_neg (by decide), finish _ m1, m2]

/-- **C125**: every finite Double. -/
theorem C125_from (p : (Nat → Res Int) × Int) (hp : p ∈ spans) (v : Nat) (hv : Finite v) : ToTicks (val dbl v * p.2) 1 Truncated (p.1 v) := by
  obtain ⟨s1, s2, s3⟩ := spans_scale p hp
  obtain ⟨v1, v2⟩ := (finite_iff v).1 hv
  obtain ⟨h, hm, hlt⟩ := interval_val v v2 p.2 (Exact.small (by omega))
  rw [s3, h]
  unfold ToTicks
  generalize val dbl v * p.2 = x at *
  obtain ⟨l1, l2, l3⟩ := limits x 1 (by omega)
  by_cases c1 : (2 ^ 63 + 1024) * one * (1 : Nat) < x ∨ x < -((2 ^ 63 + 1024) * one * (1 : Nat))
  · rw [if_pos c1, if_pos (by rwa [l1, l2])]
  · have c1' := c1
    rw [← l1, ← l2] at c1'
    rw [if_neg c1, if_neg c1']
    by_cases c2 : (2 ^ 63 - 512) * one * (1 : Nat) ≤ x
    · rw [if_pos c2, if_pos (l3.2 c2)]
    · rw [if_neg c2, if_neg (by rwa [l3])]
      have hf : IsFin (mul v (ofInt p.2)) := R_bound_fin hm ⟨by omega, by omega⟩
      refine ⟨mul v (ofInt p.2), _, nearest_of x 1 _ (by omega) hlt hf hm, rfl, ?_⟩
      rw [hm]

/-- **C125**: a whole number of units whose ticks are an Int64 with at most 53 significant bits is exact. -/
theorem C125_whole_units (p : (Nat → Res Int) × Int) (hp : p ∈ spans) (v : Nat) (hv : Finite v) (k : Int) (hk : val dbl v = k * one) (hI : I64 (k * p.2)) (he : Exact (k * p.2)) :
    p.1 v = .ok (k * p.2) := by
  obtain ⟨s1, s2, s3⟩ := spans_scale p hp
  obtain ⟨v1, v2⟩ := (finite_iff v).1 hv
  obtain ⟨h, hm, hlt⟩ := interval_val v v2 p.2 (Exact.small (by omega))
  rw [s3, h, hk, ← unit_one, Int.mul_right_comm, R_whole he, unit_one]
  generalize k * p.2 = n at *
  have ho := one_pos
  unfold I64 at hI
  have h1 := Int.mul_le_mul_of_nonneg_right (show n ≤ 2 ^ 63 - 1 by omega) (show 0 ≤ one by omega)
  have h2 := Int.mul_le_mul_of_nonneg_right (show -2 ^ 63 ≤ n by omega) (show 0 ≤ one by omega)
  rw [Int.sub_mul, Int.one_mul] at h1
  rw [Int.neg_mul] at h2
  rw [if_neg (by omega), if_neg (by omega), Int.mul_tdiv_cancel _ (by omega)]

/-- **C125**: days and hours: every whole number whose ticks fit is exact. -/
theorem C125_days_hours (v : Nat) (hv : Finite v) (k : Int) (hk : val dbl v = k * one) :
    (I64 (k * 864000000000) → fromDays v = .ok (k * 864000000000)) ∧ (I64 (k * 36000000000) → fromHours v = .ok (k * 36000000000)) := by
  constructor
  · intro h
    refine C125_whole_units (fromDays, _) (by unfold spans; exact List.mem_cons_self ..) v hv k hk h ?_
    refine ⟨k.natAbs * 52734375, 14, ?_, ?_, by omega⟩
    · show (k * 864000000000).natAbs = _; omega
    · unfold I64 at h; omega
  · intro h
    refine C125_whole_units (fromHours, _) (by unfold spans; exact List.mem_cons_of_mem _ (List.mem_cons_self ..)) v hv k hk h ?_
    refine ⟨k.natAbs * 17578125, 11, ?_, ?_, by omega⟩
    · show (k * 36000000000).natAbs = _; omega
    · unfold I64 at h; omega

/-- **C125**: NaN is an ArgumentException, the infinities an OverflowException. -/
theorem C125_special (p : (Nat → Res Int) × Int) (hp : p ∈ spans) :
    (∀ v, classOf dbl v = .nan → p.1 v = .throw .argument) ∧ p.1 (posInf dbl) = .throw .overflow ∧ p.1 (negInf dbl) = .throw .overflow := by
  refine ⟨?_, ?_⟩
  · intro v hv
    rw [(spans_scale p hp).2.2]
    unfold interval
    rw [(isNaN_class (facts (Or.inl rfl : Lib dbl)) v).2 hv, if_pos rfl]
  · simp only [spans, List.mem_cons, List.not_mem_nil, or_false] at hp
    rcases hp with rfl | rfl | rfl | rfl | rfl <;> decide +kernel

/-- **C125 is refuted at the upper limit**: `FromMilliseconds(922337203685477.5807)` (the Double nearest to the longest TimeSpan) is converted out of range (undefined; .NET gives MaxValue). -/
theorem C125_limit_refuted : ∃ v, Nearest ((2 ^ 63 - 1) * one) 10000 v ∧ fromMilliseconds v = .ub :=
  ⟨0x430A36E2EB1C432D, nearest_of _ _ _ (by decide) (by decide) (by decide +kernel) (by decide +kernel), by decide +kernel⟩

/-! 1.5 days; a million milliseconds; a thousand million days is too long -/
example : (∃ v, Finite v ∧ 2 * val dbl v = 3 * one ∧ fromDays v = .ok 1296000000000) ∧ (∃ v, Finite v ∧ val dbl v = 1000000 * one ∧ Exact (1000000 * 10000) ∧ fromMilliseconds v = .ok 10000000000) ∧
    (∃ v, Finite v ∧ val dbl v = 1000000000 * one ∧ fromDays v = .throw .overflow) := by
  refine ⟨⟨0x3FF8000000000000, ?_, by decide +kernel, by decide +kernel⟩, ⟨0x412E848000000000, ?_, by decide +kernel, Exact.small (by decide), by decide +kernel⟩,
    ⟨0x41CDCD6500000000, ?_, by decide +kernel, by decide +kernel⟩⟩
  all_goals rw [finite_iff]; decide +kernel

end Verif.FloatTime
