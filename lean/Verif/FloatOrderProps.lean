import Verif.FloatProps
set_option linter.unusedSimpArgs false
set_option linter.unusedVariables false
/-!
# Order of floating-point numbers, and the functions built on it: C51, C75, C76
-/
namespace Verif.FltProps
open FltModel FltSpec

theorem flt_iff {F : Fmt} (h : Facts F) (a b : Nat) : flt F a b = true ↔ classOf F a ≠ .nan ∧ classOf F b ≠ .nan ∧ val F a < val F b := by
  unfold flt
  simp only [Bool.and_eq_true, Bool.not_eq_true', decide_eq_true_iff, ← Bool.not_eq_true, nan_class h, ne_eq, and_assoc]

theorem feq_iff {F : Fmt} (h : Facts F) (a b : Nat) : feq F a b = true ↔ classOf F a ≠ .nan ∧ classOf F b ≠ .nan ∧ val F a = val F b := by
  unfold feq
  simp only [Bool.and_eq_true, Bool.not_eq_true', decide_eq_true_iff, ← Bool.not_eq_true, nan_class h, ne_eq, and_assoc]

/-- **C51**: `CompareTo` is -1, 0 or 1 exactly as the first is below, the same as, or above the second in the order "NaN first,
then by value". -/
theorem C51_compare_exact {F : Fmt} (hF : Lib F) (a b : Nat) :
    (compareTo F a b = -1 ↔ Below F a b) ∧ (compareTo F a b = 0 ↔ Same F a b) ∧ (compareTo F a b = 1 ↔ Below F b a) ∧
    (compareTo F a b = -1 ∨ compareTo F a b = 0 ∨ compareTo F a b = 1) := by
  have h := facts hF
  unfold compareTo Below Same
  simp only [flt_iff h, feq_iff h, isNaN_class h]
  by_cases ca : classOf F a = .nan <;> by_cases cb : classOf F b = .nan <;> simp [ca, cb]
  rcases Int.lt_trichotomy (val F a) (val F b) with c | c | c
  · simp [c, show ¬ val F b < val F a by omega, show ¬ val F a = val F b by omega]
  · simp [c]
  · simp [c, show ¬ val F a < val F b by omega, show ¬ val F a = val F b by omega]

example : compareTo dbl 0x7FF8000000000000 0xFFF0000000000000 = -1 ∧ compareTo dbl 0x8000000000000000 0 = 0 ∧ compareTo dbl 0xC000000000000000 0xBFF0000000000000 = -1 := by
  decide +kernel

/-- **C51**: `CompareTo` is a total preorder: reflexive, antisymmetric in sign, transitive; all NaNs are equal to each other and
below every number. -/
theorem C51_total_preorder {F : Fmt} (hF : Lib F) (a b c : Nat) :
    compareTo F a a = 0 ∧ compareTo F b a = - compareTo F a b ∧
    (compareTo F a b ≤ 0 → compareTo F b c ≤ 0 → compareTo F a c ≤ 0) ∧
    (compareTo F a b < 0 → compareTo F b c ≤ 0 → compareTo F a c < 0) ∧
    (classOf F a = .nan → compareTo F a b = if classOf F b = .nan then 0 else -1) := by
  have h := facts hF
  have e := fun x y => C51_compare_exact hF x y
  have ab := e a b; have ba := e b a; have bc := e b c; have ac := e a c; have aa := e a a
  simp only [Below, Same] at ab ba bc ac aa
  generalize compareTo F a b = x at *
  generalize compareTo F b a = x' at *
  generalize compareTo F b c = y at *
  generalize compareTo F a c = z at *
  generalize compareTo F a a = r at *
  by_cases ca : classOf F a = .nan <;> by_cases cb : classOf F b = .nan <;> by_cases cc : classOf F c = .nan <;>
    simp [ca, cb, cc] at ab ba bc ac aa ⊢ <;> omega

/-- **C51**: `Equals` holds exactly when `CompareTo` is 0, so it is an equivalence; it does not distinguish the two zeros nor NaNs. -/
theorem C51_equals {F : Fmt} (hF : Lib F) (a b : Nat) : (equals F a b = true ↔ compareTo F a b = 0) ∧ (equals F a b = true ↔ Same F a b) := by
  have h := facts hF
  have e := (C51_compare_exact hF a b).2.1
  have k : equals F a b = true ↔ Same F a b := by
    unfold equals Same
    by_cases c : feq F b a = true
    · rw [if_pos c]
      rw [feq_iff h] at c
      simp only [true_iff]
      exact Or.inr ⟨c.2.1, c.1, c.2.2.symm⟩
    · rw [if_neg c]
      rw [feq_iff h] at c
      rw [Bool.and_eq_true, isNaN_class h, isNaN_class h]
      constructor
      · intro x; exact Or.inl ⟨x.2, x.1⟩
      · rintro (x | x)
        · exact ⟨x.2, x.1⟩
        · exact absurd ⟨x.2.1, x.1, x.2.2.symm⟩ c
  exact ⟨k.trans e.symm, k⟩

/-- **C51**: the overloads taking an object: null compares below every value and is equal to none; another class throws in
`CompareTo` and is unequal; the same class compares by value. -/
theorem C51_objects (F : Fmt) (a b : Nat) :
    compareToObj F a .null = .ok 1 ∧ compareToObj F a .other = .throw .argument ∧ compareToObj F a (.same b) = .ok (compareTo F a b) ∧
    equalsObj F a .null = false ∧ equalsObj F a .other = false ∧ equalsObj F a (.same b) = equals F a b := ⟨rfl, rfl, rfl, rfl, rfl, rfl⟩

/-! ## Clamp, Min, Max, Sign -/

/-- Numbers in IEEE 754 `maximum`/`minimum` order: by value, -0 below +0. -/
def leq (F : Fmt) (a b : Nat) : Prop := val F a < val F b ∨ (val F a = val F b ∧ (b / F.S ≤ a / F.S))

theorem neg_div {F : Fmt} (h : Facts F) {b : Nat} (hb : Pattern F b) : (b / F.S = if F.S ≤ b then 1 else 0) := by
  have hS : 0 < F.S := by have := h.IS; have := h.MI; have := h.M0; omega
  unfold Pattern at hb
  split
  · rename_i c
    rw [Nat.div_eq_iff hS]; omega
  · rename_i c
    exact Nat.div_eq_of_lt (by omega)

/-- **C76**: `Max` of two numbers is one of them and at least both (with -0 below +0); if one is a NaN the result is a NaN, one of
the arguments. -/
theorem C76_max {F : Fmt} (hF : Lib F) (a b : Nat) (ha : Pattern F a) (hb : Pattern F b) :
    (FltModel.max F a b = a ∨ FltModel.max F a b = b) ∧
    ((classOf F a = .nan ∨ classOf F b = .nan) → classOf F (FltModel.max F a b) = .nan) ∧
    (classOf F a ≠ .nan → classOf F b ≠ .nan → leq F a (FltModel.max F a b) ∧ leq F b (FltModel.max F a b)) := by
  have h := facts hF
  unfold FltModel.max
  simp only [Bool.or_eq_true, flt_iff h, feq_iff h, isNaN_class h]
  by_cases ca : classOf F a = .nan
  · simp [ca]
  by_cases cb : classOf F b = .nan
  · simp [ca, cb]
  have na := C50_is_negative_partial hF a ha ca
  simp only [ca, cb, ne_eq, not_false_eq_true, true_and, or_false, false_or, false_implies, not_true_eq_false, true_implies]
  have hna := neg_div h ha
  have hnb := neg_div h hb
  unfold leq
  rw [na]
  by_cases c1 : val F b < val F a
  · rw [if_pos c1]; refine ⟨Or.inl rfl, Or.inr ⟨rfl, Nat.le_refl _⟩, Or.inl c1⟩
  rw [if_neg c1]
  by_cases c2 : val F a = val F b
  · rw [if_pos c2]
    by_cases c3 : a / F.S = 1
    · rw [if_pos (by simpa using c3)]
      refine ⟨Or.inr rfl, Or.inr ⟨c2, ?_⟩, Or.inr ⟨rfl, Nat.le_refl _⟩⟩
      rw [c3, hnb]; split <;> omega
    · rw [if_neg (by simpa using c3)]
      refine ⟨Or.inl rfl, Or.inr ⟨rfl, Nat.le_refl _⟩, Or.inr ⟨c2.symm, ?_⟩⟩
      have : a / F.S = 0 := by rw [hna] at c3 ⊢; split at c3 <;> simp_all
      omega
  · rw [if_neg c2]
    refine ⟨Or.inr rfl, Or.inl (by omega), Or.inr ⟨rfl, Nat.le_refl _⟩⟩

/-- **C76**: `Min`, dually. -/
theorem C76_min {F : Fmt} (hF : Lib F) (a b : Nat) (ha : Pattern F a) (hb : Pattern F b) :
    (FltModel.min F a b = a ∨ FltModel.min F a b = b) ∧
    ((classOf F a = .nan ∨ classOf F b = .nan) → classOf F (FltModel.min F a b) = .nan) ∧
    (classOf F a ≠ .nan → classOf F b ≠ .nan → leq F (FltModel.min F a b) a ∧ leq F (FltModel.min F a b) b) := by
  have h := facts hF
  unfold FltModel.min
  simp only [Bool.or_eq_true, flt_iff h, feq_iff h, isNaN_class h]
  by_cases ca : classOf F a = .nan
  · simp [ca]
  by_cases cb : classOf F b = .nan
  · simp [ca, cb]
  have na := C50_is_negative_partial hF a ha ca
  simp only [ca, cb, ne_eq, not_false_eq_true, true_and, or_false, false_or, false_implies, not_true_eq_false, true_implies]
  have hna := neg_div h ha
  have hnb := neg_div h hb
  unfold leq
  rw [na]
  by_cases c1 : val F a < val F b
  · rw [if_pos c1]; refine ⟨Or.inl rfl, Or.inr ⟨rfl, Nat.le_refl _⟩, Or.inl c1⟩
  rw [if_neg c1]
  by_cases c2 : val F a = val F b
  · rw [if_pos c2]
    by_cases c3 : a / F.S = 1
    · rw [if_pos (by simpa using c3)]
      refine ⟨Or.inl rfl, Or.inr ⟨rfl, Nat.le_refl _⟩, Or.inr ⟨c2, ?_⟩⟩
      rw [c3, hnb]; split <;> omega
    · rw [if_neg (by simpa using c3)]
      refine ⟨Or.inr rfl, Or.inr ⟨c2.symm, ?_⟩, Or.inr ⟨rfl, Nat.le_refl _⟩⟩
      have : a / F.S = 0 := by rw [hna] at c3 ⊢; split at c3 <;> simp_all
      omega
  · rw [if_neg c2]
    refine ⟨Or.inr rfl, Or.inl (by omega), Or.inr ⟨rfl, Nat.le_refl _⟩⟩

example : FltModel.max dbl 0x8000000000000000 0 = 0 ∧ FltModel.min dbl 0 0x8000000000000000 = 0x8000000000000000 ∧
    FltModel.max dbl 0x3FF0000000000000 0x7FF8000000000000 = 0x7FF8000000000000 := by decide +kernel

theorem mag_val (F : Fmt) (h : Facts F) (a : Nat) : val F (FltModel.abs F a) = (val F a).natAbs ∧ classOf F (FltModel.abs F a) = classOf F a := by
  have hS : 0 < F.S := by have := h.IS; have := h.MI; have := h.M0; omega
  have hm := Nat.mod_lt a hS
  have e : FltModel.abs F a % F.S = a % F.S := Nat.mod_mod _ _
  refine ⟨?_, by unfold classOf expo frac; rw [e]⟩
  unfold val mag
  rw [e]
  have : neg F (FltModel.abs F a) = false := by unfold neg FltModel.abs mag; simp; omega
  rw [this]
  simp only [Bool.false_eq_true, if_false]
  split <;> omega

/-- **C76**: `MaxMagnitude`/`MinMagnitude` answer an argument of largest/smallest absolute value; on ties the one that is not
negative, or the negative one. NaN arguments give NaN. -/
theorem C76_magnitude (a b : Nat) (ha : Pattern dbl a) (hb : Pattern dbl b) :
    (maxMagnitude a b = a ∨ maxMagnitude a b = b) ∧ (minMagnitude a b = a ∨ minMagnitude a b = b) ∧
    ((classOf dbl a = .nan ∨ classOf dbl b = .nan) → classOf dbl (maxMagnitude a b) = .nan ∧ classOf dbl (minMagnitude a b) = .nan) ∧
    (classOf dbl a ≠ .nan → classOf dbl b ≠ .nan →
      (val dbl a).natAbs ≤ (val dbl (maxMagnitude a b)).natAbs ∧ (val dbl b).natAbs ≤ (val dbl (maxMagnitude a b)).natAbs ∧
      (val dbl (minMagnitude a b)).natAbs ≤ (val dbl a).natAbs ∧ (val dbl (minMagnitude a b)).natAbs ≤ (val dbl b).natAbs ∧
      ((val dbl a).natAbs = (val dbl b).natAbs → leq dbl a (maxMagnitude a b) ∧ leq dbl b (maxMagnitude a b) ∧
        leq dbl (minMagnitude a b) a ∧ leq dbl (minMagnitude a b) b)) := by
  have hF : Lib dbl := Or.inl rfl
  have h := facts hF
  obtain ⟨va, ka⟩ := mag_val dbl h a
  obtain ⟨vb, kb⟩ := mag_val dbl h b
  unfold maxMagnitude minMagnitude
  simp only [Bool.or_eq_true, flt_iff h, feq_iff h, isNaN_class h, ka, kb, va, vb]
  by_cases ca : classOf dbl a = .nan
  · simp [ca]
  by_cases cb : classOf dbl b = .nan
  · simp [ca, cb]
  have na := C50_is_negative_partial hF a ha ca
  have hna := neg_div h ha
  have hnb := neg_div h hb
  simp only [ca, cb, ne_eq, not_false_eq_true, true_and, or_false, false_or, false_implies, not_true_eq_false, true_implies]
  rw [na]
  have sgn : ∀ x, (x / dbl.S = 1 → val dbl x ≤ 0) ∧ (¬ x / dbl.S = 1 → Pattern dbl x → 0 ≤ val dbl x) := by
    intro x
    unfold val neg
    refine ⟨fun hx => ?_, fun hx hp => ?_⟩
    · have : dbl.S ≤ x := by
        rcases Nat.lt_or_ge x dbl.S with c | c
        · rw [Nat.div_eq_of_lt c] at hx; omega
        · exact c
      rw [decide_eq_true this, if_pos rfl]; omega
    · rw [neg_div h hp] at hx
      rw [if_neg (by rw [decide_eq_true_iff]; intro c; rw [if_pos c] at hx; exact hx rfl)]; omega
  have sa := sgn a
  have sb := sgn b
  have sb2 := fun hx => (sgn b).2 hx hb
  have sa2 := fun hx => (sgn a).2 hx ha
  have hab : a / dbl.S = 0 ∨ a / dbl.S = 1 := by rw [hna]; split <;> simp
  have hbb : b / dbl.S = 0 ∨ b / dbl.S = 1 := by rw [hnb]; split <;> simp
  unfold leq
  rcases Int.lt_trichotomy ((val dbl a).natAbs : Int) ((val dbl b).natAbs : Int) with c | c | c
  · rw [if_neg (show ¬ ((val dbl b).natAbs : Int) < (val dbl a).natAbs by omega), if_neg (show ¬ ((val dbl a).natAbs : Int) = (val dbl b).natAbs by omega), if_pos c]
    refine ⟨Or.inr rfl, Or.inl rfl, by omega, by omega, by omega, by omega, fun hh => by omega⟩
  · rw [if_neg (show ¬ ((val dbl b).natAbs : Int) < (val dbl a).natAbs by omega), if_pos c, if_neg (show ¬ ((val dbl a).natAbs : Int) < (val dbl b).natAbs by omega), if_pos c]
    rcases hab with hp | hp
    · have hd : decide (a / dbl.S = 1) = false := by rw [hp]; rfl
      rw [hd, if_neg Bool.false_ne_true, if_neg Bool.false_ne_true]
      generalize a / dbl.S = p at *
      generalize b / dbl.S = q at *
      have := sa2 (by omega)
      refine ⟨Or.inl rfl, Or.inr rfl, by omega, by omega, by omega, by omega, fun hh => ⟨by omega, ?_, ?_, by omega⟩⟩
      · rcases hbb with hq | hq
        · have := sb2 (by omega); omega
        · have := sb.1 hq; omega
      · rcases hbb with hq | hq
        · have := sb2 (by omega); omega
        · have := sb.1 hq; omega
    · have hd : decide (a / dbl.S = 1) = true := by rw [hp]; rfl
      rw [hd, if_pos rfl, if_pos rfl]
      generalize a / dbl.S = p at *
      generalize b / dbl.S = q at *
      have := sa.1 hp
      refine ⟨Or.inr rfl, Or.inl rfl, by omega, by omega, by omega, by omega, fun hh => ⟨?_, by omega, by omega, ?_⟩⟩
      · rcases hbb with hq | hq
        · have := sb2 (by omega); omega
        · have := sb.1 hq; omega
      · rcases hbb with hq | hq
        · have := sb2 (by omega); omega
        · have := sb.1 hq; omega
  · rw [if_pos (show ((val dbl b).natAbs : Int) < (val dbl a).natAbs by omega), if_neg (show ¬ ((val dbl a).natAbs : Int) < (val dbl b).natAbs by omega),
      if_neg (show ¬ ((val dbl a).natAbs : Int) = (val dbl b).natAbs by omega)]
    refine ⟨Or.inl rfl, Or.inr rfl, by omega, by omega, by omega, by omega, fun hh => by omega⟩

example : maxMagnitude 0xC000000000000000 0x3FF0000000000000 = 0xC000000000000000 ∧ minMagnitude 0xBFF0000000000000 0x3FF0000000000000 = 0xBFF0000000000000 := by
  decide +kernel

/-- **C76**: `Clamp(v, lo, hi)` on numbers throws exactly when `lo > hi`; otherwise the result is one of the three arguments, lies
in `[lo, hi]`, and is `v` itself when `v` does. -/
theorem C76_clamp {F : Fmt} (hF : Lib F) (v lo hi : Nat) (hv : classOf F v ≠ .nan) (hl : classOf F lo ≠ .nan) (hh : classOf F hi ≠ .nan) :
    (val F hi < val F lo → clamp F v lo hi = .throw .minMax) ∧
    (val F lo ≤ val F hi → ∃ r, clamp F v lo hi = .ok r ∧ (r = v ∨ r = lo ∨ r = hi) ∧ val F lo ≤ val F r ∧ val F r ≤ val F hi ∧
      (val F lo ≤ val F v → val F v ≤ val F hi → r = v) ∧ (val F v < val F lo → r = lo) ∧ (val F hi < val F v → r = hi)) := by
  have h := facts hF
  unfold clamp
  simp only [flt_iff h, hv, hl, hh, ne_eq, not_false_eq_true, true_and]
  refine ⟨fun c => by rw [if_pos c], fun c => ?_⟩
  rw [if_neg (by omega)]
  by_cases c1 : val F v < val F lo
  · rw [if_pos c1]; exact ⟨lo, rfl, by simp, by omega, by omega, fun x _ => by omega, fun _ => rfl, fun x => by omega⟩
  rw [if_neg c1]
  by_cases c2 : val F hi < val F v
  · rw [if_pos c2]; exact ⟨hi, rfl, by simp, by omega, by omega, fun _ x => by omega, fun x => by omega, fun _ => rfl⟩
  rw [if_neg c2]; exact ⟨v, rfl, by simp, by omega, by omega, fun _ _ => rfl, fun x => by omega, fun x => by omega⟩

example : clamp dbl 0x4008000000000000 0x3FF0000000000000 0x4000000000000000 = .ok 0x4000000000000000 := by decide +kernel

/-- **C76**: `Sign` of a number is the sign of its value; of a NaN it throws ArithmeticException. -/
theorem C76_sign {F : Fmt} (hF : Lib F) (v : Nat) :
    (classOf F v = .nan → sign F v = .throw .arithmetic) ∧
    (classOf F v ≠ .nan → sign F v = .ok (val F v).sign) := by
  have h := facts hF
  have h0 : classOf F 0 = .zero := (class_zero h 0).mpr (Nat.zero_mod _)
  have v0 : val F 0 = 0 := by unfold val mag; rw [Nat.zero_mod, magVal_zero]; simp
  unfold sign
  simp only [flt_iff h, feq_iff h, h0, v0, ne_eq, reduceCtorEq, not_false_eq_true, true_and]
  refine ⟨fun c => by simp [c], fun c => ?_⟩
  simp only [c, not_false_eq_true, true_and]
  rcases Int.lt_trichotomy (val F v) 0 with d | d | d
  · rw [if_pos d, Int.sign_eq_neg_one_of_neg d]
  · rw [if_neg (by omega), if_neg (by omega), if_pos d, d]; rfl
  · rw [if_neg (by omega), if_pos d, Int.sign_eq_one_of_pos d]

example : sign dbl 0x8000000000000000 = .ok 0 ∧ sign dbl 0xFFF0000000000000 = .ok (-1) := by decide +kernel

/-! ## Division by zero -/

/-- The IEEE 754 quotient by a zero: NaN for 0/0 and NaN/0, else the infinity whose sign is the product of the signs. -/
def zeroQuotient (v1 v2 : Nat) : Class × Bool :=
  match classOf dbl v1 with
  | .nan => (.nan, false)
  | .zero => (.nan, false)
  | _ => (.infinite, (v1 / dbl.S + v2 / dbl.S) % 2 = 1)

/-- **C75** (partial: non-negative numbers divided by +0). `Divide(x, ±0)` gives NaN for zeros and an infinity for other numbers;
the infinity has the IEEE sign when the two signs agree. Nonzero divisors go to the hardware division. -/
theorem C75_divide_by_zero_partial (v1 v2 : Nat) (hn : classOf dbl v1 ≠ .nan) :
    (classOf dbl v2 = .zero → (classOf dbl v1 = .zero ∨ v1 / dbl.S % 2 = v2 / dbl.S % 2) →
      ∃ r, divideSpecial v1 v2 = some r ∧ classOf dbl r = (zeroQuotient v1 v2).1 ∧ (classOf dbl r = .infinite → (decide (r / dbl.S = 1)) = (zeroQuotient v1 v2).2)) ∧
    (classOf dbl v2 ≠ .zero → divideSpecial v1 v2 = none) := by
  have h := facts (Or.inl rfl : Lib dbl)
  have h0 : classOf dbl 0 = .zero := by decide +kernel
  have v0 : val dbl 0 = 0 := by decide +kernel
  have z : ∀ x, feq dbl x 0 = true ↔ classOf dbl x = .zero := by
    intro x
    rw [class_zero h]
    rw [feq_iff h, h0, v0]
    have hk := val_eq_key h.M0 x 0
    have hk0 : key dbl 0 = 0 := by decide +kernel
    have hkz : key dbl x = 0 ↔ x % dbl.S = 0 := by unfold key mag; split <;> omega
    rw [v0, hk0, hkz] at hk
    rw [hk]
    constructor
    · exact fun y => y.2.2
    · intro y
      refine ⟨?_, by simp, y⟩
      rw [(class_zero h x).mpr y]; simp
  unfold divideSpecial
  refine ⟨fun hz hs => ?_, fun hz => ?_⟩
  · rw [if_pos ((z v2).mpr hz)]
    by_cases c : classOf dbl v1 = .zero
    · rw [if_pos ((z v1).mpr c)]
      refine ⟨_, rfl, ?_, ?_⟩
      · unfold zeroQuotient; rw [c]; show classOf dbl _ = Class.nan; decide +kernel
      · intro hh; exact absurd hh (by decide +kernel)
    · rw [if_neg (by rw [z]; exact c)]
      have hs' := hs.resolve_left c
      have hq : zeroQuotient v1 v2 = (.infinite, decide ((v1 / dbl.S + v2 / dbl.S) % 2 = 1)) := by
        unfold zeroQuotient
        cases hc : classOf dbl v1 <;> simp_all
      refine ⟨_, rfl, ?_, ?_⟩
      · rw [hq]; show classOf dbl _ = Class.infinite; decide +kernel
      · intro _
        rw [hq]
        have e1 : posInf dbl / dbl.S = 0 := by decide +kernel
        rw [e1]
        have e2 : (v1 / dbl.S + v2 / dbl.S) % 2 = 0 := by omega
        rw [e2]
  · rw [if_neg (by rw [z]; exact hz)]

example : divideSpecial 0x3FF0000000000000 0 = some 0x7FF0000000000000 ∧ divideSpecial 0 0x8000000000000000 = some 0x7FF8000000000000 := by decide +kernel

/-- **C75** is false of the code: -1.0 / 0.0 is +infinity instead of -infinity. -/
theorem C75_divide_sign_refuted : divideSpecial 0xBFF0000000000000 0 = some (posInf dbl) ∧ (zeroQuotient 0xBFF0000000000000 0).2 = true := by decide +kernel

/-- **C75** is false of the code: NaN / 0.0 is +infinity instead of NaN, for every NaN. -/
theorem C75_divide_nan_refuted (v : Nat) (hv : classOf dbl v = .nan) : divideSpecial v 0 = some (posInf dbl) ∧ classOf dbl (posInf dbl) ≠ .nan := by
  have h := facts (Or.inl rfl : Lib dbl)
  refine ⟨?_, by decide +kernel⟩
  unfold divideSpecial
  rw [if_pos (by decide +kernel), if_neg]
  rw [feq_iff h]; simp [hv]

end Verif.FltProps
