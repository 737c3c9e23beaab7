import Verif.FloatOrderProps
set_option linter.unusedSimpArgs false
set_option linter.unusedVariables false
/-!
# Math on the bits of a Double: BitIncrement/BitDecrement (C49), Round (C74), CopySign (C77)
-/
namespace Verif.FltProps
open FltModel FltSpec

/-! ## Bit fields -/

/-- Masking with `e` ones shifted left by `f` keeps a bit field in place. -/
theorem and_field (y f e : Nat) : y &&& ((2 ^ e - 1) * 2 ^ f) = y / 2 ^ f % 2 ^ e * 2 ^ f := by
  apply Nat.eq_of_testBit_eq
  intro i
  rw [Nat.testBit_and, Nat.mul_comm (2 ^ e - 1), Nat.testBit_two_pow_mul, Nat.mul_comm _ (2 ^ f), Nat.testBit_two_pow_mul,
    Nat.testBit_two_pow_sub_one, Nat.testBit_mod_two_pow, Nat.testBit_div_two_pow]
  by_cases c : f ≤ i
  · simp only [ge_iff_le, c, decide_true, Bool.true_and, Nat.sub_add_cancel c]
    rw [Bool.and_comm]
  · simp [c]

/-- The test at the start of BitIncrement and BitDecrement asks for an exponent field of all ones. -/
theorem expo_test {x : Nat} (hx : x < 2 ^ 64) : ((x >>> 32) &&& 0x7FF00000) ≥ 0x7FF00000 ↔ dbl.I ≤ mag dbl x := by
  have h := and_field (x >>> 32) 20 11
  rw [show ((2 : Nat) ^ 11 - 1) * 2 ^ 20 = 0x7FF00000 by decide] at h
  rw [h, Nat.shiftRight_eq_div_pow, Nat.div_div_eq_div_mul]
  simp only [mag, dbl]
  omega

theorem dbl_pat {x : Nat} : Pattern dbl x ↔ x < 2 ^ 64 := by rw [Pattern, show 2 * dbl.S = 2 ^ 64 by decide]

theorem key_dbl (x : Nat) : key dbl x = if 0x8000000000000000 ≤ x then -((x % 0x8000000000000000 : Nat) : Int) else ((x % 0x8000000000000000 : Nat) : Int) := by
  unfold key neg mag dbl; simp only [decide_eq_true_eq]

/-! ## BitIncrement and BitDecrement (C49) -/

/-- `y` is the number that follows `x`: nothing lies strictly between. -/
def Next (x y : Nat) : Prop := Number dbl y ∧ val dbl x < val dbl y ∧ ∀ z, Number dbl z → val dbl x < val dbl z → val dbl y ≤ val dbl z
/-- `y` is the number that precedes `x`. -/
def Prev (x y : Nat) : Prop := Number dbl y ∧ val dbl y < val dbl x ∧ ∀ z, Number dbl z → val dbl z < val dbl x → val dbl z ≤ val dbl y

theorem nan_dbl (x : Nat) : classOf dbl x = .nan ↔ 0x7FF0000000000000 < x % 0x8000000000000000 := by
  rw [← nan_class (facts (Or.inl rfl : Lib dbl)) x, nan, decide_eq_true_iff]
  exact Iff.rfl

theorem number_dbl (x : Nat) : Number dbl x ↔ x < 2 ^ 64 ∧ x % 0x8000000000000000 ≤ 0x7FF0000000000000 := by
  unfold Number
  rw [dbl_pat, ne_eq, nan_dbl]
  omega

theorem next_of_key {x y : Nat} (hy : Number dbl y) (hk : key dbl y = key dbl x + 1) : Next x y := by
  have hM := (facts (Or.inl rfl : Lib dbl)).M0
  refine ⟨hy, (val_lt_key hM _ _).mpr (by omega), fun z _ hz => ?_⟩
  have h1 := (val_lt_key hM _ _).mp hz
  have h2 := (val_lt_key hM z y)
  omega

theorem prev_of_key {x y : Nat} (hy : Number dbl y) (hk : key dbl y = key dbl x - 1) : Prev x y := by
  have hM := (facts (Or.inl rfl : Lib dbl)).M0
  refine ⟨hy, (val_lt_key hM _ _).mpr (by omega), fun z _ hz => ?_⟩
  have h1 := (val_lt_key hM _ _).mp hz
  have h2 := (val_lt_key hM y z)
  omega

theorem inc_key {x : Nat} (hx : x < 2 ^ 64) (hf : x % 0x8000000000000000 < 0x7FF0000000000000) :
    Number dbl (bitIncrement x) ∧ key dbl (bitIncrement x) = key dbl x + 1 := by
  have ht := expo_test hx
  simp only [mag, dbl] at ht
  rw [number_dbl, key_dbl, key_dbl]
  unfold bitIncrement dEpsilon
  rw [if_neg (by omega)]
  split
  · subst_vars; decide
  · split <;> refine ⟨⟨by omega, by omega⟩, ?_⟩ <;> repeat' split <;> omega
  
theorem dec_key {x : Nat} (hx : x < 2 ^ 64) (hf : x % 0x8000000000000000 < 0x7FF0000000000000) :
    Number dbl (bitDecrement x) ∧ key dbl (bitDecrement x) = key dbl x - 1 := by
  have ht := expo_test hx
  simp only [mag, dbl] at ht
  rw [number_dbl, key_dbl, key_dbl]
  unfold bitDecrement dEpsilon
  rw [if_neg (by omega)]
  split
  · subst_vars; decide
  · split <;> refine ⟨⟨by omega, by omega⟩, ?_⟩ <;> repeat' split <;> omega

theorem fin_dbl {x : Nat} (hc : classOf dbl x ≠ .nan ∧ classOf dbl x ≠ .infinite) : x % 0x8000000000000000 < 0x7FF0000000000000 := by
  have := (class_fin (facts (Or.inl rfl : Lib dbl)) x).mp hc
  simpa only [dbl] using this

/-- **C49** (partial: finite arguments): `BitIncrement(x)` is the least number greater than `x` and `BitDecrement(x)` the greatest
less than `x`, for every finite `x` including both zeros, the subnormals and the extremes (whose neighbours are the infinities). -/
theorem C49_adjacent_partial (x : Nat) (hx : Pattern dbl x) (hc : classOf dbl x ≠ .nan ∧ classOf dbl x ≠ .infinite) :
    Next x (bitIncrement x) ∧ Prev x (bitDecrement x) := by
  have hf := fin_dbl hc
  rw [dbl_pat] at hx
  have h1 := inc_key hx hf
  have h2 := dec_key hx hf
  exact ⟨next_of_key h1.1 h1.2, prev_of_key h2.1 h2.2⟩

example : Pattern dbl 0x8000000000000000 ∧ (classOf dbl 0x8000000000000000 ≠ .nan ∧ classOf dbl 0x8000000000000000 ≠ .infinite) ∧
    bitIncrement 0x8000000000000000 = 1 ∧ bitDecrement 0x7FEFFFFFFFFFFFFF = 0x7FEFFFFFFFFFFFFE ∧
    bitIncrement 0x7FEFFFFFFFFFFFFF = 0x7FF0000000000000 := by unfold Pattern; decide +kernel

/-- **C49**: NaN is fixed by both, +infinity by BitIncrement and -infinity by BitDecrement. -/
theorem C49_fixed (x : Nat) (hx : Pattern dbl x) :
    (classOf dbl x = .nan → bitIncrement x = x ∧ bitDecrement x = x) ∧
    bitIncrement (posInf dbl) = posInf dbl ∧ bitDecrement (negInf dbl) = negInf dbl := by
  refine ⟨fun hc => ?_, by decide +kernel, by decide +kernel⟩
  rw [dbl_pat] at hx
  have hn := (nan_dbl x).mp hc
  have ht := expo_test hx
  simp only [mag, dbl] at ht
  unfold bitIncrement bitDecrement
  rw [if_pos (ht.mpr (by omega)), if_pos (ht.mpr (by omega)), if_neg (by omega), if_neg (by omega)]
  exact ⟨rfl, rfl⟩

example : Pattern dbl 0xFFF8000000000001 ∧ classOf dbl 0xFFF8000000000001 = .nan := by unfold Pattern; decide +kernel

/-- **C49** (partial: while the neighbour is finite): on finite values the two are inverse to each other, up to the sign of zero. -/
theorem C49_inverse_partial (x : Nat) (hx : Pattern dbl x) (hc : classOf dbl x ≠ .nan ∧ classOf dbl x ≠ .infinite) :
    (classOf dbl (bitIncrement x) ≠ .infinite → val dbl (bitDecrement (bitIncrement x)) = val dbl x) ∧
    (classOf dbl (bitDecrement x) ≠ .infinite → val dbl (bitIncrement (bitDecrement x)) = val dbl x) := by
  have hM := (facts (Or.inl rfl : Lib dbl)).M0
  have hf := fin_dbl hc
  rw [dbl_pat] at hx
  have h1 := inc_key hx hf
  have h2 := dec_key hx hf
  constructor
  · intro hi
    have h3 := dec_key (dbl_pat.mp h1.1.1) (fin_dbl ⟨h1.1.2, hi⟩)
    rw [val_eq_key hM]; omega
  · intro hi
    have h3 := inc_key (dbl_pat.mp h2.1.1) (fin_dbl ⟨h2.1.2, hi⟩)
    rw [val_eq_key hM]; omega

example : classOf dbl (bitIncrement 0x3FF0000000000000) ≠ .infinite ∧ classOf dbl (bitDecrement 0) ≠ .infinite ∧
    bitDecrement (bitIncrement 0x3FF0000000000000) = 0x3FF0000000000000 := by decide +kernel

/-- **C49** refuted at the infinities: the number below +infinity is the greatest finite double, `7FEFFFFFFFFFFFFF`, but
`BitDecrement(+infinity)` is four steps lower, because `Double.MaxValue` is written with 16 digits; the same for
`BitIncrement(-infinity)`, and stepping up from the greatest finite double and back does not return to it. -/
theorem C49_infinity_refuted :
    ¬ Prev (posInf dbl) (bitDecrement (posInf dbl)) ∧ ¬ Next (negInf dbl) (bitIncrement (negInf dbl)) ∧
    Prev (posInf dbl) 0x7FEFFFFFFFFFFFFF ∧ Next (negInf dbl) 0xFFEFFFFFFFFFFFFF ∧
    val dbl (bitDecrement (bitIncrement 0x7FEFFFFFFFFFFFFF)) ≠ val dbl 0x7FEFFFFFFFFFFFFF := by
  have hM := (facts (Or.inl rfl : Lib dbl)).M0
  have e1 : bitDecrement (posInf dbl) = 0x7FEFFFFFFFFFFFFB := by decide +kernel
  have e2 : bitIncrement (negInf dbl) = 0xFFEFFFFFFFFFFFFB := by decide +kernel
  have e3 : bitDecrement (bitIncrement 0x7FEFFFFFFFFFFFFF) = 0x7FEFFFFFFFFFFFFB := by decide +kernel
  refine ⟨?_, ?_, ?_, ?_, ?_⟩
  · rintro ⟨_, _, h⟩
    have := h 0x7FEFFFFFFFFFFFFF ((number_dbl _).mpr (by decide +kernel)) ((val_lt_key hM _ _).mpr (by decide +kernel))
    rw [e1] at this
    have h2 := (val_lt_key hM 0x7FEFFFFFFFFFFFFB 0x7FEFFFFFFFFFFFFF).mpr (by decide +kernel)
    exact absurd this (Int.not_le.mpr h2)
  · rintro ⟨_, _, h⟩
    have := h 0xFFEFFFFFFFFFFFFF ((number_dbl _).mpr (by decide +kernel)) ((val_lt_key hM _ _).mpr (by decide +kernel))
    rw [e2] at this
    have h2 := (val_lt_key hM 0xFFEFFFFFFFFFFFFF 0xFFEFFFFFFFFFFFFB).mpr (by decide +kernel)
    exact absurd this (Int.not_le.mpr h2)
  · exact prev_of_key ((number_dbl _).mpr (by decide +kernel)) (by decide +kernel)
  · exact next_of_key ((number_dbl _).mpr (by decide +kernel)) (by decide +kernel)
  · rw [e3, ne_eq, val_eq_key hM]; decide +kernel

/-- The numerator of `Double.MaxValue`'s literal 1.797693134862315E+308 in units of the least positive double, 2^-1074. -/
def maxLiteral : Int := 1797693134862315 * 10 ^ 293 * 2 ^ 1074

/-- The model's `Double.MaxValue` is the double nearest to the literal in the source, strictly nearer than any other number. -/
theorem maxValue_nearest (z : Nat) (hz : Number dbl z) (hne : val dbl z ≠ val dbl dMaxValue) :
    (maxLiteral - val dbl dMaxValue).natAbs < (maxLiteral - val dbl z).natAbs := by
  have hM := (facts (Or.inl rfl : Lib dbl)).M0
  have hk : key dbl z ≠ key dbl dMaxValue := fun h => hne ((val_eq_key hM z dMaxValue).mpr h)
  have k0 : key dbl dMaxValue = 0x7FEFFFFFFFFFFFFB := by decide +kernel
  have lo : key dbl 0x7FEFFFFFFFFFFFFA = 0x7FEFFFFFFFFFFFFA := by decide +kernel
  have hi : key dbl 0x7FEFFFFFFFFFFFFC = 0x7FEFFFFFFFFFFFFC := by decide +kernel
  have l1 := (val_lt_key hM 0x7FEFFFFFFFFFFFFA z)
  have l2 := (val_lt_key hM z 0x7FEFFFFFFFFFFFFC)
  have c1 : val dbl 0x7FEFFFFFFFFFFFFA < maxLiteral ∧ maxLiteral < val dbl 0x7FEFFFFFFFFFFFFC := by decide +kernel
  have c2 : ((maxLiteral - val dbl dMaxValue).natAbs : Int) < maxLiteral - val dbl 0x7FEFFFFFFFFFFFFA ∧
      ((maxLiteral - val dbl dMaxValue).natAbs : Int) < val dbl 0x7FEFFFFFFFFFFFFC - maxLiteral := by decide +kernel
  rw [k0] at hk
  rw [lo] at l1
  rw [hi] at l2
  generalize (maxLiteral - val dbl dMaxValue).natAbs = d at *
  generalize val dbl 0x7FEFFFFFFFFFFFFA = A at *
  generalize val dbl 0x7FEFFFFFFFFFFFFC = C at *
  generalize val dbl z = Z at *
  generalize maxLiteral = L at *
  generalize key dbl z = k at *
  rcases (by omega : k < 0x7FEFFFFFFFFFFFFB ∨ 0x7FEFFFFFFFFFFFFB < k) with c | c
  · have : ¬ A < Z := fun h => by have := l1.mp h; omega
    omega
  · have : ¬ Z < C := fun h => by have := l2.mp h; omega
    omega

/-- `Double.Epsilon`'s literal 4.94065645841247E-324 lies between half and three halves of 2^-1074, so it denotes the least
positive double. -/
theorem epsilon_nearest : (10 : Nat) ^ 338 < 2 * (494065645841247 * 2 ^ 1074) ∧ 2 * (494065645841247 * 2 ^ 1074) < 3 * 10 ^ 338 := by
  decide +kernel

/-! ## CopySign (C77) -/

theorem xor_sign (x : Nat) (hx : x < 2 ^ 64) : x ^^^ 0x8000000000000000 = (x + 0x8000000000000000) % 2 ^ 64 := by
  have hb : (x ^^^ 2 ^ 63) = (x + 2 ^ 63) % 2 ^ 64 := by
    apply Nat.eq_of_testBit_eq
    intro i
    rw [Nat.testBit_xor, Nat.testBit_two_pow, Nat.testBit_mod_two_pow]
    rcases Nat.lt_trichotomy i 63 with c | c | c
    · rw [show i ≠ 63 by omega |> fun h => (by simp; omega : decide (63 = i) = false), Bool.xor_false, decide_eq_true (by omega), Bool.true_and]
      rw [Nat.add_comm, Nat.testBit_two_pow_add_gt c]
    · subst c
      rw [Nat.add_comm, Nat.testBit_two_pow_add_eq]; simp
    · have h1 : x.testBit i = false := Nat.testBit_lt_two_pow (Nat.lt_of_lt_of_le hx (Nat.pow_le_pow_right (by omega) (by omega)))
      rw [h1, decide_eq_false (by omega), decide_eq_false (by omega)]; rfl
  simpa using hb

theorem xor_high (x y : Nat) (hx : x < 2 ^ 64) (hy : y < 2 ^ 64) :
    (x ^^^ y) ≥ 0x8000000000000000 ↔ (decide (0x8000000000000000 ≤ x) ≠ decide (0x8000000000000000 ≤ y)) := by
  have tb : ∀ z, z < 2 ^ 64 → z.testBit 63 = decide (0x8000000000000000 ≤ z) := by
    intro z hz
    rw [Nat.testBit_eq_decide_div_mod_eq]
    apply decide_eq_decide.mpr
    omega
  have hxy : x ^^^ y < 2 ^ 64 := Nat.xor_lt_two_pow hx hy
  have h := tb _ hxy
  rw [Nat.testBit_xor, tb x hx, tb y hy] at h
  have : (x ^^^ y) ≥ 0x8000000000000000 ↔ decide (0x8000000000000000 ≤ x ^^^ y) = true := by rw [decide_eq_true_iff]
  rw [this, ← h]
  cases decide (0x8000000000000000 ≤ x) <;> cases decide (0x8000000000000000 ≤ y) <;> simp

theorem copySign_parts (x y : Nat) (hx : x < 2 ^ 64) (hy : y < 2 ^ 64) (hn : nan dbl y = false) :
    copySign x y < 2 ^ 64 ∧ mag dbl (copySign x y) = mag dbl x ∧ neg dbl (copySign x y) = neg dbl y := by
  unfold copySign
  simp only [isNaN_nan, hn, Bool.false_eq_true, if_false]
  have hh := xor_high x y hx hy
  simp only [mag, neg, dbl]
  split
  · rename_i c
    rw [hh] at c
    rw [xor_sign x hx]
    refine ⟨by omega, by omega, ?_⟩
    by_cases c1 : 0x8000000000000000 ≤ x <;> by_cases c2 : 0x8000000000000000 ≤ y <;> simp [c1, c2] at c ⊢ <;> omega
  · rename_i c
    rw [hh] at c
    exact ⟨hx, rfl, Decidable.not_not.mp c⟩

/-- **C77** (partial: second argument not a NaN): `CopySign(x, y)` has the magnitude bits of `x` and the sign bit of `y`, for
every `x` including NaNs, infinities and zeros. -/
theorem C77_copy_sign_partial (x y : Nat) (hx : Pattern dbl x) (hy : Pattern dbl y) (hn : classOf dbl y ≠ .nan) :
    Pattern dbl (copySign x y) ∧ mag dbl (copySign x y) = mag dbl x ∧ neg dbl (copySign x y) = neg dbl y := by
  have h := nan_class (facts (Or.inl rfl : Lib dbl)) y
  rw [dbl_pat] at hx hy ⊢
  exact copySign_parts x y hx hy (by cases hh : nan dbl y with | false => rfl | true => exact absurd (h.mp hh) hn)

example : Pattern dbl 0x7FF8000000000000 ∧ Pattern dbl 0x8000000000000000 ∧ classOf dbl 0x8000000000000000 ≠ .nan ∧
    copySign 0x7FF8000000000000 0x8000000000000000 = 0xFFF8000000000000 := by unfold Pattern; decide +kernel

/-- **C77**: with a NaN as second argument the result is always negative, whatever the NaN's sign bit. -/
theorem C77_copy_sign_nan (x y : Nat) (hx : Pattern dbl x) (hn : classOf dbl y = .nan) :
    Pattern dbl (copySign x y) ∧ mag dbl (copySign x y) = mag dbl x ∧ neg dbl (copySign x y) = true := by
  have h := (isNaN_class (facts (Or.inl rfl : Lib dbl)) y).mpr hn
  have e : copySign x y = copySign x 0x8000000000000000 := by
    unfold copySign
    rw [h, show isNaN dbl 0x8000000000000000 = false by decide +kernel]
    rfl
  rw [dbl_pat] at hx ⊢
  rw [e]
  exact copySign_parts x 0x8000000000000000 hx (by omega) (by decide +kernel)

/-- **C77** refuted for NaNs: the sign of a positive NaN is not copied. -/
theorem C77_positive_nan_refuted :
    ∃ x y, Pattern dbl x ∧ Pattern dbl y ∧ neg dbl (copySign x y) ≠ neg dbl y :=
  ⟨0x3FF0000000000000, 0x7FF8000000000000, by unfold Pattern; decide +kernel, by unfold Pattern; decide +kernel, by decide +kernel⟩

end Verif.FltProps
