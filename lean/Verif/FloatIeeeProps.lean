import Verif.FloatOpProps
import Verif.FloatOrderProps
/-!
# C133 continued: comparisons, NaN, infinities and zero divisors follow IEEE 754
-/
namespace Verif.FloatExpr
open Verif.FltModel Verif.FltSpec Verif.FltProps Verif.Rnd Verif.FloatText Verif.FloatTextSpec

theorem places_pos (F : Fmt) : (0 : ℚ) < 2 ^ places F := by positivity

theorem number_lt (F : Fmt) (a b : Nat) : number F a < number F b ↔ val F a < val F b := by
  rw [number_val, number_val, div_lt_div_iff_of_pos_right (places_pos F)]
  exact Int.cast_lt

theorem number_eq (F : Fmt) (a b : Nat) : number F a = number F b ↔ val F a = val F b := by
  rw [number_val, number_val, div_left_inj' (ne_of_gt (places_pos F))]
  exact Int.cast_inj

/-- C133: comparisons of numbers (infinities included) are those of their values; with a NaN only `!=` holds. -/
theorem C133_relations (F : Fmt) (hl : Lib F) (a b : Nat) :
    (classOf F a ≠ .nan → classOf F b ≠ .nan →
      (rel F .eq a b = true ↔ number F a = number F b) ∧ (rel F .ne a b = true ↔ number F a ≠ number F b) ∧
      (rel F .lt a b = true ↔ number F a < number F b) ∧ (rel F .le a b = true ↔ number F a ≤ number F b) ∧
      (rel F .gt a b = true ↔ number F b < number F a) ∧ (rel F .ge a b = true ↔ number F b ≤ number F a)) ∧
    (classOf F a = .nan ∨ classOf F b = .nan → rel F .eq a b = false ∧ rel F .ne a b = true ∧ rel F .lt a b = false ∧ rel F .le a b = false ∧ rel F .gt a b = false ∧ rel F .ge a b = false) := by
  have hf := facts hl
  constructor
  · intro ha hb
    have e1 : feq F a b = true ↔ number F a = number F b := by rw [feq_iff hf, number_eq]; exact ⟨fun h => h.2.2, fun h => ⟨ha, hb, h⟩⟩
    have e2 : flt F a b = true ↔ number F a < number F b := by rw [flt_iff hf, number_lt]; exact ⟨fun h => h.2.2, fun h => ⟨ha, hb, h⟩⟩
    have e3 : flt F b a = true ↔ number F b < number F a := by rw [flt_iff hf, number_lt]; exact ⟨fun h => h.2.2, fun h => ⟨hb, ha, h⟩⟩
    refine ⟨e1, ?_, e2, ?_, e3, ?_⟩
    · show (!feq F a b) = true ↔ _
      rw [Ne, ← e1]; simp
    · show (flt F a b || feq F a b) = true ↔ _
      rw [Bool.or_eq_true, e1, e2, le_iff_lt_or_eq]
    · show (flt F b a || feq F a b) = true ↔ _
      rw [Bool.or_eq_true, e1, e3, le_iff_lt_or_eq, eq_comm (a := number F a)]
  · intro h
    have e1 : feq F a b = false := by
      rw [Bool.eq_false_iff, Ne, feq_iff hf]; rintro ⟨p, q, _⟩; exact h.elim p q
    have e2 : flt F a b = false := by
      rw [Bool.eq_false_iff, Ne, flt_iff hf]; rintro ⟨p, q, _⟩; exact h.elim p q
    have e3 : flt F b a = false := by
      rw [Bool.eq_false_iff, Ne, flt_iff hf]; rintro ⟨p, q, _⟩; exact h.elim q p
    refine ⟨e1, ?_, e2, ?_, e3, ?_⟩
    · show (!feq F a b) = true; rw [e1]; rfl
    · show (flt F a b || feq F a b) = false; rw [e1, e2]; rfl
    · show (flt F b a || feq F a b) = false; rw [e1, e3]; rfl

example : classOf dbl 0x3FF0000000000000 ≠ .nan ∧ rel dbl .le 0x3FF0000000000000 0x3FF0000000000000 = true ∧ rel dbl .ne 0x7FF8000000000000 0x7FF8000000000000 = true := by decide +kernel

/-- The pattern is the infinity with sign `s`. -/
def IsInf (F : Fmt) (s : Bool) (b : Nat) : Prop := classOf F b = .infinite ∧ neg F b = s
/-- The pattern is the zero with sign `s`. -/
def IsZero (F : Fmt) (s : Bool) (b : Nat) : Prop := classOf F b = .zero ∧ neg F b = s

theorem inf_pack {F : Fmt} (hl : Lib F) (s : Bool) : IsInf F s (pack F s F.I) := by
  have hI : F.I ≤ F.I := le_refl _
  obtain ⟨p1, p2, _⟩ := pack_parts (lib_bin hl) s F.I hI
  exact ⟨(class_inf (facts hl) _).2 p2, p1⟩

theorem zero_pack {F : Fmt} (hl : Lib F) (s : Bool) : IsZero F s (pack F s 0) := by
  obtain ⟨p1, p2, _⟩ := pack_parts (lib_bin hl) s 0 (Nat.zero_le _)
  exact ⟨(class_zero (facts hl) _).2 p2, p1⟩

theorem number_zero {F : Fmt} (hl : Lib F) (x : Nat) : number F x = 0 ↔ mag F x = 0 := by
  have hP := places_pos F
  rw [number_parts x]
  have : magVal F (mag F x) = 0 ↔ mag F x = 0 := by
    constructor
    · intro h
      by_contra c
      have := magVal_pos (lib_bin hl) (Nat.pos_of_ne_zero c)
      omega
    · intro h; rw [h]; rcases hl with rfl | rfl <;> decide
  rw [← this]
  constructor
  · intro h
    rcases mul_eq_zero.1 h with h | h
    · split at h <;> norm_num at h
    · rw [div_eq_zero_iff] at h
      rcases h with h | h
      · exact_mod_cast h
      · exact absurd h (ne_of_gt hP)
  · intro h; rw [h]; simp

/-- C133: with operands that are not finite, and with zero divisors, the operations follow IEEE 754 (sections 6.1, 6.2, 7.2, 7.3): NaN operands and `inf - inf`, `0 * inf`, `inf / inf`, `0 / 0` give a NaN; other infinite operands give
an infinity (a zero as divisor of a finite number) with the sign the rules ask for; a finite number other than zero divided by zero is infinite. -/
theorem C133_special (F : Fmt) (hl : Lib F) (a b : Nat) :
    (classOf F a = .nan ∨ classOf F b = .nan → classOf F (op F .add a b) = .nan ∧ classOf F (op F .sub a b) = .nan ∧ classOf F (op F .mul a b) = .nan ∧ classOf F (op F .div a b) = .nan) ∧
    (∀ s t, IsInf F s a → IsInf F t b →
      (if s = t then IsInf F s (op F .add a b) ∧ classOf F (op F .sub a b) = .nan else classOf F (op F .add a b) = .nan ∧ IsInf F s (op F .sub a b)) ∧
      IsInf F (s != t) (op F .mul a b) ∧ classOf F (op F .div a b) = .nan) ∧
    (∀ s, IsInf F s a → FloatText.Finite F b → IsInf F s (op F .add a b) ∧ IsInf F s (op F .sub a b) ∧ IsInf F (s != neg F b) (op F .div a b) ∧
      (if number F b = 0 then classOf F (op F .mul a b) = .nan else IsInf F (s != neg F b) (op F .mul a b))) ∧
    (∀ t, FloatText.Finite F a → IsInf F t b → IsInf F t (op F .add a b) ∧ IsInf F (!t) (op F .sub a b) ∧ IsZero F (neg F a != t) (op F .div a b) ∧
      (if number F a = 0 then classOf F (op F .mul a b) = .nan else IsInf F (neg F a != t) (op F .mul a b))) ∧
    (FloatText.Finite F a → FloatText.Finite F b → number F b = 0 → if number F a = 0 then classOf F (op F .div a b) = .nan else IsInf F (neg F a != neg F b) (op F .div a b)) := by
  have hf := facts hl
  have nanN : classOf F (NaN F) = .nan := (nan_class hf _).1 (NaN_nan hl).1
  have hI : F.I ≠ 0 := by rcases hl with rfl | rfl <;> decide
  have inf : ∀ {s x}, IsInf F s x → nan F x = false ∧ mag F x = F.I ∧ neg F x = s := by
    intro s x h
    have : mag F x = F.I := (class_inf hf x).1 h.1
    exact ⟨(nan_false _).2 (le_of_eq this), this, h.2⟩
  have fin : ∀ {x}, FloatText.Finite F x → nan F x = false ∧ mag F x ≠ F.I := fun h => finite_facts hl h
  have ninf : ∀ {s x}, IsInf F s x → nan F (negate F x) = false ∧ mag F (negate F x) = F.I ∧ neg F (negate F x) = !s := by
    intro s x h
    obtain ⟨h1, h2, h3⟩ := inf h
    obtain ⟨n1, n2, n3, _⟩ := negate_parts hl x h1
    exact ⟨n1, n3.trans h2, by rw [n2, h3]⟩
  have nfin : ∀ {x}, FloatText.Finite F x → nan F (negate F x) = false ∧ mag F (negate F x) ≠ F.I := by
    intro x h
    obtain ⟨h1, h2⟩ := fin h
    obtain ⟨n1, n2, n3, _⟩ := negate_parts hl x h1
    exact ⟨n1, by rw [n3]; exact h2⟩
  have isInf : ∀ {s x}, nan F x = false → mag F x = F.I → neg F x = s → IsInf F s x := fun _ h2 h3 => ⟨(class_inf hf _).2 h2, h3⟩
  have zero : ∀ x, number F x = 0 ↔ mag F x = 0 := number_zero hl
  refine ⟨?_, ?_, ?_, ?_, ?_⟩
  · intro h
    rw [← nan_class hf, ← nan_class hf] at h
    have c : (nan F a || nan F b) = true := by rw [Bool.or_eq_true]; exact h
    have e : ∀ o, o = NaN F → classOf F o = .nan := fun o h => by rw [h]; exact nanN
    refine ⟨e _ (by show add F a b = _; unfold add; rw [if_pos c]), e _ ?_, e _ (by show mul F a b = _; unfold mul; rw [if_pos c]), e _ (by show div F a b = _; unfold div; rw [if_pos c])⟩
    show sub F a b = _
    unfold sub
    by_cases hb : nan F b = true
    · rw [if_pos hb]
    · rw [if_neg hb]
      have ha : nan F a = true := h.resolve_right hb
      unfold add
      rw [ha, Bool.true_or, if_pos rfl]
  · intro s t ha hb
    obtain ⟨a1, a2, a3⟩ := inf ha
    obtain ⟨b1, b2, b3⟩ := inf hb
    obtain ⟨c1, c2, c3⟩ := ninf hb
    have eA : op F .add a b = if s ≠ t then NaN F else a := by show add F a b = _; unfold add; simp [a1, a2, a3, b1, b2, b3]
    have eS : op F .sub a b = if s ≠ !t then NaN F else a := by show sub F a b = _; unfold sub add; simp [a1, a2, a3, b1, c1, c2, c3]
    have eM : op F .mul a b = pack F (s != t) F.I := by show mul F a b = _; unfold mul; simp [a1, a2, a3, b1, b2, b3, hI]
    have eD : op F .div a b = NaN F := by show div F a b = _; unfold div; simp [a1, a2, b1, b2]
    refine ⟨?_, by rw [eM]; exact inf_pack hl _, by rw [eD]; exact nanN⟩
    by_cases st : s = t
    · rw [if_pos st, eA, eS, if_neg (by simp [st]), if_pos (by subst st; cases s <;> decide)]
      exact ⟨ha, nanN⟩
    · rw [if_neg st, eA, eS, if_pos st, if_neg (by revert st; cases s <;> cases t <;> decide)]
      exact ⟨nanN, ha⟩
  · intro s ha hb
    obtain ⟨a1, a2, a3⟩ := inf ha
    obtain ⟨b1, b2⟩ := fin hb
    obtain ⟨c1, c2⟩ := nfin hb
    have eA : op F .add a b = a := by show add F a b = _; unfold add; simp [a1, a2, b1, b2]
    have eS : op F .sub a b = a := by show sub F a b = _; unfold sub add; simp [a1, a2, b1, c1, c2]
    have eD : op F .div a b = pack F (s != neg F b) F.I := by show div F a b = _; unfold div; simp [a1, a2, a3, b1, b2]
    refine ⟨by rw [eA]; exact ha, by rw [eS]; exact ha, by rw [eD]; exact inf_pack hl _, ?_⟩
    by_cases z : number F b = 0
    · rw [if_pos z]
      have : op F .mul a b = NaN F := by show mul F a b = _; unfold mul; simp [a1, a2, b1, (zero b).1 z]
      rw [this]; exact nanN
    · rw [if_neg z]
      have z' : mag F b ≠ 0 := fun h => z ((zero b).2 h)
      have : op F .mul a b = pack F (s != neg F b) F.I := by show mul F a b = _; unfold mul; simp [a1, a2, a3, b1, z', hI]
      rw [this]; exact inf_pack hl _
  · intro t ha hb
    obtain ⟨a1, a2⟩ := fin ha
    obtain ⟨b1, b2, b3⟩ := inf hb
    obtain ⟨c1, c2, c3⟩ := ninf hb
    have eA : op F .add a b = b := by show add F a b = _; unfold add; simp [a1, a2, b1, b2]
    have eS : op F .sub a b = negate F b := by show sub F a b = _; unfold sub add; simp [a1, a2, b1, c1, c2]
    have eD : op F .div a b = pack F (neg F a != t) 0 := by show div F a b = _; unfold div; simp [a1, a2, b1, b2, b3]
    refine ⟨by rw [eA]; exact hb, by rw [eS]; exact isInf c1 c2 c3, by rw [eD]; exact zero_pack hl _, ?_⟩
    by_cases z : number F a = 0
    · rw [if_pos z]
      have : op F .mul a b = NaN F := by show mul F a b = _; unfold mul; simp [a1, b2, b1, (zero a).1 z]
      rw [this]; exact nanN
    · rw [if_neg z]
      have z' : mag F a ≠ 0 := fun h => z ((zero a).2 h)
      have : op F .mul a b = pack F (neg F a != t) F.I := by show mul F a b = _; unfold mul; simp [a1, b2, b3, b1, z', hI]
      rw [this]; exact inf_pack hl _
  · intro ha hb z
    obtain ⟨a1, a2⟩ := fin ha
    obtain ⟨b1, b2⟩ := fin hb
    have zb := (zero b).1 z
    by_cases za : number F a = 0
    · rw [if_pos za]
      have : op F .div a b = NaN F := by show div F a b = _; unfold div; simp [a1, a2, b1, zb, (zero a).1 za, hI.symm]
      rw [this]; exact nanN
    · rw [if_neg za]
      have z' : mag F a ≠ 0 := fun h => za ((zero a).2 h)
      have : op F .div a b = pack F (neg F a != neg F b) F.I := by show div F a b = _; unfold div; simp [a1, a2, b1, zb, z', hI.symm]
      rw [this]; exact inf_pack hl _

/-- Infinity minus infinity, 1 / -0, infinity * 0. -/
example : IsInf dbl false 0x7FF0000000000000 ∧ op dbl .sub 0x7FF0000000000000 0x7FF0000000000000 = 0x7FF8000000000000 ∧ op dbl .div 0x3FF0000000000000 0x8000000000000000 = 0xFFF0000000000000 ∧
    op sgl .mul 0x7F800000 0 = 0x7FC00000 := by
  refine ⟨⟨?_, ?_⟩, ?_⟩ <;> decide +kernel

/-- C133: the sign bits of results of finite operands, which matter for zeros (IEEE 754 section 6.3): of a product or quotient negative exactly when the signs differ; an exact zero sum is -0 only when both
operands are negative zeros (`-0 + -0`, `-0 - +0`). -/
theorem C133_signs (F : Fmt) (hl : Lib F) (a b : Nat) (ha : FloatText.Finite F a) (hb : FloatText.Finite F b) :
    neg F (op F .mul a b) = (neg F a != neg F b) ∧ (number F b ≠ 0 → neg F (op F .div a b) = (neg F a != neg F b)) ∧
    (number F a + number F b = 0 → IsZero F (neg F a && neg F b) (op F .add a b)) ∧ (number F a - number F b = 0 → IsZero F (neg F a && !neg F b) (op F .sub a b)) := by
  obtain ⟨a1, a2⟩ := finite_facts hl ha
  obtain ⟨b1, b2⟩ := finite_facts hl hb
  obtain ⟨n1, n2, n3, _⟩ := negate_parts hl b b1
  have sumZ : ∀ x y, number F x + number F y = 0 → val F x + val F y = 0 := by
    intro x y h
    rw [number_val, number_val, ← add_div, div_eq_zero_iff] at h
    rcases h with h | h
    · exact_mod_cast h
    · exact absurd h (ne_of_gt (places_pos F))
  have packNeg : ∀ s m, m ≤ F.I → neg F (pack F s m) = s := fun s m h => (pack_parts (lib_bin hl) s m h).1
  refine ⟨?_, ?_, ?_, ?_⟩
  · have : op F .mul a b = pack F (neg F a != neg F b) (roundMag F (magVal F (mag F a) * magVal F (mag F b)) (2 ^ places F)) := by
      show mul F a b = _; unfold mul; simp [a1, a2, b1, b2]
    rw [this]; exact packNeg _ _ (roundMag_le _ _)
  · intro z
    have z' : mag F b ≠ 0 := fun h => z ((number_zero hl b).2 h)
    have : op F .div a b = pack F (neg F a != neg F b) (roundMag F (magVal F (mag F a) * 2 ^ places F) (magVal F (mag F b))) := by
      show div F a b = _; unfold div; simp [a1, a2, b1, b2, z']
    rw [this]; exact packNeg _ _ (roundMag_le _ _)
  · intro h
    have : op F .add a b = pack F (neg F a && neg F b) 0 := by
      show add F a b = _; unfold add; simp [a1, a2, b1, b2, sumZ a b h]
    rw [this]; exact zero_pack hl _
  · intro h
    have hn : number F a + number F (negate F b) = 0 := by
      rw [← h, number_parts (negate F b), number_parts b, n2, n3]
      cases neg F b <;> norm_num; ring
    have : op F .sub a b = pack F (neg F a && !neg F b) 0 := by
      show sub F a b = _; unfold sub add; simp [a1, a2, b1, n1, n2, n3, b2, sumZ a _ hn]
    rw [this]; exact zero_pack hl _

example : FloatText.Finite dbl 0x8000000000000000 ∧ op dbl .add 0x8000000000000000 0x8000000000000000 = 0x8000000000000000 ∧ op dbl .sub 0x8000000000000000 0x8000000000000000 = 0 := by
  refine ⟨⟨by decide, by decide, by decide⟩, ?_⟩; decide +kernel

end Verif.FloatExpr
