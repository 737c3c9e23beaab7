import Verif.TimeSpanTextProps
import Verif.TimeSpanProps
import Verif.StringProps
/-!
# Exact forms of partial theorems: C15, C18, C30, C31
-/
namespace Verif.TimeSpan

/-- **C15** (exact): a representable difference is returned exactly when the operands have different signs or the difference keeps the common sign; otherwise OverflowException. A difference that is not representable is
never reported: it wraps around, or is undefined. -/
theorem C15_subtract_exact (md : Mode) (a b : Int) (ha : I64 a) (hb : I64 b) :
    (I64 (a - b) → (a < 0 ∧ 0 ≤ b) ∨ (0 ≤ a ∧ b < 0) ∨ (0 ≤ b ∧ b ≤ a) ∨ (a < b ∧ b < 0) → subtract md a b = .ok (a - b)) ∧
    (I64 (a - b) → (0 ≤ a ∧ a < b) ∨ (b ≤ a ∧ a < 0) → subtract md a b = .throw .overflow) ∧
    (¬ I64 (a - b) → subtract .iso a b = .ub ∧ ∃ r, subtract .wrapv a b = .ok r ∧ (r = a - b - 2 ^ 64 ∨ r = a - b + 2 ^ 64)) := by
  unfold I64 at ha hb
  refine ⟨fun hr hs => C15_subtract_partial md a b (by unfold I64; exact ha) (by unfold I64; exact hb) hr hs, fun hr hs => ?_, fun hr => ⟨?_, wrapI64 (a - b), ?_, ?_⟩⟩
  · have e : arith md (a - b) = .ok (a - b) := by
      unfold arith
      cases md
      · exact i64_ok hr
      · simp only []; rw [wrapI64_of hr]
    unfold I64 at hr
    simp only [subtract, e, Res.bind_ok]
    rw [if_pos]
    unfold sar63
    rcases hs with h | h <;> omega
  · unfold subtract arith i64
    simp only []
    rw [if_neg hr]; rfl
  · unfold I64 at hr
    simp only [subtract, arith, Res.bind_ok]
    rw [if_neg]
    unfold sar63
    rintro ⟨h1, _⟩
    omega
  · unfold I64 at hr
    unfold wrapI64
    omega

example : I64 (5 - 3 : Int) ∧ (0 ≤ (3 : Int) ∧ (3 : Int) ≤ 5) ∧ I64 (3 - 5 : Int) ∧ (0 ≤ (3 : Int) ∧ (3 : Int) < 5) ∧ ¬ I64 (-9223372036854775808 - 1) := by decide

/-! ## C18 -/

/-- What the seven digits printed behind the point denote. -/
def shown (f : Nat) : Nat := f * 10 ^ (7 - (dec f).length)

theorem dec_length (f : Nat) (h0 : 0 < f) (h : f < 10000000) : ∃ k, (dec f).length = k + 1 ∧ k < 7 ∧ 10 ^ k ≤ f ∧ f < 10 ^ (k + 1) := by
  have key : ∀ k, 10 ^ k ≤ f → f < 10 ^ (k + 1) → k < 7 → ∃ k, (dec f).length = k + 1 ∧ k < 7 ∧ 10 ^ k ≤ f ∧ f < 10 ^ (k + 1) :=
    fun k h1 h2 h3 => ⟨k, dec_length_pow k f h1 h2, h3, h1, h2⟩
  by_cases h1 : f < 10
  · exact key 0 (by omega) (by omega) (by omega)
  by_cases h2 : f < 100
  · exact key 1 (by omega) (by omega) (by omega)
  by_cases h3 : f < 1000
  · exact key 2 (by omega) (by omega) (by omega)
  by_cases h4 : f < 10000
  · exact key 3 (by omega) (by omega) (by omega)
  by_cases h5 : f < 100000
  · exact key 4 (by omega) (by omega) (by omega)
  by_cases h6 : f < 1000000
  · exact key 5 (by omega) (by omega) (by omega)
  · exact key 6 (by omega) (by omega) (by omega)

theorem shown_ne (f : Nat) (h0 : 0 < f) (h : f < 1000000) : f < shown f ∧ shown f < 10000000 := by
  obtain ⟨k, h1, _, h3, h4⟩ := dec_length f h0 (by omega)
  have hk : k < 6 := by
    rcases Nat.lt_or_ge k 6 with h | h
    · exact h
    · have : 10 ^ 6 ≤ 10 ^ k := Nat.pow_le_pow_right (by decide) h
      omega
  unfold shown
  rw [h1]
  have : k = 0 ∨ k = 1 ∨ k = 2 ∨ k = 3 ∨ k = 4 ∨ k = 5 := by omega
  rcases this with rfl | rfl | rfl | rfl | rfl | rfl <;> simp only [Nat.reducePow, Nat.reduceAdd, Nat.reduceSub] at h3 h4 ⊢ <;> omega

/-- Spans below 100 days: what the text denotes. -/
theorem round_trip_short (L : Locale) (v : Int) (hv : I64 v) (hd : v.natAbs < 100 * 864000000000) :
    parse L (some (toString v)) = .ok ((if v < 0 then -1 else 1) * ((v.natAbs - v.natAbs % 10000000 + shown (v.natAbs % 10000000) : Nat) : Int)) := by
  apply C19_parse_denotes_partial
  rw [toString_eq v hv]
  simp only []
  generalize ha : v.natAbs = a at *
  obtain ⟨g1, n1⟩ := dec2_group (n := a / 36000000000 % 24) (by omega)
  obtain ⟨g2, n2⟩ := dec2_group (n := a / 600000000 % 60) (by omega)
  obtain ⟨g3, n3⟩ := dec2_group (n := a / 10000000 % 60) (by omega)
  have hclock : ClockText (dec2 (a / 36000000000 % 24) ++ 58 :: dec2 (a / 600000000 % 60) ++ 58 :: dec2 (a / 10000000 % 60))
      ((a / 36000000000 % 24 * 60 + a / 600000000 % 60) * 60 + a / 10000000 % 60) :=
    ⟨_, _, _, rfl, g1, g2, g3, by rw [n1, n2, n3]⟩
  generalize hcl : dec2 (a / 36000000000 % 24) ++ 58 :: dec2 (a / 600000000 % 60) ++ 58 :: dec2 (a / 10000000 % 60) = clock at *
  have hday : DayText (if a / 864000000000 ≠ 0 then dec (a / 864000000000) ++ [46] else []) (a / 864000000000) := by
    by_cases h0 : a / 864000000000 = 0
    · rw [if_neg (by simpa using h0)]; exact Or.inl ⟨rfl, h0⟩
    · rw [if_pos h0]
      refine Or.inr ⟨dec (a / 864000000000), rfl, ⟨?_, dec_digits _⟩, (numeral_dec _).symm⟩
      by_cases h10 : a / 864000000000 < 10
      · left; exact dec_length_small.1 h10
      · right; exact dec_length_small.2 (by omega) (by omega)
  have hfrac : FractionText (if a % 10000000 ≠ 0 then
      46 :: (dec (a % 10000000) ++ List.replicate (7 - (dec (a % 10000000)).length) 48) else []) (shown (a % 10000000)) := by
    by_cases h0 : a % 10000000 = 0
    · rw [if_neg (by simpa using h0), h0]; exact Or.inl ⟨rfl, by simp [shown]⟩
    · rw [if_pos h0]
      obtain ⟨k, hl, hk, _, _⟩ := dec_length (a % 10000000) (by omega) (by omega)
      refine Or.inr ⟨_, rfl, by simp; omega, by simp; omega, ?_, ?_⟩
      · intro c hc
        rcases List.mem_append.mp hc with hc | hc
        · exact dec_digits _ c hc
        · rw [List.eq_of_mem_replicate hc]; decide
      · have num : ∀ (x : WStr) (n : Nat), numeral (x ++ List.replicate n 48) = numeral x * 10 ^ n := by
          intro x n
          unfold numeral
          rw [List.foldl_append]
          generalize x.foldl (fun acc c => 10 * acc + (c - 48)) 0 = m
          induction n generalizing m with
          | zero => simp
          | succ n ih =>
            rw [List.replicate_succ, List.foldl_cons, ih, Nat.pow_succ, Nat.mul_comm (10 ^ n) 10, ← Nat.mul_assoc, Nat.mul_comm m 10]
            rfl
        rw [num, numeral_dec]
        unfold shown
        rw [List.length_append, List.length_replicate, hl]
        rw [show 7 - (k + 1 + (7 - (k + 1))) = 0 by omega]
        simp
  refine ⟨if v < 0 then [45] else [], _, clock, _, _, _, _, ?_, ?_, hday, hclock, hfrac, ?_⟩
  · by_cases h0 : a / 864000000000 = 0
    · simp only [h0, ne_eq, not_true_eq_false, if_false]; simp
    · simp only [h0, ne_eq, not_false_eq_true, if_true]; simp
  · split <;> simp
  · have e : (a / 864000000000 * 86400 + ((a / 36000000000 % 24 * 60 + a / 600000000 % 60) * 60 + a / 10000000 % 60)) * 10000000 = a - a % 10000000 := by omega
    rw [e]
    by_cases hn : v < 0
    · simp only [if_pos hn, if_true]
    · simp only [if_neg hn]; rw [if_neg (by simp)]

theorem fraction_bound : ∀ (fuel : Nat) (mem : List Nat) (len : Int) (j : Nat) (acc r : Int), fraction fuel mem len ((10 ^ j : Nat) : Int) acc = .ok r → acc ≤ r ∧ r < acc + ((10 ^ j : Nat) : Int) := by
  intro fuel
  induction fuel with
  | zero => intro mem len j acc r h; cases h
  | succ fuel ih =>
    intro mem len j acc r h
    have p : 0 < 10 ^ j := Nat.pos_of_ne_zero (by simp)
    rw [fraction] at h
    split at h
    · rename_i hc
      rw [Res.bind_eq_ok] at h
      obtain ⟨c, h1, h⟩ := h
      split at h
      · rename_i hdig
        rw [Res.bind_eq_ok] at h
        obtain ⟨m', h2, h⟩ := h
        obtain ⟨i, rfl⟩ : ∃ i, j = i + 1 := by
          refine ⟨j - 1, ?_⟩
          rcases Nat.eq_zero_or_pos j with rfl | h
          · simp at hc
          · omega
        rw [pow10_tdiv] at h
        have := ih _ _ _ _ _ h
        have hd := digit_facts hdig
        rw [Nat.pow_succ]
        have p' : 0 < 10 ^ i := Nat.pos_of_ne_zero (by simp)
        generalize 10 ^ i = q at *
        have lo : 0 ≤ ((c : Int) - 48) * (q : Int) := Int.mul_nonneg (by omega) (by omega)
        have hi : ((c : Int) - 48) * (q : Int) ≤ 9 * (q : Int) := Int.mul_le_mul_of_nonneg_right (by omega) (by omega)
        push_cast
        omega
      · rw [Res.ok.injEq] at h
        omega
    · rw [Res.ok.injEq] at h
      omega

theorem finish_nil (neg : Bool) (f v : Int) (h : finish neg [] f = .ok v) : v.natAbs = f.natAbs := by
  have z : ∀ i, i < 4 → number [] i = .ok 0 := by intro i hi; unfold number; rw [if_pos hi]; rfl
  unfold finish at h
  simp only [List.length_nil, if_neg (show ¬ ((0 : Nat) > 3 ∨ (0 : Nat) = 1) by omega), z 0 (by omega), z 1 (by omega), z 2 (by omega), Nat.zero_add, Res.bind_ok] at h
  simp only [Int.zero_mul, show i64 0 = .ok 0 from rfl, Res.bind_ok, Int.add_zero] at h
  unfold i64 at h
  by_cases h1 : I64 f
  · simp only [if_pos h1, Res.bind_ok] at h
    cases neg with
    | true =>
      simp only [if_true] at h
      split at h
      · rw [Res.ok.injEq] at h; omega
      · cases h
    | false =>
      simp only [Bool.false_eq_true, if_false, Res.ok.injEq] at h
      omega
  · simp only [if_neg h1] at h
    cases h

/-- Texts that start with three digits are read as a fraction of a second. -/
theorem parse_digits (L : Locale) (sg : WStr) (hsg : sg = [] ∨ sg = [45]) (a b c : Nat) (r : WStr) (ha : isDigit a = true) (hb : isDigit b = true) (hc : isDigit c = true) (v : Int)
    (h : parse L (some (sg ++ a :: b :: c :: r)) = .ok v) : v.natAbs < 10000000 := by
  have hg : groups L ((sg ++ a :: b :: c :: r).length + 1) ((a :: b :: c :: r) ++ [0]) (((a :: b :: c :: r).length : Nat) : Int) [] =
      .ok ((a :: b :: c :: r) ++ [0], (((a :: b :: c :: r).length : Nat) : Int), []) := by
    have hb' := digit_facts hb
    have hc' := digit_facts hc
    have sb1 : b ≠ 58 := by omega
    have sb2 : b ≠ 46 := by omega
    have sc1 : c ≠ 58 := by omega
    have sc2 : c ≠ 46 := by omega
    have hsb : isSep b = false := by simp [isSep, sb1, sb2]
    have hsc : isSep c = false := by simp [isSep, sc1, sc2]
    rw [groups, if_pos (by simp only [List.length_cons]; omega), notSeparated_eq]
    simp [peek, ha, hsb, hsc]
  have hf : ∃ fr, fraction 8 ((a :: b :: c :: r) ++ [0]) (((a :: b :: c :: r).length : Nat) : Int) TicksPerSecond 0 = .ok fr := by
    cases hx : fraction 8 ((a :: b :: c :: r) ++ [0]) (((a :: b :: c :: r).length : Nat) : Int) TicksPerSecond 0 with
    | ok fr => exact ⟨fr, rfl⟩
    | _ =>
      exfalso
      have h0 : (a == 45) = false := by have := digit_facts ha; simp; omega
      unfold parse tryParse at h
      rcases hsg with rfl | rfl
      · simp only [List.nil_append, List.cons_append, peek, List.getElem?_cons_zero, Res.bind_ok, h0, Bool.false_eq_true, if_false] at h hg hx
        rw [hg] at h; simp only [Res.bind_ok] at h; rw [hx] at h; cases h
      · simp only [List.nil_append, List.cons_append, peek, List.getElem?_cons_zero, Res.bind_ok, BEq.rfl, if_true, List.drop_succ_cons, List.drop_zero] at h hg hx
        rw [show (((45 :: a :: b :: c :: r).length : Nat) : Int) - 1 = (((a :: b :: c :: r).length : Nat) : Int) by simp] at h
        rw [hg] at h; simp only [Res.bind_ok] at h; rw [hx] at h; cases h
  obtain ⟨fr, hf⟩ := hf
  have ht := tryParse_split L sg (a :: b :: c :: r) hsg ⟨a, _, rfl, ha⟩ [] fr (by rw [hg]; simp only [Res.bind_ok]; rw [hf]; rfl)
  unfold parse at h
  simp only [] at h
  rw [ht] at h
  cases hx : finish (decide (sg = [45])) [] fr with
  | ub => rw [hx] at h; cases h
  | throw e => rw [hx] at h; cases h
  | ok y =>
    rw [hx] at h
    simp only [Res.bind_ok] at h
    have e : y = v := by simpa using h
    subst e
    have h1 := finish_nil _ _ _ hx
    have h2 := fraction_bound 8 _ _ 7 0 fr (by rw [show ((10 ^ 7 : Nat) : Int) = TicksPerSecond from rfl]; exact hf)
    simp only [Nat.reducePow] at h2
    omega

/-- **C18** (exact): the printed text is read back as the span exactly when the span is shorter than 100 days and its fraction of a second is zero or at least a tenth of a second. -/
theorem C18_round_trip_exact (L : Locale) (v : Int) (hv : I64 v) :
    parse L (some (toString v)) = .ok v ↔ v.natAbs < 100 * 864000000000 ∧ (v.natAbs % 10000000 = 0 ∨ 1000000 ≤ v.natAbs % 10000000) := by
  refine ⟨fun h => ?_, fun h => C18_round_trip_partial L v hv h.1 h.2⟩
  by_cases hd : v.natAbs < 100 * 864000000000
  · refine ⟨hd, ?_⟩
    refine Decidable.byContradiction fun hf => ?_
    rw [round_trip_short L v hv hd, Res.ok.injEq] at h
    have := shown_ne (v.natAbs % 10000000) (by omega) (by omega)
    generalize shown (v.natAbs % 10000000) = q at *
    split at h <;> omega
  · exfalso
    have h100 : 100 ≤ v.natAbs / 864000000000 := by omega
    obtain ⟨a, b, c, r, hr⟩ : ∃ a b c r, dec (v.natAbs / 864000000000) = a :: b :: c :: r := by
      have hl : 3 ≤ (dec (v.natAbs / 864000000000)).length := by
        generalize v.natAbs / 864000000000 = n at h100
        rw [dec_rec, if_neg (by omega), dec_rec, if_neg (by omega)]
        have := dec_ne_nil (n / 10 / 10)
        have : 0 < (dec (n / 10 / 10)).length := List.length_pos_iff.mpr this
        simp only [List.length_append, List.length_cons, List.length_nil]
        omega
      match dec (v.natAbs / 864000000000), hl with
      | a :: b :: c :: r, _ => exact ⟨a, b, c, r, rfl⟩
    have dg := dec_digits (v.natAbs / 864000000000)
    rw [hr] at dg
    rw [toString_eq v hv] at h
    simp only [] at h
    rw [if_pos (show v.natAbs / 864000000000 ≠ 0 by omega), hr] at h
    simp only [List.cons_append, List.append_assoc] at h
    have := parse_digits L (if v < 0 then [45] else []) (by split <;> simp) a b c _ (dg a (by simp)) (dg b (by simp)) (dg c (by simp)) v h
    omega

/-- Both sides of C18: one second and one tick does not survive, -99 days and 1.5 seconds does. -/
example : ¬ ((10000001 : Int).natAbs % 10000000 = 0 ∨ 1000000 ≤ (10000001 : Int).natAbs % 10000000) ∧
    (-(99 * 864000000000 + 15000000) : Int).natAbs < 100 * 864000000000 ∧ 1000000 ≤ (-(99 * 864000000000 + 15000000) : Int).natAbs % 10000000 := by decide +kernel

end Verif.TimeSpan

namespace Verif.StrProps
open SBModel SBProps SBSpec StrSpec StrModel

/-- **C30** (exact): `IndexOf(c, start, count)` for all arguments. A count larger than what is left throws; a count of zero or less finds nothing, whatever the start; a negative start with a positive count throws; the two Int32
computations are undefined when they overflow. -/
theorem C30_index_of_exact (v : WStr) (c : Nat) (i n : Int) :
    (¬ I32 (v.length - i) → indexOf v c i n = .ub) ∧
    (I32 (v.length - i) → n > v.length - i → indexOf v c i n = .throw .argumentNull) ∧
    (I32 (v.length - i) → n ≤ v.length - i → ¬ I32 (i + n) → indexOf v c i n = .ub) ∧
    (I32 (v.length - i) → n ≤ v.length - i → I32 (i + n) → n ≤ 0 → indexOf v c i n = .ok (-1)) ∧
    (I32 (v.length - i) → n ≤ v.length - i → I32 (i + n) → 0 < n → i < 0 → indexOf v c i n = .throw .indexOutOfRange) ∧
    (I32 (v.length - i) → n ≤ v.length - i → I32 (i + n) → 0 < n → 0 ≤ i → ∃ r, indexOf v c i n = .ok r ∧ IsFirst (fun j => v[j]? = some c) i.toNat (i.toNat + n.toNat) r) := by
  refine ⟨fun h => ?_, fun h h1 => ?_, fun h h1 h2 => ?_, fun h h1 h2 h3 => ?_, fun h h1 h2 h3 h4 => ?_, fun h h1 h2 h3 h4 => ?_⟩
  · unfold indexOf i32; rw [if_neg h]; rfl
  · unfold indexOf; rw [i32_ok h, Res.bind_ok, if_pos h1]
  · unfold indexOf; rw [i32_ok h, Res.bind_ok, if_neg (by omega)]; unfold i32; rw [if_neg h2]; rfl
  · unfold indexOf; rw [i32_ok h, Res.bind_ok, if_neg (by omega), i32_ok h2, Res.bind_ok, show (i + n - i).toNat = 0 by omega]; rfl
  · unfold indexOf
    rw [i32_ok h, Res.bind_ok, if_neg (by omega), i32_ok h2, Res.bind_ok, show (i + n - i).toNat = (n.toNat - 1) + 1 by omega]
    unfold indexLoop
    rw [getChars_throw (by omega)]; rfl
  · obtain ⟨r, hr, hs⟩ := indexLoop_spec (fun d => d == c) v n.toNat i.toNat (by omega)
    refine ⟨r, ?_, by simpa using hs⟩
    unfold indexOf
    rw [i32_ok h, Res.bind_ok, if_neg (by omega), i32_ok h2, Res.bind_ok, ← hr]
    congr 1 <;> omega

example : indexOf (w "abc") 97 (-5) (-3) = .ok (-1) ∧ indexOf (w "abc") 97 (-2147483648) 0 = .ub ∧ indexOf (w "abc") 99 1 2 = .ok 2 := by decide +kernel

/-- **C31** (exact): with an explicit count `IndexOf(value, start, count)` returns the first place at or after the start where `value` stands, if that place is not behind the end of the range (whether or not `value` ends in the
range), and -1 otherwise. -/
theorem C31_index_of_exact (v p : WStr) (hv : 0 ∉ v) (hp : 0 ∉ p) (i n : Int) (h1 : 0 ≤ i) (h2 : 0 ≤ n) (h3 : i + n ≤ v.length) :
    ∃ r, indexOfStr v (some p) i n = .ok r ∧ IsFirst (OccursAt p v) i.toNat (i.toNat + n.toNat + 1) r := by
  unfold indexOfStr
  simp only []
  rw [if_neg (by omega), if_neg (by omega), cText_drop hv (by omega), cText_cells' p hp]
  cases hf : findText (v.drop i.toNat) p with
  | none =>
    refine ⟨_, rfl, .inl ⟨rfl, fun j hj1 hj2 hj => ?_⟩⟩
    have := findText_none hf (j - i.toNat) (by simp; omega)
    rw [occursAt_drop] at this
    have e : i.toNat + (j - i.toNat) = j := by omega
    rw [e] at this
    exact this hj
  | some k =>
    obtain ⟨f1, f2, f3⟩ := findText_some hf
    rw [occursAt_drop] at f1
    rw [List.length_drop] at f2
    simp only []
    have least : ∀ j : Nat, i ≤ j → (j : Int) < i + k → ¬ OccursAt p v j := by
      intro j hj1 hj2 hj
      have := f3 (j - i.toNat) (by omega)
      rw [occursAt_drop] at this
      have e : i.toNat + (j - i.toNat) = j := by omega
      rw [e] at this
      exact this hj
    by_cases h4 : i + (k : Int) > i + n
    · rw [if_pos h4]
      exact ⟨_, rfl, .inl ⟨rfl, fun j hj1 hj2 => least j (by omega) (by omega)⟩⟩
    · rw [if_neg h4]
      exact ⟨_, rfl, .inr ⟨i.toNat + k, by omega, by omega, by omega, f1, fun j hj1 hj2 => least j (by omega) (by omega)⟩⟩

/-- **C31**, when it is right: the answer is the first occurrence inside the range exactly when the first place where `value` stands at or after the start, if it begins in the range or right behind it, also ends in the range. -/
theorem C31_index_of_right_iff (v p : WStr) (hv : 0 ∉ v) (hp : 0 ∉ p) (i n : Nat) (h3 : i + n ≤ v.length) :
    (∃ r, indexOfStr v (some p) i n = .ok r ∧ IsFirst (fun j => OccursAt p v j ∧ j + p.length ≤ i + n) i (i + n + 1) r) ↔
    ∀ k, i ≤ k → k ≤ i + n → OccursAt p v k → (∀ j, i ≤ j → j < k → ¬ OccursAt p v j) → k + p.length ≤ i + n := by
  obtain ⟨r, hr, hs⟩ := C31_index_of_exact v p hv hp i n (by omega) (by omega) (by omega)
  simp only [Int.toNat_natCast] at hs
  constructor
  · rintro ⟨r', hr', hs'⟩ k hk1 hk2 hk3 hk4
    rw [hr, Res.ok.injEq] at hr'
    subst hr'
    rcases hs with ⟨rfl, hs⟩ | ⟨m, rfl, m1, m2, m3, m4⟩
    · exact absurd hk3 (hs k hk1 (by omega))
    · have : m = k := by
        rcases Nat.lt_trichotomy m k with h | h | h
        · exact absurd m3 (hk4 m m1 h)
        · exact h
        · exact absurd hk3 (m4 k hk1 h)
      subst this
      rcases hs' with ⟨h, _⟩ | ⟨q, h, _, _, h5, _⟩
      · omega
      · have : m = q := by omega
        subst this
        exact h5.2
  · intro h
    refine ⟨r, hr, ?_⟩
    rcases hs with ⟨rfl, hs⟩ | ⟨m, rfl, m1, m2, m3, m4⟩
    · exact .inl ⟨rfl, fun j h1 h2 h3 => hs j h1 h2 h3.1⟩
    · exact .inr ⟨m, rfl, m1, m2, ⟨m3, h m m1 (by omega) m3 m4⟩, fun j h1 h2 h3 => m4 j h1 h2 h3.1⟩

example : indexOfStr (w "banana") (some (w "na")) 0 2 = .ok 2 ∧ indexOfStr (w "banana") (some (w "na")) 0 4 = .ok 2 ∧ indexOfStr (w "banana") (some (w "na")) 3 1 = .ok 4 := by decide +kernel

end Verif.StrProps
