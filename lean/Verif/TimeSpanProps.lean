import Verif.TimeSpanModel
/-!
# C12-C17: TimeSpan arithmetic and comparison
-/
set_option linter.unusedSimpArgs false
namespace Verif.TimeSpan

/-- `x` has the sign of `v` or is zero. -/
def SameSign (v x : Int) : Prop := (0 ≤ v → 0 ≤ x) ∧ (v ≤ 0 → x ≤ 0)

/-- C12: the components of every TimeSpan recompose it; each shares its sign and is below its carry. -/
theorem C12_components (v : Int) (hv : I64 v) :
    ∃ r : Int,
      getDays v * 864000000000 + getHours v * 36000000000 + getMinutes v * 600000000 + getSeconds v * 10000000
        + getMilliseconds v * 10000 + r = v ∧
      SameSign v (getDays v) ∧ SameSign v (getHours v) ∧ SameSign v (getMinutes v) ∧ SameSign v (getSeconds v) ∧
      SameSign v (getMilliseconds v) ∧ SameSign v r ∧
      (getHours v).natAbs < 24 ∧ (getMinutes v).natAbs < 60 ∧ (getSeconds v).natAbs < 60 ∧
      (getMilliseconds v).natAbs < 1000 ∧ r.natAbs < 10000 ∧ (getDays v).natAbs ≤ 10675199 := by
  unfold I64 at hv
  have d : getDays v = if 0 ≤ v then v / 864000000000 else -((-v) / 864000000000) := by
    unfold getDays TicksPerDay; rw [tdiv_split, wrapI32_of]; unfold I32; split <;> omega
  have h : getHours v = if 0 ≤ v then v / 36000000000 % 24 else -((-v) / 36000000000 % 24) := by
    unfold getHours TicksPerHour; rw [tdiv_split, tmod_split]
    by_cases h0 : 0 ≤ v
    · rw [if_pos h0, if_pos (by omega), if_pos h0, wrapI32_of]; unfold I32; omega
    · rw [if_neg h0, if_neg h0]
      split
      · rw [wrapI32_of] <;> (try unfold I32) <;> omega
      · rw [wrapI32_of] <;> (try unfold I32) <;> omega
  have m : getMinutes v = if 0 ≤ v then v / 600000000 % 60 else -((-v) / 600000000 % 60) := by
    unfold getMinutes TicksPerMinute; rw [tdiv_split, tmod_split]
    by_cases h0 : 0 ≤ v
    · rw [if_pos h0, if_pos (by omega), if_pos h0, wrapI32_of]; unfold I32; omega
    · rw [if_neg h0, if_neg h0]
      split
      · rw [wrapI32_of] <;> (try unfold I32) <;> omega
      · rw [wrapI32_of] <;> (try unfold I32) <;> omega
  have s : getSeconds v = if 0 ≤ v then v / 10000000 % 60 else -((-v) / 10000000 % 60) := by
    unfold getSeconds TicksPerSecond; rw [tdiv_split, tmod_split]
    by_cases h0 : 0 ≤ v
    · rw [if_pos h0, if_pos (by omega), if_pos h0, wrapI32_of]; unfold I32; omega
    · rw [if_neg h0, if_neg h0]
      split
      · rw [wrapI32_of] <;> (try unfold I32) <;> omega
      · rw [wrapI32_of] <;> (try unfold I32) <;> omega
  have ms : getMilliseconds v = if 0 ≤ v then v / 10000 % 1000 else -((-v) / 10000 % 1000) := by
    unfold getMilliseconds TicksPerMillisecond; rw [tdiv_split, tmod_split]
    by_cases h0 : 0 ≤ v
    · rw [if_pos h0, if_pos (by omega), if_pos h0, wrapI32_of]; unfold I32; omega
    · rw [if_neg h0, if_neg h0]
      split
      · rw [wrapI32_of] <;> (try unfold I32) <;> omega
      · rw [wrapI32_of] <;> (try unfold I32) <;> omega
  rw [d, h, m, s, ms]
  unfold SameSign
  by_cases h0 : 0 ≤ v
  · simp only [if_pos h0]
    refine ⟨v % 10000, ?_, ?_, ?_, ?_, ?_, ?_, ?_, ?_, ?_, ?_, ?_, ?_, ?_⟩ <;> omega
  · simp only [if_neg h0]
    refine ⟨-((-v) % 10000), ?_, ?_, ?_, ?_, ?_, ?_, ?_, ?_, ?_, ?_, ?_, ?_, ?_⟩ <;> omega

example : I64 (-937840050607) ∧ getDays (-937840050607) = -1 ∧ getSeconds (-937840050607) = -4 := by decide +kernel

/-- C13: the constructor from hours, minutes and seconds holds the exact total or throws. -/
theorem C13_ofHms (h m s : Int) (hh : I32 h) (hm : I32 m) (hs : I32 s) :
    ofHms h m s = if I64 ((h * 3600 + m * 60 + s) * 10000000) then .ok ((h * 3600 + m * 60 + s) * 10000000)
      else .throw .argumentOutOfRange := by
  unfold I32 at hh hm hs
  have hM : MaxSeconds = 922337203685 := by decide
  have hN : MinSeconds = -922337203685 := by decide
  unfold ofHms
  rw [i64_ok (x := h * 3600) (by unfold I64; omega)]; simp only [Res.bind_ok]
  rw [i64_ok (x := m * 60) (by unfold I64; omega)]; simp only [Res.bind_ok]
  rw [i64_ok (by unfold I64; omega)]; simp only [Res.bind_ok]
  rw [i64_ok (by unfold I64; omega)]; simp only [Res.bind_ok]
  rw [hM, hN]
  generalize h * 3600 + m * 60 + s = t at *
  unfold TicksPerSecond
  by_cases hr : t > 922337203685 ∨ t < -922337203685
  · rw [if_pos hr, if_neg (by unfold I64; omega)]
  · rw [if_neg hr, if_pos (by unfold I64; omega), i64_ok (by unfold I64; omega)]

/-- C13: the constructor from days, hours, minutes, seconds and milliseconds holds the exact total or throws. -/
theorem C13_ofDhms (d h m s ms : Int) (hd : I32 d) (hh : I32 h) (hm : I32 m) (hs : I32 s) (hms : I32 ms) :
    ofDhms d h m s ms =
      if I64 (((d * 86400 + h * 3600 + m * 60 + s) * 1000 + ms) * 10000) then
        .ok (((d * 86400 + h * 3600 + m * 60 + s) * 1000 + ms) * 10000)
      else .throw .argumentOutOfRange := by
  unfold I32 at hd hh hm hs hms
  have hM : MaxMilliSeconds = 922337203685477 := by decide
  have hN : MinMilliSeconds = -922337203685477 := by decide
  unfold ofDhms
  rw [i64_ok (x := d * 3600) (by unfold I64; omega)]; simp only [Res.bind_ok]
  rw [i64_ok (x := d * 3600 * 24) (by unfold I64; omega)]; simp only [Res.bind_ok]
  rw [i64_ok (x := h * 3600) (by unfold I64; omega)]; simp only [Res.bind_ok]
  rw [i64_ok (x := m * 60) (by unfold I64; omega)]; simp only [Res.bind_ok]
  rw [i64_ok (x := d * 3600 * 24 + h * 3600) (by unfold I64; omega)]; simp only [Res.bind_ok]
  rw [i64_ok (x := d * 3600 * 24 + h * 3600 + m * 60) (by unfold I64; omega)]; simp only [Res.bind_ok]
  rw [i64_ok (x := d * 3600 * 24 + h * 3600 + m * 60 + s) (by unfold I64; omega)]; simp only [Res.bind_ok]
  rw [i64_ok (x := (d * 3600 * 24 + h * 3600 + m * 60 + s) * 1000) (by unfold I64; omega)]; simp only [Res.bind_ok]
  rw [i64_ok (x := (d * 3600 * 24 + h * 3600 + m * 60 + s) * 1000 + ms) (by unfold I64; omega)]
  simp only [Res.bind_ok]
  rw [hM, hN]
  have e : (d * 3600 * 24 + h * 3600 + m * 60 + s) * 1000 + ms = (d * 86400 + h * 3600 + m * 60 + s) * 1000 + ms := by
    omega
  rw [e]
  generalize (d * 86400 + h * 3600 + m * 60 + s) * 1000 + ms = t at *
  unfold TicksPerMillisecond
  by_cases hr : t > 922337203685477 ∨ t < -922337203685477
  · rw [if_pos hr, if_neg (by unfold I64; omega)]
  · rw [if_neg hr, if_pos (by unfold I64; omega), i64_ok (by unfold I64; omega)]

example : ofDhms 10675199 2 48 5 477 = .ok 9223372036854770000 ∧ ofDhms 10675199 2 48 5 478 = .throw .argumentOutOfRange ∧
    I32 10675199 := by decide +kernel

theorem sar63_pos {x : Int} (h : I64 x) (h0 : 0 ≤ x) : sar63 x = 0 := by unfold I64 at h; unfold sar63; omega
theorem sar63_neg {x : Int} (h : I64 x) (h0 : x < 0) : sar63 x = -1 := by unfold I64 at h; unfold sar63; omega

/-- C14: on two's complement arithmetic, `Add` returns the exact sum when it fits in Int64 and throws
OverflowException exactly otherwise. -/
theorem C14_add_exact_or_overflow (a b : Int) (ha : I64 a) (hb : I64 b) :
    add .wrapv a b = if I64 (a + b) then .ok (a + b) else .throw .overflow := by
  have hw : I64 (wrapI64 (a + b)) := by unfold I64 wrapI64; omega
  unfold add arith
  simp only [Res.bind_ok]
  by_cases hr : I64 (a + b)
  · rw [if_pos hr, wrapI64_of hr, if_neg]
    rintro ⟨h1, h2⟩
    rcases Int.lt_or_le a 0 with h | h <;> rcases Int.lt_or_le b 0 with h' | h'
    · exact h2 (by rw [sar63_neg ha h, sar63_neg hr (by omega)])
    · rw [sar63_neg ha h, sar63_pos hb h'] at h1; exact absurd h1 (by decide)
    · rw [sar63_pos ha h, sar63_neg hb h'] at h1; exact absurd h1 (by decide)
    · exact h2 (by rw [sar63_pos ha h, sar63_pos hr (by omega)])
  · rw [if_neg hr, if_pos]
    rcases Int.lt_or_le a 0 with h | h <;> rcases Int.lt_or_le b 0 with h' | h'
    · rw [sar63_neg ha h, sar63_neg hb h', sar63_pos hw (by unfold I64 at *; unfold wrapI64; omega)]; decide
    · exact absurd (by unfold I64 at *; omega) hr
    · exact absurd (by unfold I64 at *; omega) hr
    · rw [sar63_pos ha h, sar63_pos hb h', sar63_neg hw (by unfold I64 at *; unfold wrapI64; omega)]; decide

/-- C14 under ISO C++: a sum that fits is returned; otherwise the overflow happens before the test that should
report it. -/
theorem C14_add_iso (a b : Int) (ha : I64 a) (hb : I64 b) :
    add .iso a b = if I64 (a + b) then .ok (a + b) else .ub := by
  by_cases hr : I64 (a + b)
  · have := C14_add_exact_or_overflow a b ha hb
    rw [if_pos hr] at this ⊢
    rw [← this]
    unfold add arith
    simp only []
    rw [i64_ok hr, wrapI64_of hr]
  · rw [if_neg hr]; unfold add arith; simp only []; unfold i64; rw [if_neg hr]; rfl

example : add .wrapv 9223372036854775807 1 = .throw .overflow ∧ add .wrapv 9223372036854775807 (-1) = .ok 9223372036854775806 ∧
    I64 9223372036854775807 := by decide +kernel

/-- C15 (partial): when the difference fits and the operands have different signs, or the same sign and the result
keeps it, `Subtract` returns the exact difference. Missing: the remaining pairs, where it throws for
representable differences and returns a wrapped value for others (`C15_refuted`). -/
theorem C15_subtract_partial (md : Mode) (a b : Int) (ha : I64 a) (hb : I64 b) (hr : I64 (a - b))
    (hs : (a < 0 ∧ 0 ≤ b) ∨ (0 ≤ a ∧ b < 0) ∨ (0 ≤ b ∧ b ≤ a) ∨ (a < b ∧ b < 0)) :
    subtract md a b = .ok (a - b) := by
  have e : arith md (a - b) = .ok (a - b) := by
    cases md
    · exact i64_ok hr
    · show Res.ok (wrapI64 (a - b)) = _; rw [wrapI64_of hr]
  unfold subtract
  rw [e]
  simp only [Res.bind_ok]
  rw [if_neg]
  rintro ⟨h1, h2⟩
  rcases hs with h | h | h | h
  · rw [sar63_neg ha h.1, sar63_pos hb h.2] at h1; exact absurd h1 (by decide)
  · rw [sar63_pos ha h.1, sar63_neg hb h.2] at h1; exact absurd h1 (by decide)
  · exact h2 (by rw [sar63_pos ha (by omega), sar63_pos hr (by omega)])
  · exact h2 (by rw [sar63_neg ha (by omega), sar63_neg hr (by omega)])

example : subtract .wrapv 5 3 = .ok 2 ∧ subtract .iso (-5) 3 = .ok (-8) ∧ subtract .iso (-5) (-3) = .ok (-2) := by decide +kernel

/-- C15, the other side: for two non-negative spans with a negative difference, and for two negative spans with a
non-negative difference, `Subtract` always throws although the difference is representable. -/
theorem C15_always_throws (md : Mode) (a b : Int) (ha : I64 a) (hb : I64 b)
    (hs : (0 ≤ a ∧ a < b) ∨ (b ≤ a ∧ a < 0)) :
    I64 (a - b) ∧ subtract md a b = .throw .overflow := by
  have hr : I64 (a - b) := by unfold I64 at *; omega
  refine ⟨hr, ?_⟩
  have e : arith md (a - b) = .ok (a - b) := by
    cases md
    · exact i64_ok hr
    · show Res.ok (wrapI64 (a - b)) = _; rw [wrapI64_of hr]
  unfold subtract
  rw [e]
  simp only [Res.bind_ok]
  rw [if_pos]
  rcases hs with h | h
  · rw [sar63_pos ha h.1, sar63_pos hb (by omega), sar63_neg hr (by omega)]; decide
  · rw [sar63_neg ha h.2, sar63_neg hb (by omega), sar63_pos hr (by omega)]; decide

/-- C15 is violated: 1 - 2 throws, -3 - -3 throws, and MinValue - 1 wraps around without an exception. -/
theorem C15_refuted :
    subtract .wrapv 1 2 = .throw .overflow ∧ subtract .wrapv (-3) (-3) = .throw .overflow ∧
    subtract .wrapv (-9223372036854775808) 1 = .ok 9223372036854775807 ∧
    subtract .iso (-9223372036854775808) 1 = .ub := by decide +kernel

/-- C16 (partial): every non-zero span except the most negative one negates exactly and back, and its duration
is its absolute value. Missing: 0 and the most negative span (`C16_refuted`). -/
theorem C16_negate_duration_partial (v : Int) (hv : I64 v) (h0 : v ≠ 0) (hmin : v ≠ -9223372036854775808) :
    negate v = .ok (-v) ∧ (negate v >>= negate) = .ok v ∧ duration v = .ok (v.natAbs : Int) := by
  have hM : MinValue = 0 := by decide
  have n1 : ∀ x : Int, I64 x → x ≠ 0 → x ≠ -9223372036854775808 → negate x = .ok (-x) := by
    intro x hx h0 h1
    unfold negate
    rw [hM, if_neg h0, i64_ok (by unfold I64 at *; omega)]
  refine ⟨n1 v hv h0 hmin, ?_, ?_⟩
  · rw [n1 v hv h0 hmin]
    simp only [Res.bind_ok]
    rw [n1 (-v) (by unfold I64 at hv ⊢; omega) (Int.neg_ne_zero.mpr h0) (by unfold I64 at hv; omega), Int.neg_neg]
  · unfold duration
    rw [hM, if_neg h0]
    split
    · rw [Res.ok.injEq]; omega
    · rw [i64_ok (by unfold I64 at *; omega), Res.ok.injEq]; omega

example : negate 7 = .ok (-7) ∧ duration (-7) = .ok 7 := by decide +kernel

/-- C16 is violated: `MinValue` is 0, so zero cannot be negated or measured, and the true minimum overflows. -/
theorem C16_refuted :
    negate 0 = .throw .overflow ∧ duration 0 = .throw .overflow ∧
    negate (-9223372036854775808) = .ub ∧ duration (-9223372036854775808) = .ub ∧
    MinValue = 0 ∧ MaxValue = -1 := by decide +kernel

/-- C17: all comparison members agree with the order of the tick counts. -/
theorem C17_order (a b : Int) :
    (compare a b < 0 ↔ a < b) ∧ (compare a b = 0 ↔ a = b) ∧ (0 < compare a b ↔ b < a) ∧
    compareToObj a (.timeSpan b) = .ok (compare a b) ∧ compareToObj a .null = .ok 1 ∧
    compareToObj a .other = .throw .argument ∧
    (equals a b = true ↔ a = b) ∧ (equalsObj a (.timeSpan b) = true ↔ a = b) ∧
    equalsObj a .null = false ∧ equalsObj a .other = false ∧
    (opGreaterThan a b = true ↔ b < a) ∧ (opGreaterThanOrEqual a b = true ↔ b ≤ a) ∧
    (opLessThan a b = true ↔ a < b) ∧ (opLessThanOrEqual a b = true ↔ a ≤ b) ∧
    (opInequality a b = true ↔ a ≠ b) := by
  refine ⟨?_, ?_, ?_, rfl, rfl, rfl, ?_, ?_, rfl, rfl, ?_, ?_, ?_, ?_, ?_⟩
  · unfold compare; repeat' split
    all_goals omega
  · unfold compare; repeat' split
    all_goals omega
  · unfold compare; repeat' split
    all_goals omega
  all_goals simp [equals, equalsObj, opGreaterThan, opGreaterThanOrEqual, opLessThan, opLessThanOrEqual, opInequality]

example : compare (-5) 3 = -1 ∧ compare (-9223372036854775808) 9223372036854775807 = -1 := by decide +kernel

end Verif.TimeSpan
