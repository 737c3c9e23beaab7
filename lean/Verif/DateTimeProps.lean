import Verif.DateTimeLemmas
/-!
# Properties C01-C09 of DateTime
The vocabulary of the statements is `Verif.Calendar` (CalendarSpec.lean) and the API functions of the model.
-/
namespace Verif.DateTime
open Verif.Calendar

/-- Specification of the time of day in ticks. -/
def clockTicks (h mi s ms : Int) : Int := ((h * 60 + mi) * 60 + s) * 10000000 + ms * 10000

/-- A time of day accepted by .NET. -/
def ValidTime (h mi s ms : Int) : Prop :=
  0 ≤ h ∧ h < 24 ∧ 0 ≤ mi ∧ mi < 60 ∧ 0 ≤ s ∧ s < 60 ∧ 0 ≤ ms ∧ ms < 1000

/-! ## helper: the time part of the constructor -/

theorem timeToTicks_eq (h mi s ms : Int) :
    timeToTicks h mi s ms =
      if 0 ≤ h ∧ h < 24 ∧ 0 ≤ mi ∧ mi < 60 ∧ 0 ≤ s ∧ s < 60 ∧ 0 ≤ ms ∧ ms ≤ 1000 then .ok (clockTicks h mi s ms)
      else .throw .argumentOutOfRange := by
  unfold timeToTicks
  by_cases h0 : h < 0 ∨ h ≥ 24 ∨ mi < 0 ∨ mi ≥ 60 ∨ s < 0 ∨ s ≥ 60
  · rw [if_pos h0, if_neg (by omega)]
  · rw [if_neg h0]
    unfold timePartsToTicks
    rw [i64_ok (by unfold I64; omega)]
    simp only [Res.bind_ok]
    rw [if_neg (by unfold MaxSeconds MinSeconds; omega)]
    by_cases h1 : ms < 0 ∨ ms > 1000
    · rw [if_pos h1, if_neg (by omega)]
    · rw [if_neg h1, if_pos (by omega)]
      unfold TicksPerSecond TicksPerMillisecond
      rw [i64_ok (by unfold I64; omega)]
      unfold clockTicks
      congr 1; omega

theorem dayTicks_range {y m d : Int} (h : ValidDate y m d) :
    0 ≤ dayNumber y m d * ticksPerDay ∧ dayNumber y m d * ticksPerDay ≤ 3652058 * 864000000000 := by
  have := (dayNumber_bounds h).2.2
  rw [tpd_eq]; omega

/-- Complete behaviour of the seven-argument constructor, including the two oddities (`hour < 0` skips the time,
`millisecond = 1000` is accepted). -/
theorem ofParts_eq (y m d h mi s ms : Int) :
    ofParts y m d h mi s ms =
      if ¬ ValidDate y m d then .throw .argumentOutOfRange
      else if h < 0 then .ok (dayNumber y m d * ticksPerDay)
      else if h < 24 ∧ 0 ≤ mi ∧ mi < 60 ∧ 0 ≤ s ∧ s < 60 ∧ 0 ≤ ms ∧ ms ≤ 1000 then
        .ok (dayNumber y m d * ticksPerDay + clockTicks h mi s ms)
      else .throw .argumentOutOfRange := by
  unfold ofParts
  rw [dateToTicks_eq]
  by_cases hv : ValidDate y m d
  · rw [if_pos hv, if_neg (by simpa using hv)]
    simp only [Res.bind_ok]
    by_cases hh : h < 0
    · rw [if_neg (by omega), if_pos hh]
    · rw [if_pos (by omega), if_neg hh, timeToTicks_eq]
      by_cases ht : h < 24 ∧ 0 ≤ mi ∧ mi < 60 ∧ 0 ≤ s ∧ s < 60 ∧ 0 ≤ ms ∧ ms ≤ 1000
      · rw [if_pos (by omega), if_pos ht]
        simp only [Res.bind_ok]
        have := dayTicks_range hv
        rw [wrapU64_of (by unfold U64 clockTicks; omega)]
      · rw [if_neg (by omega), if_neg ht]
        simp only [Res.bind_throw]
  · rw [if_neg hv, if_pos hv]
    simp only [Res.bind_throw]

/-! ## C01 -/

/-- **C01** `DateTime(year, month, day)` succeeds exactly on the Gregorian dates of the years 1..9999, with the
number of preceding days as its value, and throws `ArgumentOutOfRangeException` on every other triple. -/
theorem C01_ctor_exact (y m d : Int) :
    ofParts y m d 0 0 0 0 =
      if ValidDate y m d then .ok (dayNumber y m d * ticksPerDay) else .throw .argumentOutOfRange := by
  rw [ofParts_eq]
  by_cases hv : ValidDate y m d
  · simp [hv, clockTicks]
  · simp [hv]

example : ValidDate 2024 2 29 ∧ ofParts 2024 2 29 0 0 0 0 = .ok (738944 * 864000000000) := by
  decide +kernel
example : ¬ ValidDate 1900 2 29 := by decide

/-! ## C02 -/

theorem getters_of_eq {t y m d : Int} (hr : InRange t) (hv : ValidDate y m d)
    (e : (dayNumber y m d : Int) = t / 864000000000) :
    getYear t = .ok y ∧ getMonth t = .ok m ∧ getDay t = .ok d := by
  obtain ⟨p, _, ⟨hp1, hp2, _⟩, g1, _, g3, g4⟩ := getDateParts_ok ((inRange_iff t).mp hr)
  have := dayNumber_inj hv hp1 (by omega)
  unfold getYear getMonth getDay
  rw [g1, g3, g4, this.1, this.2.1, this.2.2]
  exact ⟨rfl, rfl, rfl⟩

/-- **C02** every component of a constructed DateTime reads back as given. -/
theorem C02_components_round_trip (y m d h mi s ms : Int) (hv : ValidDate y m d) (ht : ValidTime h mi s ms) :
    ∃ t, ofParts y m d h mi s ms = .ok t ∧ InRange t ∧
      getYear t = .ok y ∧ getMonth t = .ok m ∧ getDay t = .ok d ∧
      getHour t = h ∧ getMinute t = mi ∧ getSecond t = s ∧ getMillisecond t = ms := by
  unfold ValidTime at ht
  have hb := (dayNumber_bounds hv).2.2
  have hr : InRange (dayNumber y m d * ticksPerDay + clockTicks h mi s ms) := by
    unfold InRange; rw [daysInYears_9999, tpd_eq]; unfold clockTicks; omega
  refine ⟨dayNumber y m d * ticksPerDay + clockTicks h mi s ms, ?_, hr, ?_⟩
  · rw [ofParts_eq, if_neg (by simpa using hv), if_neg (by omega), if_pos (by omega)]
  · have e : (dayNumber y m d : Int) = (dayNumber y m d * ticksPerDay + clockTicks h mi s ms) / 864000000000 := by
      rw [tpd_eq]; unfold clockTicks; omega
    obtain ⟨g1, g2, g3⟩ := getters_of_eq hr hv e
    refine ⟨g1, g2, g3, ?_⟩
    generalize (dayNumber y m d : Int) = N
    rw [tpd_eq]
    unfold clockTicks getHour getMinute getSecond getMillisecond
    unfold TicksPerHour TicksPerMinute TicksPerSecond TicksPerMillisecond
    refine ⟨?_, ?_, ?_, ?_⟩ <;> rw [wrapI32_of (by unfold I32; omega)] <;> omega

example : ValidDate 9999 12 31 ∧ ValidTime 23 59 59 999 := by unfold ValidTime; decide

/-! ## C03 -/

/-- **C03** every in-range value has a valid date, its getters never fail, and rebuilding it from its components
loses nothing but the sub-millisecond ticks. -/
theorem C03_decompose (t : Int) (ht : InRange t) :
    ∃ y m d, getYear t = .ok y ∧ getMonth t = .ok m ∧ getDay t = .ok d ∧ ValidDate y m d ∧
      (dayNumber y m d : Int) = t / ticksPerDay ∧
      ValidTime (getHour t) (getMinute t) (getSecond t) (getMillisecond t) ∧
      ofParts y m d (getHour t) (getMinute t) (getSecond t) (getMillisecond t) = .ok (t - t % 10000) := by
  obtain ⟨p, _, ⟨hp1, hp2, _⟩, g1, _, g3, g4⟩ := getDateParts_ok ((inRange_iff t).mp ht)
  have hm := ((inRange_iff t).mp ht)
  have e1 : getHour t = t / 36000000000 % 24 := by
    unfold getHour TicksPerHour; exact wrapI32_of (by unfold I32; omega)
  have e2 : getMinute t = t / 600000000 % 60 := by
    unfold getMinute TicksPerMinute; exact wrapI32_of (by unfold I32; omega)
  have e3 : getSecond t = t / 10000000 % 60 := by
    unfold getSecond TicksPerSecond; exact wrapI32_of (by unfold I32; omega)
  have e4 : getMillisecond t = t / 10000 % 1000 := by
    unfold getMillisecond TicksPerMillisecond; exact wrapI32_of (by unfold I32; omega)
  refine ⟨p.year, p.month, p.day, g1, g3, g4, hp1, ?_, ?_, ?_⟩
  · rw [tpd_eq]; exact hp2
  · rw [e1, e2, e3, e4]; unfold ValidTime; omega
  · rw [e1, e2, e3, e4, ofParts_eq, if_neg (by simpa using hp1), if_neg (by omega), if_pos (by omega)]
    rw [hp2, tpd_eq]; unfold clockTicks
    congr 1; omega

/-- The two separately written copies of the date algorithm agree on every in-range value. -/
theorem C03_two_copies_agree (t : Int) (ht : InRange t) :
    ∃ p, getDateParts t = .ok p ∧ getYear t = .ok p.year ∧ getMonth t = .ok p.month ∧ getDay t = .ok p.day ∧
      getDayOfYear t = .ok p.dayOfYear := by
  obtain ⟨p, g0, _, g1, g2, g3, g4⟩ := getDateParts_ok ((inRange_iff t).mp ht)
  exact ⟨p, g0, g1, g3, g4, g2⟩

example : InRange 3155378975999999999 := by rw [inRange_iff]; decide +kernel
example : InRange 630822816000000000 ∧ getYear 630822816000000000 = .ok 2000 := by
  refine ⟨?_, by decide +kernel⟩
  rw [inRange_iff]; decide +kernel

/-! ## C04 -/

/-- **C04** day of the week: Monday at the epoch, constant through a day, advancing by one each day. -/
theorem C04_dayOfWeek (t : Int) (ht : InRange t) :
    getDayOfWeek 0 = 1 ∧ 0 ≤ getDayOfWeek t ∧ getDayOfWeek t ≤ 6 ∧
    getDayOfWeek t = getDayOfWeek (t - t % ticksPerDay) ∧
    getDayOfWeek (t + ticksPerDay) = (getDayOfWeek t + 1) % 7 := by
  have := ht.1
  unfold getDayOfWeek TicksPerDay
  rw [tpd_eq]
  refine ⟨by decide, ?_, ?_, ?_, ?_⟩ <;> omega

/-- **C04** day of the year: one more than the days since 1 January of the same year, at most the year's length. -/
theorem C04_dayOfYear (t y m d : Int) (ht : InRange t)
    (hy : getYear t = .ok y) (hm : getMonth t = .ok m) (hd : getDay t = .ok d) :
    getDayOfYear t = .ok ((dayNumber y m d : Int) - dayNumber y 1 1 + 1) ∧
    1 ≤ (dayNumber y m d : Int) - dayNumber y 1 1 + 1 ∧
    (dayNumber y m d : Int) - dayNumber y 1 1 + 1 ≤ yearLen y.toNat := by
  obtain ⟨p, _, ⟨hp1, hp2, hp3⟩, g1, g2, g3, g4⟩ := getDateParts_ok ((inRange_iff t).mp ht)
  unfold getYear at hy; unfold getMonth at hm; unfold getDay at hd; unfold getDayOfYear
  rw [g1] at hy; rw [g3] at hm; rw [g4] at hd
  injection hy with hy; injection hm with hm; injection hd with hd
  subst hy hm hd
  have b := dayNumber_bounds hp1
  have e2 : p.year.toNat = (p.year.toNat - 1) + 1 := by have := hp1.1; omega
  have hyl : daysInYears p.year.toNat = daysInYears (p.year.toNat - 1) + yearLen p.year.toNat := by
    rw [e2]; simp [daysInYears]
  have j : dayNumber p.year 1 1 = daysInYears (p.year.toNat - 1) := by
    simp [dayNumber, daysInMonths]
  rw [g2]
  refine ⟨?_, by omega, by omega⟩
  congr 1
  rw [hp3, j]
  have := hp1.2.2.2.2.1
  unfold dayNumber; omega

/-- **C04** `Date` and `TimeOfDay` split the value into a midnight and an offset inside the day. -/
theorem C04_date_time_split (t : Int) (ht : InRange t) :
    ∃ d, getDate t = .ok d ∧ d % ticksPerDay = 0 ∧ InRange d ∧ d + getTimeOfDay t = t ∧
      0 ≤ getTimeOfDay t ∧ getTimeOfDay t < ticksPerDay := by
  have hm := (inRange_iff t).mp ht
  have hw : getTimeOfDay t = t % 864000000000 := by
    unfold getTimeOfDay TicksPerDay; exact wrapI64_of (by unfold I64; omega)
  refine ⟨t - t % 864000000000, ?_, ?_, ?_, ?_⟩
  · unfold getDate ofTicks
    rw [TPD_eq, if_neg (by unfold MinTicks; omega)]
  · rw [tpd_eq]; omega
  · rw [inRange_iff]; omega
  · rw [hw, tpd_eq]; omega

example : getDayOfWeek 638396640000000000 = 1 ∧ getDayOfYear 638396640000000000 = .ok 1 := by decide +kernel

/-! ## C05 -/

/-- **C05** `IsLeapYear`. -/
theorem C05_isLeapYear (y : Int) :
    isLeapYear y = if 1 ≤ y ∧ y ≤ 9999 then .ok (decide (Leap y.toNat)) else .throw .argumentOutOfRange := by
  by_cases h : 1 ≤ y ∧ y ≤ 9999
  · rw [if_pos h, isLeapYear_ok h.1 h.2]
    congr 1
    rw [Bool.eq_iff_iff, isLeapYearFn_iff (by omega)]; simp
  · rw [if_neg h]; unfold isLeapYear; rw [if_pos (by omega)]

/-- **C05** `DaysInMonth`. -/
theorem C05_daysInMonth (y m : Int) :
    daysInMonth y m =
      if 1 ≤ y ∧ y ≤ 9999 ∧ 1 ≤ m ∧ m ≤ 12 then .ok (monthLen y.toNat m.toNat : Int)
      else .throw .argumentOutOfRange := by
  unfold daysInMonth
  by_cases hm : m < 1 ∨ m > 12
  · rw [if_pos hm, if_neg (by omega)]
  · rw [if_neg hm]
    by_cases h : 1 ≤ y ∧ y ≤ 9999
    · rw [if_pos (by omega), isLeapYear_ok h.1 h.2]
      have hl := isLeapYearFn_iff (y := y) (by omega)
      simp only [Res.bind_ok]
      rw [tableAt_ok (by omega), tableAt_ok (by omega)]
      simp only [Res.bind_ok]
      rw [cum_eq y.toNat _ hl m.toNat (by omega), cum_eq y.toNat _ hl (m-1).toNat (by omega)]
      have em : (m - 1).toNat = m.toNat - 1 := by omega
      have e : m.toNat = (m.toNat - 1) + 1 := by omega
      have hs : daysInMonths y.toNat m.toNat = daysInMonths y.toNat (m.toNat - 1) + monthLen y.toNat m.toNat := by
        rw [e]; simp [daysInMonths]
      have hml : monthLen y.toNat m.toNat ≤ 31 := by
        unfold monthLen; split <;> (try split) <;> omega
      rw [em]
      have hd : (daysInMonths y.toNat m.toNat : Int) - daysInMonths y.toNat (m.toNat - 1)
        = monthLen y.toNat m.toNat := by omega
      rw [hd, i32_ok (by unfold I32; omega)]
    · rw [if_neg (by omega)]
      have : isLeapYear y = .throw .argumentOutOfRange := by unfold isLeapYear; rw [if_pos (by omega)]
      rw [this]; simp only [Res.bind_throw]

example : daysInMonth 2000 2 = .ok 29 ∧ daysInMonth 2100 2 = .ok 28 ∧ isLeapYear 0 = .throw .argumentOutOfRange := by
  decide

/-! ## C06 -/

/-- **C06** `AddTicks`/`Add(TimeSpan)` is exact, throwing exactly when the sum leaves the calendar; no overflow. -/
theorem C06_addTicks (t d : Int) (ht : InRange t) (_hd : I64 d) :
    addTicks t d = (if InRange (t + d) then .ok (t + d) else .throw .argumentOutOfRange) ∧
    add t d = addTicks t d := by
  refine ⟨?_, rfl⟩
  have hm := (inRange_iff t).mp ht
  simp only [inRange_iff]
  have hM : MaxTicks = 3155378975999999999 := by decide +kernel
  rw [hM] at hm
  unfold addTicks
  rw [wrapI64_of (by unfold I64; omega), hM]
  simp only []
  rw [i64_ok (by unfold I64; omega)]
  simp only [Res.bind_ok]
  by_cases h1 : d > 3155378975999999999 - t
  · rw [if_pos h1, if_neg (by omega)]
  · rw [if_neg h1]
    unfold MinTicks
    rw [i64_ok (by unfold I64; omega)]
    simp only [Res.bind_ok]
    by_cases h2 : d < 0 - t
    · rw [if_pos h2, if_neg (by omega)]
    · rw [if_neg h2, if_pos (by omega), i64_ok (by unfold I64; omega)]
      simp only [Res.bind_ok]
      rw [wrapU64_of (by unfold U64; omega)]
      unfold ofTicks
      rw [hM, if_neg (by unfold MinTicks; omega)]

/-- **C06** `Subtract(TimeSpan)` likewise. -/
theorem C06_subtractSpan (t d : Int) (ht : InRange t) (_hd : I64 d) :
    subtractSpan t d = if InRange (t - d) then .ok (t - d) else .throw .argumentOutOfRange := by
  have hm := (inRange_iff t).mp ht
  simp only [inRange_iff]
  have hM : MaxTicks = 3155378975999999999 := by decide +kernel
  rw [hM] at hm
  unfold subtractSpan
  rw [wrapI64_of (by unfold I64; omega), hM]
  unfold MinTicks
  simp only []
  rw [i64_ok (by unfold I64; omega)]
  simp only [Res.bind_ok]
  by_cases h1 : t - 0 < d
  · rw [if_pos h1, if_neg (by omega)]
  · rw [if_neg h1, i64_ok (by unfold I64; omega)]
    simp only [Res.bind_ok]
    by_cases h2 : t - 3155378975999999999 > d
    · rw [if_pos h2, if_neg (by omega)]
    · rw [if_neg h2, if_pos (by omega), i64_ok (by unfold I64; omega)]
      simp only [Res.bind_ok]
      rw [wrapU64_of (by unfold U64; omega)]
      unfold ofTicks
      rw [hM, if_neg (by unfold MinTicks; omega)]

/-- **C06** adding and then subtracting the same span is the identity (whenever the addition succeeds). -/
theorem C06_add_subtract (t d u : Int) (ht : InRange t) (hd : I64 d) (h : add t d = .ok u) :
    subtractSpan u d = .ok t := by
  rw [(C06_addTicks t d ht hd).2, (C06_addTicks t d ht hd).1] at h
  by_cases hr : InRange (t + d)
  · rw [if_pos hr] at h
    injection h with h
    subst h
    rw [C06_subtractSpan _ d hr hd, show t + d - d = t by omega, if_pos ht]
  · rw [if_neg hr] at h; simp at h

/-- **C06** the difference of two DateTimes is exact, and adding it back gives the first. -/
theorem C06_subtractDate (a b : Int) (ha : InRange a) (hb : InRange b) :
    subtractDate a b = a - b ∧ add b (subtractDate a b) = .ok a := by
  have h1 := (inRange_iff a).mp ha
  have h2 := (inRange_iff b).mp hb
  have hM : MaxTicks = 3155378975999999999 := by decide +kernel
  have e : subtractDate a b = a - b := by
    unfold subtractDate wrapI64 wrapU64; omega
  refine ⟨e, ?_⟩
  rw [e, (C06_addTicks b _ hb (by unfold I64; omega)).2, (C06_addTicks b _ hb (by unfold I64; omega)).1,
    show b + (a - b) = a by omega, if_pos ha]

example : addTicks 5 (-6) = .throw .argumentOutOfRange ∧ addTicks 3155378975999999998 1 = .ok 3155378975999999999 := by
  decide +kernel

/-! ## C07 -/

/-- Target of a month shift: the month index `12*year + (month-1)` moved by `n`. -/
def shiftedIndex (y m n : Int) : Int := 12 * y + (m - 1) + n

/-- **C07** `AddMonths`: floor arithmetic on the month index, day clamped to the target month, time of day kept;
throws exactly when the shift is larger than 120000 months or leaves the years 1..9999. -/
theorem C07_addMonths (t n y m d : Int) (ht : InRange t)
    (hy : getYear t = .ok y) (hm : getMonth t = .ok m) (hd : getDay t = .ok d) :
    addMonths t n =
      if -120000 ≤ n ∧ n ≤ 120000 ∧ 1 ≤ shiftedIndex y m n / 12 ∧ shiftedIndex y m n / 12 ≤ 9999 then
        .ok (dayNumber (shiftedIndex y m n / 12) (shiftedIndex y m n % 12 + 1)
              (min d (monthLen (shiftedIndex y m n / 12).toNat (shiftedIndex y m n % 12 + 1).toNat)) * ticksPerDay
            + t % ticksPerDay)
      else .throw .argumentOutOfRange := by
  obtain ⟨p, g0, ⟨hp1, hp2, hp3⟩, g1, g2, g3, g4⟩ := getDateParts_ok ((inRange_iff t).mp ht)
  unfold getYear at hy; unfold getMonth at hm; unfold getDay at hd
  rw [g1] at hy; rw [g3] at hm; rw [g4] at hd
  injection hy with hy; injection hm with hm; injection hd with hd
  subst hy hm hd
  unfold addMonths
  by_cases hn : n < -120000 ∨ n > 120000
  · rw [if_pos hn, if_neg (by omega)]
  · rw [if_neg hn, g0]
    simp only [Res.bind_ok]
    obtain ⟨v1, v2, v3, v4, v5, v6⟩ := hp1
    rw [i32_ok (by unfold I32; omega)]
    simp only [Res.bind_ok]
    generalize hi : p.month - 1 + n = i at *
    have hsi : shiftedIndex p.year p.month n = 12 * p.year + i := by unfold shiftedIndex; omega
    rw [hsi]
    have eM : (if i ≥ 0 then i.tmod 12 + 1 else 12 + (i + 1).tmod 12) = (12 * p.year + i) % 12 + 1 := by
      split
      · rename_i h; rw [Int.tmod_eq_emod_of_nonneg h]; omega
      · rename_i h; rw [tmod_split]; split <;> omega
    have eY : (if i ≥ 0 then p.year + i.tdiv 12 else p.year + (i - 11).tdiv 12) = (12 * p.year + i) / 12 := by
      split
      · rename_i h; rw [Int.tdiv_eq_ediv_of_nonneg h]; omega
      · rename_i h; rw [tdiv_split, if_neg (by omega)]; omega
    rw [eM, eY]
    have hM1 : 1 ≤ (12 * p.year + i) % 12 + 1 ∧ (12 * p.year + i) % 12 + 1 ≤ 12 := by omega
    generalize (12 * p.year + i) % 12 + 1 = M at *
    generalize (12 * p.year + i) / 12 = Y at *
    by_cases hY : Y < 1 ∨ Y > 9999
    · rw [if_pos hY, if_neg (by omega)]
    · rw [if_neg hY, if_pos (by omega), C05_daysInMonth, if_pos (by omega)]
      simp only [Res.bind_ok]
      have emin : (if p.day > (monthLen Y.toNat M.toNat : Int) then (monthLen Y.toNat M.toNat : Int) else p.day)
          = min p.day (monthLen Y.toNat M.toNat) := by
        split <;> omega
      rw [emin]
      have hml : 1 ≤ monthLen Y.toNat M.toNat := by
        have h1 : 1 ≤ M.toNat := by omega
        have h2 : M.toNat ≤ 12 := by omega
        generalize M.toNat = k at *
        interval_cases k <;> simp [monthLen]; split <;> omega
      have hv : ValidDate Y M (min p.day (monthLen Y.toNat M.toNat)) := by
        unfold ValidDate; omega
      rw [dateToTicks_eq, if_pos hv]
      simp only [Res.bind_ok]
      have hb := (dayNumber_bounds hv).2.2
      generalize dayNumber Y M (min p.day (monthLen Y.toNat M.toNat)) = N at *
      rw [tpd_eq, TPD_eq, wrapU64_of (by unfold U64; omega)]
      unfold ofTicks
      rw [if_neg (by unfold MinTicks MaxTicks TicksPerDay; omega)]

/-- **C07** `AddYears(n)` is `AddMonths(12 n)` for |n| ≤ 10000 and throws otherwise. -/
theorem C07_addYears (t n : Int) :
    addYears t n = if -10000 ≤ n ∧ n ≤ 10000 then addMonths t (12 * n) else .throw .argumentOutOfRange := by
  unfold addYears
  by_cases h : n < -10000 ∨ n > 10000
  · rw [if_pos h, if_neg (by omega)]
  · rw [if_neg h, if_pos (by omega), i32_ok (by unfold I32; omega)]
    simp only [Res.bind_ok]
    rw [show n * 12 = 12 * n by omega]

-- 2024-03-31 minus one month is 2024-02-29; 2024-01-15 minus 13 months is 2022-12-15.
example : (do addMonths (← ofParts 2024 3 31 1 2 3 4) (-1)) = ofParts 2024 2 29 1 2 3 4 := by decide +kernel
example : (do addMonths (← ofParts 2024 1 15 0 0 0 0) (-13)) = ofParts 2022 12 15 0 0 0 0 := by decide +kernel

/-! ## C08 -/

/-- The full claim of C08: whatever a constructor returns is in range. It is refuted below. -/
def C08_full : Prop := ∀ y m d h mi s ms t : Int, ofParts y m d h mi s ms = .ok t → InRange t

/-- **C08 is false**: `DateTime(9999,12,31,23,59,59,1000)` is one tick above `MaxValue` (line 55 tests `> 1000`). -/
theorem C08_refuted : ¬ C08_full := by
  intro h
  have := h 9999 12 31 23 59 59 1000 (MaxTicks + 1) (by decide +kernel)
  rw [inRange_iff] at this
  omega

/-- A second oddity: a negative hour is not rejected, it silently drops the time arguments. -/
theorem C08_negative_hour_accepted : ofParts 2000 1 1 (-1) 99 (-5) 123456 = ofParts 2000 1 1 0 0 0 0 := by
  decide +kernel

/-- **C08 (partial)**: the claim holds for every call that does not pass `millisecond = 1000`, and always for the
tick constructor; all rejections are `ArgumentOutOfRangeException` and there is no undefined behaviour. -/
theorem C08_ctor_range_partial :
    (∀ y m d h mi s ms : Int, ms ≠ 1000 →
      ofParts y m d h mi s ms = .throw .argumentOutOfRange ∨ ∃ t, ofParts y m d h mi s ms = .ok t ∧ InRange t) ∧
    (∀ v : Int, U64 v → ofTicks v = if InRange v then .ok v else .throw .argumentOutOfRange) := by
  constructor
  · intro y m d h mi s ms hms
    rw [ofParts_eq]
    by_cases hv : ValidDate y m d
    · have hb := (dayNumber_bounds hv).2.2
      rw [if_neg (by simpa using hv)]
      by_cases hh : h < 0
      · rw [if_pos hh]; right
        refine ⟨_, rfl, ?_⟩
        unfold InRange; rw [daysInYears_9999, tpd_eq]; omega
      · rw [if_neg hh]
        split
        · right
          refine ⟨_, rfl, ?_⟩
          unfold InRange; rw [daysInYears_9999, tpd_eq]; unfold clockTicks; omega
        · left; rfl
    · rw [if_pos hv]; left; rfl
  · intro v hv
    unfold ofTicks
    simp only [inRange_iff]
    unfold MinTicks U64 at *
    by_cases h : v < 0 ∨ v > MaxTicks
    · rw [if_pos h, if_neg (by omega)]
    · rw [if_neg h, if_pos (by omega)]

/-! ## C09 -/

/-- **C09** all comparison operations are the order of the tick counts. -/
theorem C09_order (a b : Int) (ha : InRange a) (hb : InRange b) :
    (compare a b = if a < b then -1 else if a = b then 0 else 1) ∧
    (equals a b = true ↔ a = b) ∧ (opInequality a b = true ↔ a ≠ b) ∧
    (opLessThan a b = true ↔ compare a b < 0) ∧ (opLessThanOrEqual a b = true ↔ compare a b ≤ 0) ∧
    (opGreaterThan a b = true ↔ compare a b > 0) ∧ (opGreaterThanOrEqual a b = true ↔ compare a b ≥ 0) ∧
    compareToObj a (.dateTime b) = .ok (compare a b) ∧ compareToObj a .null = .ok 1 ∧
    compareToObj a .other = .throw .argument ∧ (equalsObj a (.dateTime b) = true ↔ a = b) ∧
    equalsObj a .null = false ∧ equalsObj a .other = false := by
  have h1 := (inRange_iff a).mp ha
  have h2 := (inRange_iff b).mp hb
  have hM : MaxTicks = 3155378975999999999 := by decide +kernel
  have e : compare a b = if a < b then -1 else if a = b then 0 else 1 := by
    unfold compare
    rw [wrapI64_of (by unfold I64; omega), wrapI64_of (by unfold I64; omega)]
    split <;> split <;> (try split) <;> omega
  refine ⟨e, ?_, ?_, ?_, ?_, ?_, ?_, rfl, rfl, rfl, ?_, rfl, rfl⟩
  · simp [equals]
  · simp [opInequality, equals]
  · rw [e]; simp only [opLessThan, decide_eq_true_eq]; split <;> (try split) <;> omega
  · rw [e]; simp only [opLessThanOrEqual, decide_eq_true_eq]; split <;> (try split) <;> omega
  · rw [e]; simp only [opGreaterThan, decide_eq_true_eq]; split <;> (try split) <;> omega
  · rw [e]; simp only [opGreaterThanOrEqual, decide_eq_true_eq]; split <;> (try split) <;> omega
  · simp [equalsObj]

example : compare 3 7 = -1 ∧ compare 7 3 = 1 ∧ compare 7 7 = 0 := by decide

end Verif.DateTime
