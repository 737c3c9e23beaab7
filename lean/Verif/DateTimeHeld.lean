import Verif.DateTimeTextProps
import Verif.FloatTimeModel
import Verif.ClockModel
/-!
# C175: every DateTime a program can hold

The theorems C01-C11 speak of tick counts of the years 1..9999 (`InRange`). The constructor can leave that range (C08), so here it is proved which values any history of calls produces, and what every operation does on each of them.
-/
namespace Verif.DateTime
open Verif.Calendar

/-! ## Specification -/

/-- The values of `DateTime` a program can get hold of, by any sequence of calls with any arguments. -/
inductive Held : Int → Prop
  | default : Held 0
  | maxValue : Held MaxTicks
  | ticks {v t : Int} : U64 v → ofTicks v = .ok t → Held t
  | parts {y m d h mi s ms t : Int} : ofParts y m d h mi s ms = .ok t → Held t
  | now {b : Clock.Tm} {ns t : Int} : Clock.nowOf b ns = .ok t → Held t
  | today {b : Clock.Tm} {ns t : Int} : Clock.today b ns = .ok t → Held t
  | add {v d t : Int} : Held v → I64 d → addTicks v d = .ok t → Held t
  | sub {v d t : Int} : Held v → I64 d → subtractSpan v d = .ok t → Held t
  | months {v n t : Int} : Held v → addMonths v n = .ok t → Held t
  | years {v n t : Int} : Held v → addYears v n = .ok t → Held t
  | date {v t : Int} : Held v → getDate v = .ok t → Held t
  | toLocal {v t : Int} {c : Clock} : Held v → toLocalTime c v = .ok t → Held t
  | toUniversal {v t : Int} {c : Clock} : Held v → toUniversalTime c v = .ok t → Held t
  | addDouble {v t : Int} {x : Nat} {scale : Int} : Held v → FloatTime.addDouble v x scale = .ok t → Held t

/-- The first instant of the year 10000. -/
def year10000 : Int := daysInYears 9999 * ticksPerDay

/-! ## Proof -/

theorem year10000_eq : year10000 = 3155378976000000000 := by unfold year10000; rw [daysInYears_9999, tpd_eq]; rfl

theorem maxTicks_eq : MaxTicks = 3155378975999999999 := by decide +kernel

theorem ofTicks_range {v t : Int} (h : ofTicks v = .ok t) : t = v ∧ InRange t := by
  unfold ofTicks MinTicks at h
  split at h
  · cases h
  · rw [Res.ok.injEq] at h
    subst h
    refine ⟨rfl, ?_⟩
    rw [inRange_iff]
    omega

theorem ofParts_range {y m d h mi s ms t : Int} (e : ofParts y m d h mi s ms = .ok t) : 0 ≤ t ∧ t ≤ year10000 := by
  rw [ofParts_eq] at e
  rw [year10000_eq]
  by_cases hv : ValidDate y m d
  · rw [if_neg (fun h => h hv)] at e
    have hb := (dayNumber_bounds hv).2.2
    rw [tpd_eq] at e
    split at e
    · rw [Res.ok.injEq] at e; omega
    · split at e
      · rw [Res.ok.injEq] at e
        unfold clockTicks at e
        omega
      · cases e
  · rw [if_pos hv] at e; cases e

theorem addTicks_exact {t : Int} (h0 : 0 ≤ t) (h1 : t ≤ year10000) {d : Int} (hd : I64 d) :
    addTicks t d = if InRange (t + d) then .ok (t + d) else .throw .argumentOutOfRange := by
  by_cases hr : InRange t
  · exact (C06_addTicks t d hr hd).1
  have e : t = 3155378976000000000 := by rw [inRange_iff, maxTicks_eq] at hr; rw [year10000_eq] at h1; omega
  subst e
  simp only [inRange_iff]
  unfold addTicks
  rw [wrapI64_of (by unfold I64; omega), maxTicks_eq]
  simp only []
  rw [i64_ok (by unfold I64; omega)]
  simp only [Res.bind_ok]
  by_cases h1 : d > 3155378975999999999 - 3155378976000000000
  · rw [if_pos h1, if_neg (by omega)]
  rw [if_neg h1]
  unfold MinTicks
  rw [i64_ok (by unfold I64; omega)]
  simp only [Res.bind_ok]
  by_cases h2 : d < 0 - 3155378976000000000
  · rw [if_pos h2, if_neg (by omega)]
  rw [if_neg h2, if_pos (by omega), i64_ok (by unfold I64; omega)]
  simp only [Res.bind_ok]
  rw [wrapU64_of (by unfold U64; omega)]
  unfold ofTicks
  rw [maxTicks_eq, if_neg (by unfold MinTicks; omega)]

theorem subtractSpan_exact {t : Int} (h0 : 0 ≤ t) (h1 : t ≤ year10000) {d : Int} (hd : I64 d) :
    subtractSpan t d = if InRange (t - d) then .ok (t - d) else .throw .argumentOutOfRange := by
  by_cases hr : InRange t
  · exact C06_subtractSpan t d hr hd
  have e : t = 3155378976000000000 := by rw [inRange_iff, maxTicks_eq] at hr; rw [year10000_eq] at h1; omega
  subst e
  simp only [inRange_iff]
  unfold subtractSpan
  rw [wrapI64_of (by unfold I64; omega), maxTicks_eq]
  unfold MinTicks
  simp only []
  rw [i64_ok (by unfold I64; omega)]
  simp only [Res.bind_ok]
  by_cases h1 : 3155378976000000000 - 0 < d
  · rw [if_pos h1, if_neg (by omega)]
  rw [if_neg h1, i64_ok (by unfold I64; omega)]
  simp only [Res.bind_ok]
  by_cases h2 : 3155378976000000000 - 3155378975999999999 > d
  · rw [if_pos h2, if_neg (by omega)]
  rw [if_neg h2, if_pos (by omega), i64_ok (by unfold I64; omega)]
  simp only [Res.bind_ok]
  rw [wrapU64_of (by unfold U64; omega)]
  unfold ofTicks
  rw [maxTicks_eq, if_neg (by unfold MinTicks; omega)]

/-- The date of every held value: one of the years 1..10000. -/
theorem parts_exact {t : Int} (h0 : 0 ≤ t) (h1 : t ≤ year10000) :
    ∃ p, getDateParts t = .ok p ∧ getYear t = .ok p.year ∧ getMonth t = .ok p.month ∧ getDay t = .ok p.day ∧ getDayOfYear t = .ok p.dayOfYear ∧
      1 ≤ p.year ∧ p.year ≤ 10000 ∧ (p.year = 10000 ↔ t = year10000) ∧ 1 ≤ p.month ∧ p.month ≤ 12 ∧ 1 ≤ p.day ∧ p.day ≤ monthLen p.year.toNat p.month.toNat ∧
      (dayNumber p.year p.month p.day : Int) * ticksPerDay + t % ticksPerDay = t ∧ p.dayOfYear = daysInMonths p.year.toNat (p.month.toNat - 1) + p.day := by
  by_cases hr : InRange t
  · obtain ⟨p, g0, ⟨⟨v1, v2, v3, v4, v5, v6⟩, hp2, hp3⟩, g1, g2, g3, g4⟩ := getDateParts_ok ((inRange_iff t).mp hr)
    have := (inRange_iff t).mp hr
    rw [maxTicks_eq] at this
    refine ⟨p, g0, g1, g3, g4, g2, v1, by omega, ?_, v3, v4, v5, v6, ?_, hp3⟩
    · rw [year10000_eq]; omega
    · rw [hp2, tpd_eq]; omega
  · have e : t = year10000 := by rw [inRange_iff, maxTicks_eq] at hr; rw [year10000_eq] at *; omega
    subst e
    refine ⟨⟨10000, 1, 1, 1⟩, ?_, ?_, ?_, ?_, ?_, by decide, by decide, ⟨fun _ => rfl, fun _ => rfl⟩, by decide, by decide, by decide, by decide, ?_, rfl⟩
    · rw [year10000_eq]; decide +kernel
    · rw [year10000_eq]; decide +kernel
    · rw [year10000_eq]; decide +kernel
    · rw [year10000_eq]; decide +kernel
    · rw [year10000_eq]; decide +kernel
    · have : dayNumber 10000 1 1 = 3652059 := by
        have e1 : (10000 : Int).toNat - 1 = 9999 := by decide
        have e2 : (1 : Int).toNat - 1 = 0 := by decide
        unfold dayNumber
        rw [e1, e2, daysInYears_9999]
        rfl
      show (dayNumber 10000 1 1 : Int) * _ + _ = _
      rw [this, year10000_eq, tpd_eq]
      omega

theorem addMonths_exact {t n : Int} {p : DateParts} (g0 : getDateParts t = .ok p) (v3 : 1 ≤ p.month) (v4 : p.month ≤ 12) (v5 : 1 ≤ p.day) :
    addMonths t n =
      if -120000 ≤ n ∧ n ≤ 120000 ∧ 1 ≤ shiftedIndex p.year p.month n / 12 ∧ shiftedIndex p.year p.month n / 12 ≤ 9999 then
        .ok (dayNumber (shiftedIndex p.year p.month n / 12) (shiftedIndex p.year p.month n % 12 + 1)
              (min p.day (monthLen (shiftedIndex p.year p.month n / 12).toNat (shiftedIndex p.year p.month n % 12 + 1).toNat)) * ticksPerDay
            + t % ticksPerDay)
      else .throw .argumentOutOfRange := by
  unfold addMonths
  by_cases hn : n < -120000 ∨ n > 120000
  · rw [if_pos hn, if_neg (by omega)]
  · rw [if_neg hn, g0]
    simp only [Res.bind_ok]
    rw [i32_ok (by unfold I32; omega)]
    simp only [Res.bind_ok]
    generalize hi : p.month - 1 + n = i at *
    have hsi : shiftedIndex p.year p.month n = 12 * p.year + i := by unfold shiftedIndex; omega
    rw [hsi]
    have eM : (if i ≥ 0 then i.tmod 12 + 1 else 12 + (i + 1).tmod 12) = (12 * p.year + i) % 12 + 1 := by
      split
      · rename_i h; rw [Int.tmod_eq_emod_of_nonneg h]; omega
      · rename_i h; rw [tmod_split]; split <;> omega
    have eY : (if i ≥ 0 then p.year + i.tdiv 12 else p.year + (i - 11).tdiv 12) = (12 * p.year + i) / 12 := by
      split
      · rename_i h; rw [Int.tdiv_eq_ediv_of_nonneg h]; omega
      · rename_i h; rw [tdiv_split, if_neg (by omega)]; omega
    rw [eM, eY]
    have hM1 : 1 ≤ (12 * p.year + i) % 12 + 1 ∧ (12 * p.year + i) % 12 + 1 ≤ 12 := by omega
    generalize (12 * p.year + i) % 12 + 1 = M at *
    generalize (12 * p.year + i) / 12 = Y at *
    by_cases hY : Y < 1 ∨ Y > 9999
    · rw [if_pos hY, if_neg (by omega)]
    · rw [if_neg hY, if_pos (by omega), C05_daysInMonth, if_pos (by omega)]
      simp only [Res.bind_ok]
      have emin : (if p.day > (monthLen Y.toNat M.toNat : Int) then (monthLen Y.toNat M.toNat : Int) else p.day)
          = min p.day (monthLen Y.toNat M.toNat) := by
        split <;> omega
      rw [emin]
      have hml : 1 ≤ monthLen Y.toNat M.toNat := by
        have h1 : 1 ≤ M.toNat := by omega
        have h2 : M.toNat ≤ 12 := by omega
        generalize M.toNat = k at *
        interval_cases k <;> simp [monthLen]; split <;> omega
      have hv : ValidDate Y M (min p.day (monthLen Y.toNat M.toNat)) := by
        unfold ValidDate; omega
      rw [dateToTicks_eq, if_pos hv]
      simp only [Res.bind_ok]
      have hb := (dayNumber_bounds hv).2.2
      generalize dayNumber Y M (min p.day (monthLen Y.toNat M.toNat)) = N at *
      rw [tpd_eq, TPD_eq, wrapU64_of (by unfold U64; omega)]
      unfold ofTicks
      rw [if_neg (by unfold MinTicks MaxTicks TicksPerDay; omega)]

theorem bindInv {α β : Type} {x : Res α} {f : α → Res β} {b : β} (h : (x >>= f) = .ok b) : ∃ a, x = .ok a ∧ f a = .ok b := by
  cases x with
  | ok a => exact ⟨a, rfl, h⟩
  | throw e => cases h
  | ub => cases h

theorem addMonths_range {t n u : Int} (h0 : 0 ≤ t) (h1 : t ≤ year10000) (h : addMonths t n = .ok u) : InRange u := by
  obtain ⟨p, g0, _⟩ := parts_exact h0 h1
  unfold addMonths at h
  split at h
  · cases h
  obtain ⟨q, hq, h⟩ := bindInv h
  obtain ⟨i, _, h⟩ := bindInv h
  simp only [] at h
  generalize (if i ≥ 0 then i.tmod 12 + 1 else 12 + (i + 1).tmod 12) = M at h
  generalize (if i ≥ 0 then q.year + i.tdiv 12 else q.year + (i - 11).tdiv 12) = Y at h
  split at h
  · cases h
  obtain ⟨_, _, h⟩ := bindInv h
  obtain ⟨_, _, h⟩ := bindInv h
  exact (ofTicks_range h).2

theorem getDate_exact {t : Int} (h0 : 0 ≤ t) (h1 : t ≤ year10000) :
    getDate t = if t = year10000 then .throw .argumentOutOfRange else .ok (t - t % ticksPerDay) := by
  unfold getDate ofTicks MinTicks
  rw [maxTicks_eq, TPD_eq, tpd_eq, year10000_eq] at *
  by_cases e : t = 3155378976000000000
  · rw [if_pos e, if_pos (by omega)]
  · rw [if_neg e, if_neg (by omega)]

theorem inRange_held {t : Int} (h : InRange t) : 0 ≤ t ∧ t ≤ year10000 := by
  rw [inRange_iff, maxTicks_eq] at h
  rw [year10000_eq]
  omega

theorem exact_range {P : Prop} [Decidable P] {v t : Int} {e : Exc} (hP : P → InRange v) (h : (if P then Res.ok v else .throw e) = .ok t) : InRange t := by
  split at h
  · rename_i hp
    rw [Res.ok.injEq] at h
    subst h
    exact hP hp
  · cases h

/-- **C175**: whatever the history, a `DateTime` lies between the first instant of the year 1 and the first instant of the year 10000, both included. -/
theorem C175_held_range {t : Int} (h : Held t) : 0 ≤ t ∧ t ≤ year10000 := by
  induction h with
  | default => rw [year10000_eq]; omega
  | maxValue => rw [year10000_eq, maxTicks_eq]; omega
  | ticks _ h => exact inRange_held (ofTicks_range h).2
  | parts h => exact ofParts_range h
  | now h => exact ofParts_range h
  | today h =>
    obtain ⟨v, hv, h⟩ := bindInv h
    exact inRange_held (ofTicks_range h).2
  | add _ hd h ih => rw [addTicks_exact ih.1 ih.2 hd] at h; exact inRange_held (exact_range id h)
  | sub _ hd h ih => rw [subtractSpan_exact ih.1 ih.2 hd] at h; exact inRange_held (exact_range id h)
  | months _ h ih => exact inRange_held (addMonths_range ih.1 ih.2 h)
  | years _ h ih =>
    unfold addYears at h
    split at h
    · cases h
    obtain ⟨_, _, h⟩ := bindInv h
    exact inRange_held (addMonths_range ih.1 ih.2 h)
  | date _ h _ => exact inRange_held (ofTicks_range h).2
  | @toLocal v t c _ h ih =>
    obtain ⟨e, hi⟩ := getTimeZone_eq c
    unfold toLocalTime at h
    rw [e] at h
    simp only [Res.bind_ok] at h
    have h : addTicks _ _ = _ := h
    rw [addTicks_exact ih.1 ih.2 hi] at h
    exact inRange_held (exact_range id h)
  | @toUniversal v t c _ h ih =>
    obtain ⟨e, hi⟩ := getTimeZone_eq c
    unfold toUniversalTime at h
    rw [e] at h
    simp only [Res.bind_ok] at h
    rw [subtractSpan_exact ih.1 ih.2 hi] at h
    exact inRange_held (exact_range id h)
  | addDouble _ h ih =>
    unfold FloatTime.addDouble at h
    split at h
    · cases h
    obtain ⟨m, _, h⟩ := bindInv h
    obtain ⟨d, hd, h⟩ := bindInv h
    unfold i64 at hd
    split at hd
    · rename_i hI
      rw [Res.ok.injEq] at hd
      subst hd
      rw [addTicks_exact ih.1 ih.2 hI] at h
      exact inRange_held (exact_range id h)
    · cases hd

/-- Both ends are held, the upper one through a millisecond argument of 1000. -/
example : Held 0 ∧ Held year10000 :=
  ⟨.default, .parts (y := 9999) (m := 12) (d := 31) (h := 23) (mi := 59) (s := 59) (ms := 1000) (by rw [year10000_eq]; decide +kernel)⟩

/-- **C175**: adding and subtracting a time span on every held value: the exact sum, or `ArgumentOutOfRangeException` when it is not in the years 1..9999. -/
theorem C175_arithmetic {t : Int} (h : Held t) (d : Int) (hd : I64 d) :
    addTicks t d = (if InRange (t + d) then .ok (t + d) else .throw .argumentOutOfRange) ∧
    subtractSpan t d = (if InRange (t - d) then .ok (t - d) else .throw .argumentOutOfRange) := by
  obtain ⟨h0, h1⟩ := C175_held_range h
  exact ⟨addTicks_exact h0 h1 hd, subtractSpan_exact h0 h1 hd⟩

/-- The one value above MaxValue cannot be moved by nothing: `AddTicks(0)` throws on it. -/
example : Held year10000 ∧ addTicks year10000 0 = .throw .argumentOutOfRange ∧ addTicks year10000 (-1) = .ok MaxTicks := by
  refine ⟨.parts (y := 9999) (m := 12) (d := 31) (h := 23) (mi := 59) (s := 59) (ms := 1000) (by rw [year10000_eq]; decide +kernel), ?_, ?_⟩ <;>
    (rw [year10000_eq]; decide +kernel)

/-- **C175**: the components, the date, and the shift by months of every held value. -/
theorem C175_components {t : Int} (h : Held t) :
    ∃ y m d, getYear t = .ok y ∧ getMonth t = .ok m ∧ getDay t = .ok d ∧
      1 ≤ y ∧ y ≤ 10000 ∧ (y = 10000 ↔ t = year10000) ∧ 1 ≤ m ∧ m ≤ 12 ∧ 1 ≤ d ∧ d ≤ monthLen y.toNat m.toNat ∧
      (dayNumber y m d : Int) * ticksPerDay + t % ticksPerDay = t ∧
      getDayOfYear t = .ok (daysInMonths y.toNat (m.toNat - 1) + d) ∧
      clockTicks (getHour t) (getMinute t) (getSecond t) (getMillisecond t) + t % 10000 = t % ticksPerDay ∧
      ValidTime (getHour t) (getMinute t) (getSecond t) (getMillisecond t) ∧
      getDate t = (if t = year10000 then .throw .argumentOutOfRange else .ok (t - t % ticksPerDay)) ∧
      ∀ n : Int, addMonths t n =
        if -120000 ≤ n ∧ n ≤ 120000 ∧ 1 ≤ shiftedIndex y m n / 12 ∧ shiftedIndex y m n / 12 ≤ 9999 then
          .ok (dayNumber (shiftedIndex y m n / 12) (shiftedIndex y m n % 12 + 1)
                (min d (monthLen (shiftedIndex y m n / 12).toNat (shiftedIndex y m n % 12 + 1).toNat)) * ticksPerDay
              + t % ticksPerDay)
        else .throw .argumentOutOfRange := by
  obtain ⟨h0, h1⟩ := C175_held_range h
  obtain ⟨p, g0, g1, g2, g3, g4, p1, p2, p3, p4, p5, p6, p7, p8, p9⟩ := parts_exact h0 h1
  have e1 : getHour t = t / 36000000000 % 24 := by unfold getHour TicksPerHour; exact wrapI32_of (by unfold I32; omega)
  have e2 : getMinute t = t / 600000000 % 60 := by unfold getMinute TicksPerMinute; exact wrapI32_of (by unfold I32; omega)
  have e3 : getSecond t = t / 10000000 % 60 := by unfold getSecond TicksPerSecond; exact wrapI32_of (by unfold I32; omega)
  have e4 : getMillisecond t = t / 10000 % 1000 := by unfold getMillisecond TicksPerMillisecond; exact wrapI32_of (by unfold I32; omega)
  refine ⟨p.year, p.month, p.day, g1, g2, g3, p1, p2, p3, p4, p5, p6, p7, p8, by rw [g4, p9], ?_, ?_, getDate_exact h0 h1, fun n => addMonths_exact g0 p4 p5 p6⟩
  · rw [e1, e2, e3, e4, tpd_eq]
    unfold clockTicks
    omega
  · rw [e1, e2, e3, e4]
    unfold ValidTime
    omega

/-- The value above MaxValue shows as the first of January 10000; its `Date` throws; one month earlier is 9999-12-01. -/
example : getYear year10000 = .ok 10000 ∧ getDate year10000 = .throw .argumentOutOfRange ∧ addMonths year10000 (-1) = ofParts 9999 12 1 0 0 0 0 ∧
    addMonths year10000 0 = .throw .argumentOutOfRange := by
  rw [year10000_eq]
  decide +kernel

/-- **C175**: no operation on any held value is undefined. -/
theorem C175_never_undefined {t : Int} (h : Held t) (c : Clock) (d n : Int) (hd : I64 d) :
    addTicks t d ≠ .ub ∧ subtractSpan t d ≠ .ub ∧ addMonths t n ≠ .ub ∧ addYears t n ≠ .ub ∧ getDate t ≠ .ub ∧ toString t ≠ .ub ∧
    toLocalTime c t ≠ .ub ∧ toUniversalTime c t ≠ .ub := by
  obtain ⟨h0, h1⟩ := C175_held_range h
  obtain ⟨y, m, k, g1, g2, g3, _, _, _, _, _, _, _, _, _, _, _, gd, gm⟩ := C175_components h
  have noUb : ∀ {P : Prop} [Decidable P] {v : Int} {e : Exc}, (if P then Res.ok v else .throw e) ≠ .ub := by
    intro P _ v e
    split <;> simp
  have am : ∀ n, addMonths t n ≠ .ub := fun n => by rw [gm n]; exact noUb
  obtain ⟨e, hi⟩ := getTimeZone_eq c
  refine ⟨?_, ?_, am n, ?_, ?_, ?_, ?_, ?_⟩
  · rw [addTicks_exact h0 h1 hd]; exact noUb
  · rw [subtractSpan_exact h0 h1 hd]; exact noUb
  · rw [C07_addYears]
    split
    · exact am _
    · simp
  · rw [gd]
    split <;> simp
  · unfold toString
    rw [g1, g2, g3]
    simp only [Res.bind_ok]
    simp
  · unfold toLocalTime
    rw [e]
    simp only [Res.bind_ok]
    show addTicks _ _ ≠ _
    rw [addTicks_exact h0 h1 hi]; exact noUb
  · unfold toUniversalTime
    rw [e]
    simp only [Res.bind_ok]
    rw [subtractSpan_exact h0 h1 hi]; exact noUb

/-- **C175**: two held values compare by their ticks with every comparison, and their difference is exact and never overflows. -/
theorem C175_compare {a b : Int} (ha : Held a) (hb : Held b) :
    compare a b = (if a < b then -1 else if a = b then 0 else 1) ∧ (equals a b = true ↔ a = b) ∧ (opInequality a b = true ↔ a ≠ b) ∧
    (opLessThan a b = true ↔ a < b) ∧ (opLessThanOrEqual a b = true ↔ a ≤ b) ∧ (opGreaterThan a b = true ↔ b < a) ∧ (opGreaterThanOrEqual a b = true ↔ b ≤ a) ∧
    subtractDate a b = a - b ∧ I64 (a - b) := by
  have h1 := C175_held_range ha
  have h2 := C175_held_range hb
  rw [year10000_eq] at h1 h2
  refine ⟨?_, by simp [equals], by simp [opInequality, equals], by simp [opLessThan], by simp [opLessThanOrEqual], by simp [opGreaterThan], by simp [opGreaterThanOrEqual], ?_, ?_⟩
  · unfold compare
    rw [wrapI64_of (by unfold I64; omega), wrapI64_of (by unfold I64; omega)]
    by_cases hlt : a < b
    · rw [if_neg (by omega), if_pos hlt, if_pos hlt]
    by_cases he : a = b
    · rw [if_neg (by omega), if_neg hlt, if_neg hlt, if_pos he]
    · rw [if_pos (by omega), if_neg hlt, if_neg he]
  · unfold subtractDate wrapI64 wrapU64; omega
  · unfold I64; omega

/-- **C175**: the current time. From any broken-down time of the C library in the years 1..9999 the value is that time with the milliseconds of the clock; a leap second (60) throws. -/
theorem C175_now (b : Clock.Tm) (ns : Int) (hv : ValidDate (b.year + 1900) (b.mon + 1) b.mday) (hh : 0 ≤ b.hour ∧ b.hour < 24) (hm : 0 ≤ b.min ∧ b.min < 60) (hn : 0 ≤ ns ∧ ns < 1000000000) :
    (0 ≤ b.sec ∧ b.sec < 60 → Clock.nowOf b ns = .ok (dayNumber (b.year + 1900) (b.mon + 1) b.mday * ticksPerDay + clockTicks b.hour b.min b.sec (ns / 1000000)) ∧
      Clock.today b ns = .ok (dayNumber (b.year + 1900) (b.mon + 1) b.mday * ticksPerDay)) ∧
    (60 ≤ b.sec → Clock.nowOf b ns = .throw .argumentOutOfRange) := by
  have key : Clock.nowOf b ns = _ := ofParts_eq _ _ _ _ _ _ _
  rw [if_neg (fun h => h hv), if_neg (by omega), Int.tdiv_eq_ediv_of_nonneg hn.1] at key
  refine ⟨fun hs => ?_, fun hs => ?_⟩
  · rw [if_pos (by omega)] at key
    refine ⟨key, ?_⟩
    have hb := (dayNumber_bounds hv).2.2
    unfold Clock.today
    rw [key]
    simp only [Res.bind_ok]
    unfold clockTicks
    rw [tpd_eq] at *
    rw [getDate_exact (by omega) (by rw [year10000_eq]; omega), year10000_eq, tpd_eq, if_neg (by omega), Res.ok.injEq]
    omega
  · rw [if_neg (by omega)] at key
    exact key

example : Clock.nowOf ⟨124, 1, 29, 12, 0, 0⟩ 500000000 = ofParts 2024 2 29 12 0 0 500 ∧ Clock.today ⟨124, 1, 29, 12, 0, 0⟩ 500000000 = ofParts 2024 2 29 0 0 0 0 ∧
    Clock.nowOf ⟨116, 11, 31, 23, 59, 60⟩ 0 = .throw .argumentOutOfRange := by decide +kernel

end Verif.DateTime
