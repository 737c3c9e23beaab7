import Verif.DateTimeModel
import Verif.CalendarSpec
import Mathlib.Tactic.IntervalCases
namespace Verif.DateTime
open Verif.Calendar

theorem land3 (n : Nat) : n &&& 3 = n % 4 := Nat.and_two_pow_sub_one_eq_mod n 2
theorem land15 (n : Nat) : n &&& 15 = n % 16 := Nat.and_two_pow_sub_one_eq_mod n 4

theorem isLeapYearFn_iff {y : Int} (h : 0 ≤ y) : isLeapYearFn y = true ↔ Leap y.toNat := by
  unfold isLeapYearFn Leap
  simp only [Int.tmod_eq_emod_of_nonneg h]
  simp only [Bool.and_eq_true, Bool.or_eq_true, beq_iff_eq, bne_iff_ne, ne_eq]
  omega

theorem isLeapYear_ok {y : Int} (h1 : 1 ≤ y) (h2 : y ≤ 9999) :
    isLeapYear y = .ok (isLeapYearFn y) := by
  unfold isLeapYear
  rw [if_neg (by omega)]
  congr 1
  have h : 0 ≤ y := by omega
  rw [Bool.eq_iff_iff, isLeapYearFn_iff h]
  unfold Leap
  rw [land3, land15]
  simp only [Int.tmod_eq_emod_of_nonneg h]
  simp only [Bool.and_eq_true, Bool.or_eq_true, beq_iff_eq, bne_iff_ne, ne_eq]
  omega

/-- Cumulative month table entry as a total function. -/
def cum (leap : Bool) (m : Nat) : Int := (if leap then daysToMonth366 else daysToMonth365)[m]!

theorem tableAt_ok {leap : Bool} {m : Int} (h : 0 ≤ m ∧ m ≤ 12) : tableAt leap m = .ok (cum leap m.toNat) := by
  simp [tableAt, h, cum]

theorem cum_eq (y : Nat) (leap : Bool) (hl : leap = true ↔ Leap y) (m : Nat) (hm : m ≤ 12) :
    cum leap m = (daysInMonths y m : Int) := by
  cases leap with
  | true =>
    have : Leap y := hl.mp rfl
    interval_cases m <;> simp [cum, daysToMonth366, daysInMonths, monthLen, this]
  | false =>
    have : ¬ Leap y := fun h => by simpa using hl.mpr h
    interval_cases m <;> simp [cum, daysToMonth365, daysInMonths, monthLen, this]

/-- Closed form of the day count of whole years. -/
theorem daysInYears_closed (y : Nat) : daysInYears y + y / 100 = 365 * y + y / 4 + y / 400 := by
  induction y with
  | zero => rfl
  | succ y ih =>
    unfold daysInYears yearLen
    by_cases h : Leap (y + 1)
    · rw [if_pos h]; unfold Leap at h; omega
    · rw [if_neg h]; unfold Leap at h; omega

theorem daysInYears_9999 : daysInYears 9999 = 3652059 := by
  have := daysInYears_closed 9999
  omega

theorem daysInYears_mono {a b : Nat} (h : a ≤ b) : daysInYears a ≤ daysInYears b := by
  induction b with
  | zero => simp_all
  | succ b ih =>
    rcases Nat.lt_or_ge a (b+1) with h1 | h1
    · have := ih (by omega); simp only [daysInYears]; omega
    · have : a = b + 1 := by omega
      subst this; exact Nat.le_refl _

theorem daysInMonths_12 (y : Nat) : daysInMonths y 12 = yearLen y := by
  by_cases h : Leap y <;> simp [daysInMonths, monthLen, yearLen, h]

theorem daysInMonths_mono (y : Nat) {a b : Nat} (h : a ≤ b) : daysInMonths y a ≤ daysInMonths y b := by
  induction b with
  | zero => simp_all
  | succ b ih =>
    rcases Nat.lt_or_ge a (b+1) with h1 | h1
    · have := ih (by omega); simp only [daysInMonths]; omega
    · have : a = b + 1 := by omega
      subst this; exact Nat.le_refl _

theorem inRange_iff (t : Int) : InRange t ↔ 0 ≤ t ∧ t ≤ MaxTicks := by
  unfold InRange ticksPerDay MaxTicks TicksPerDay
  rw [daysInYears_9999]; omega

/-- The day within its year, and the year within the calendar. -/
theorem dayNumber_bounds {y m d : Int} (h : ValidDate y m d) :
    daysInYears (y.toNat - 1) ≤ dayNumber y m d ∧ dayNumber y m d < daysInYears y.toNat ∧
    dayNumber y m d < 3652059 := by
  obtain ⟨h1, h2, h3, h4, h5, h6⟩ := h
  have hm : daysInMonths y.toNat m.toNat ≤ daysInMonths y.toNat 12 := daysInMonths_mono _ (by omega)
  have e : m.toNat = (m.toNat - 1) + 1 := by omega
  have hs : daysInMonths y.toNat m.toNat = daysInMonths y.toNat (m.toNat - 1) + monthLen y.toNat m.toNat := by
    rw [e]; simp [daysInMonths]
  have e2 : y.toNat = (y.toNat - 1) + 1 := by omega
  have hy : daysInYears y.toNat = daysInYears (y.toNat - 1) + yearLen y.toNat := by
    rw [e2]; simp [daysInYears]
  have hb := daysInMonths_12 y.toNat
  have h9 := daysInYears_mono (a := y.toNat) (b := 9999) (by omega)
  have := daysInYears_9999
  unfold dayNumber
  omega

theorem dayNumber_inj {y m d y' m' d' : Int} (h : ValidDate y m d) (h' : ValidDate y' m' d')
    (e : dayNumber y m d = dayNumber y' m' d') : y = y' ∧ m = m' ∧ d = d' := by
  have b := dayNumber_bounds h
  have b' := dayNumber_bounds h'
  obtain ⟨h1, h2, h3, h4, h5, h6⟩ := h
  obtain ⟨h1', h2', h3', h4', h5', h6'⟩ := h'
  have ey : y.toNat = y'.toNat := by
    rcases Nat.lt_trichotomy y.toNat y'.toNat with hl | hl | hl
    · have := daysInYears_mono (a := y.toNat) (b := y'.toNat - 1) (by omega); omega
    · exact hl
    · have := daysInYears_mono (a := y'.toNat) (b := y.toNat - 1) (by omega); omega
  have hs : ∀ k : Nat, 1 ≤ k → daysInMonths y.toNat k = daysInMonths y.toNat (k - 1) + monthLen y.toNat k := by
    intro k hk
    have e : k = (k - 1) + 1 := by omega
    rw [e]; simp [daysInMonths]
  have s1 := hs m.toNat (by omega)
  have s2 := hs m'.toNat (by omega)
  unfold dayNumber at e
  rw [← ey] at e h6'
  have em : m.toNat = m'.toNat := by
    rcases Nat.lt_trichotomy m.toNat m'.toNat with hl | hl | hl
    · have := daysInMonths_mono y.toNat (a := m.toNat) (b := m'.toNat - 1) (by omega); omega
    · exact hl
    · have := daysInMonths_mono y.toNat (a := m'.toNat) (b := m.toNat - 1) (by omega); omega
  rw [← em] at e
  omega

/-- The closed form evaluated by line 48 of DateTimeValue.cpp is the recursive day count. -/
theorem ndays_closed (Y : Nat) (a b : Int) :
    (Y : Int) * 365 + (Y : Int) / 4 - (Y : Int) / 100 + (Y : Int) / 400 + a + b - 1
      = (daysInYears Y : Int) + a + (b - 1) := by
  have c := daysInYears_closed Y
  omega

theorem tpd_eq : ticksPerDay = 864000000000 := by decide
theorem TPD_eq : TicksPerDay = 864000000000 := by rfl

theorem day_range {n : Nat} (h : n < 3652059) : I32 (n : Int) := by
  unfold I32; omega

theorem ticks_range {n : Nat} (h : n < 3652059) : I64 ((n : Int) * 864000000000) := by
  unfold I64; omega

theorem dateToTicks_eq (y m d : Int) :
    dateToTicks y m d =
      if ValidDate y m d then .ok (dayNumber y m d * ticksPerDay) else .throw .argumentOutOfRange := by
  unfold dateToTicks
  by_cases h0 : y < 1 ∨ y > 9999 ∨ m < 1 ∨ m > 12 ∨ d < 1
  · rw [if_pos h0, if_neg]; unfold ValidDate; omega
  · rw [if_neg h0]
    have hy : 0 ≤ y := by omega
    have hl := isLeapYearFn_iff hy
    simp only [tableAt_ok (leap := isLeapYearFn y) (m := m) (by omega),
      tableAt_ok (leap := isLeapYearFn y) (m := m - 1) (by omega), Res.bind_ok]
    rw [cum_eq y.toNat _ hl m.toNat (by omega), cum_eq y.toNat _ hl (m-1).toNat (by omega)]
    have em : (m - 1).toNat = m.toNat - 1 := by omega
    have e : m.toNat = (m.toNat - 1) + 1 := by omega
    have hs : daysInMonths y.toNat m.toNat = daysInMonths y.toNat (m.toNat - 1) + monthLen y.toNat m.toNat := by
      rw [e]; simp [daysInMonths]
    rw [em]
    have hdiff : (daysInMonths y.toNat m.toNat : Int) - daysInMonths y.toNat (m.toNat - 1)
        = monthLen y.toNat m.toNat := by omega
    rw [hdiff]
    by_cases h1 : d > (monthLen y.toNat m.toNat : Int)
    · rw [if_pos h1, if_neg]; unfold ValidDate; omega
    · rw [if_neg h1]
      have hv : ValidDate y m d := by unfold ValidDate; omega
      rw [if_pos hv]
      have b := dayNumber_bounds hv
      obtain ⟨Y, hY⟩ : ∃ Y : Nat, y - 1 = Y := ⟨(y-1).toNat, by omega⟩
      have hYle : Y ≤ 9998 := by omega
      have n0 : (0:Int) ≤ (Y : Int) := by omega
      rw [hY, i32_ok (by unfold I32; omega)]
      simp only [Res.bind_ok, Int.tdiv_eq_ediv_of_nonneg n0]
      rw [i32_ok (by unfold I32; omega)]
      simp only [Res.bind_ok]
      rw [ndays_closed]
      have key : (daysInYears Y : Int) + (daysInMonths y.toNat (m.toNat - 1) : Int) + (d - 1)
          = dayNumber y m d := by
        have : y.toNat - 1 = Y := by omega
        unfold dayNumber; rw [this]
        have : ((d.toNat - 1 : Nat) : Int) = d - 1 := by omega
        push_cast; rw [this]
      rw [key, i32_ok (day_range b.2.2)]
      simp only [Res.bind_ok]
      rw [tpd_eq, TPD_eq, i64_ok (ticks_range b.2.2)]

/-- Year decomposition of a day number, as computed by both `GetDatePart` functions. -/
theorem year_split (n y400 r1 q100 y100 r2 y4 r3 q1 y1 doy : Int) (h0 : 0 ≤ n) (h1 : n < 3652059)
    (e1 : y400 = n / 146097) (e2 : r1 = n - y400 * 146097) (e3 : q100 = r1 / 36524)
    (e4 : y100 = if q100 = 4 then 3 else q100) (e5 : r2 = r1 - y100 * 36524) (e6 : y4 = r2 / 1461)
    (e7 : r3 = r2 - y4 * 1461) (e8 : q1 = r3 / 365) (e9 : y1 = if q1 = 4 then 3 else q1)
    (e10 : doy = r3 - y1 * 365) :
    ∃ Y : Nat, y400 * 400 + y100 * 100 + y4 * 4 + y1 = Y ∧ Y ≤ 9998 ∧ 0 ≤ doy ∧
      n = daysInYears Y + doy ∧ doy < yearLen (Y + 1) ∧
      ((y1 == 3 && (y4 != 24 || y100 == 3)) = true ↔ Leap (Y + 1)) := by
  have b1 : 0 ≤ r1 ∧ r1 < 146097 := by omega
  have b0 : 0 ≤ y400 ∧ y400 ≤ 24 := by omega
  have b2 : 0 ≤ y100 ∧ y100 ≤ 3 ∧ 0 ≤ r2 ∧ r2 ≤ 36524 ∧ (y100 ≠ 3 → r2 < 36524) := by
    split at e4 <;> omega
  have b3 : 0 ≤ y4 ∧ y4 ≤ 24 ∧ 0 ≤ r3 ∧ r3 ≤ 1460 ∧ (y4 = 24 → y100 ≠ 3 → r3 ≤ 1459) := by omega
  have b4 : 0 ≤ y1 ∧ y1 ≤ 3 ∧ 0 ≤ doy ∧ doy ≤ 365 ∧ (y1 ≠ 3 → doy ≤ 364) ∧
      (y1 = 3 → y4 = 24 → y100 ≠ 3 → doy ≤ 364) := by
    split at e9 <;> omega
  have hn : n = 146097 * y400 + 36524 * y100 + 1461 * y4 + 365 * y1 + doy := by omega
  clear e1 e2 e3 e4 e5 e6 e7 e8 e9 e10 b1 
  obtain ⟨a, rfl⟩ := Int.eq_ofNat_of_zero_le b0.1
  obtain ⟨b, rfl⟩ := Int.eq_ofNat_of_zero_le b2.1
  obtain ⟨c, rfl⟩ := Int.eq_ofNat_of_zero_le b3.1
  obtain ⟨d, rfl⟩ := Int.eq_ofNat_of_zero_le b4.1
  refine ⟨400 * a + 100 * b + 4 * c + d, by omega, ?_, by omega, ?_, ?_, ?_⟩
  · have : ¬ (9999 ≤ 400 * a + 100 * b + 4 * c + d) := by
      intro hc; omega
    omega
  · have cl := daysInYears_closed (400 * a + 100 * b + 4 * c + d)
    have d4 : (400 * a + 100 * b + 4 * c + d) / 4 = 100 * a + 25 * b + c := by omega
    have d100 : (400 * a + 100 * b + 4 * c + d) / 100 = 4 * a + b := by omega
    have d400 : (400 * a + 100 * b + 4 * c + d) / 400 = a := by omega
    rw [d4, d100, d400] at cl
    omega
  · unfold yearLen
    by_cases hl : Leap (400 * a + 100 * b + 4 * c + d + 1)
    · rw [if_pos hl]; omega
    · rw [if_neg hl]
      have : ¬ (d = 3 ∧ (c ≠ 24 ∨ b = 3)) := by
        intro hc; apply hl; unfold Leap; omega
      omega
  · simp only [Bool.and_eq_true, Bool.or_eq_true, beq_iff_eq, bne_iff_ne, ne_eq]
    have h : ((d : Int) = 3 ∧ (¬(c : Int) = 24 ∨ (b : Int) = 3)) ↔ (d = 3 ∧ (c ≠ 24 ∨ b = 3)) := by omega
    rw [h]
    unfold Leap
    have m4 : (400 * a + 100 * b + 4 * c + d + 1) % 4 = (d + 1) % 4 := by omega
    have m100 : (400 * a + 100 * b + 4 * c + d + 1) % 100 = (4 * c + d + 1) % 100 := by omega
    have m400 : (400 * a + 100 * b + 4 * c + d + 1) % 400 = (100 * b + 4 * c + d + 1) % 400 := by omega
    rw [m4, m100, m400]
    omega

/-- What the month search must deliver, as a decidable check. -/
def monthOk (leap : Bool) (n : Nat) : Bool :=
  match findMonth leap n 14 ((n : Int) / 32 + 1) with
  | .ok m => decide (1 ≤ m ∧ m ≤ 12 ∧ cum leap (m.toNat - 1) ≤ (n : Int) ∧ (n : Int) < cum leap m.toNat)
  | _ => false

theorem monthOk_all : ∀ (leap : Bool) (n : Fin 366), (leap = true ∨ n.val < 365) → monthOk leap n.val = true := by
  decide +kernel

theorem findMonth_ok (leap : Bool) (n : Int) (h0 : 0 ≤ n) (h1 : n < if leap then 366 else 365) :
    ∃ m : Int, findMonth leap n 14 (n / 32 + 1) = .ok m ∧ 1 ≤ m ∧ m ≤ 12 ∧
      cum leap (m.toNat - 1) ≤ n ∧ n < cum leap m.toNat := by
  obtain ⟨k, rfl⟩ := Int.eq_ofNat_of_zero_le h0
  have hk : k < 366 := by cases leap <;> simp at h1 <;> omega
  have hc := monthOk_all leap ⟨k, hk⟩ (by cases leap <;> simp at h1 ⊢; omega)
  unfold monthOk at hc
  simp only at hc
  cases hf : findMonth leap (k : Int) 14 ((k : Int) / 32 + 1) with
  | ok m => rw [hf] at hc; simp only [decide_eq_true_eq] at hc; exact ⟨m, rfl, hc⟩
  | throw e => rw [hf] at hc; simp at hc
  | ub => rw [hf] at hc; simp at hc

/-- Relation between the parts and the calendar: `p` is the date of day number `n`. -/
def IsDateOf (p : DateParts) (n : Int) : Prop :=
  ValidDate p.year p.month p.day ∧ (dayNumber p.year p.month p.day : Int) = n ∧
    p.dayOfYear = daysInMonths p.year.toNat (p.month.toNat - 1) + p.day

theorem parts_of_split (n : Int) (Y : Nat) (leap : Bool) (doy m : Int) (hY : Y ≤ 9998)
    (hn : n = daysInYears Y + doy) (hl : leap = true ↔ Leap (Y + 1))
    (hm : 1 ≤ m ∧ m ≤ 12 ∧ cum leap (m.toNat - 1) ≤ doy ∧ doy < cum leap m.toNat) :
    IsDateOf { year := (Y : Int) + 1, dayOfYear := doy + 1, month := m, day := doy - cum leap (m.toNat - 1) + 1 } n := by
  obtain ⟨m1, m2, m3, m4⟩ := hm
  rw [cum_eq (Y+1) _ hl _ (by omega)] at m3 m4
  have eY : ((Y : Int) + 1).toNat = Y + 1 := by omega
  have e : m.toNat = (m.toNat - 1) + 1 := by omega
  have hs : daysInMonths (Y+1) m.toNat = daysInMonths (Y+1) (m.toNat - 1) + monthLen (Y+1) m.toNat := by
    rw [e]; simp [daysInMonths]
  unfold IsDateOf ValidDate dayNumber
  simp only [eY]
  rw [cum_eq (Y+1) _ hl _ (by omega)]
  have : Y + 1 - 1 = Y := by omega
  rw [this]
  refine ⟨?_, ?_, ?_⟩ <;> omega

theorem days_of_ticks {t : Int} (h : 0 ≤ t ∧ t ≤ MaxTicks) :
    0 ≤ t / 864000000000 ∧ t / 864000000000 < 3652059 := by
  unfold MaxTicks TicksPerDay at h; omega

theorem wrap_days {t : Int} (h : 0 ≤ t ∧ t ≤ MaxTicks) :
    wrapI32 ((wrapI64 t).tdiv TicksPerDay) = t / 864000000000 ∧
    wrapI32 (t / TicksPerDay) = t / 864000000000 := by
  have hd := days_of_ticks h
  have hw : wrapI64 t = t := wrapI64_of (by unfold I64 MaxTicks TicksPerDay at *; omega)
  rw [hw, TPD_eq, Int.tdiv_eq_ediv_of_nonneg h.1]
  exact ⟨wrapI32_of (by unfold I32; omega), wrapI32_of (by unfold I32; omega)⟩

theorem getDateParts_ok {t : Int} (h : 0 ≤ t ∧ t ≤ MaxTicks) :
    ∃ p, getDateParts t = .ok p ∧ IsDateOf p (t / 864000000000) ∧
      getDatePart .year t = .ok p.year ∧ getDatePart .dayOfYear t = .ok p.dayOfYear ∧
      getDatePart .month t = .ok p.month ∧ getDatePart .day t = .ok p.day := by
  have hd := days_of_ticks h
  obtain ⟨w1, w2⟩ := wrap_days h
  generalize hn : t / 864000000000 = n at *
  have r1 : 0 ≤ n - n / 146097 * 146097 := by omega
  unfold getDateParts getDatePart
  simp only [w1, w2]
  simp only [Int.tdiv_eq_ediv_of_nonneg hd.1, Int.tdiv_eq_ediv_of_nonneg r1]
  generalize hy400 : n / 146097 = y400 at *
  generalize hr1 : n - y400 * 146097 = r1' at *
  generalize hq100 : r1' / 36524 = q100 at *
  generalize hy100 : (if q100 = 4 then 3 else q100) = y100 at *
  generalize hr2 : r1' - y100 * 36524 = r2 at *
  have r2p : 0 ≤ r2 := by split at hy100 <;> omega
  simp only [Int.tdiv_eq_ediv_of_nonneg r2p]
  generalize hy4 : r2 / 1461 = y4 at *
  generalize hr3 : r2 - y4 * 1461 = r3 at *
  have r3p : 0 ≤ r3 := by omega
  simp only [Int.tdiv_eq_ediv_of_nonneg r3p]
  generalize hq1 : r3 / 365 = q1 at *
  generalize hy1 : (if q1 = 4 then 3 else q1) = y1 at *
  generalize hdoy : r3 - y1 * 365 = doy at *
  obtain ⟨Y, eY, hYle, hdoy0, hnn, hlen, hleap⟩ := year_split n y400 r1' q100 y100 r2 y4 r3 q1 y1 doy hd.1 hd.2
    hy400.symm hr1.symm hq100.symm hy100.symm hr2.symm hy4.symm hr3.symm hq1.symm hy1.symm hdoy.symm
  generalize hlp : (y1 == 3 && (y4 != 24 || y100 == 3)) = leap at *
  have hb : doy < if leap then 366 else 365 := by
    unfold yearLen at hlen
    by_cases hL : Leap (Y+1)
    · rw [if_pos hL] at hlen; rw [if_pos (hleap.mpr hL)]; exact hlen
    · rw [if_neg hL] at hlen; rw [if_neg (fun hx => hL (hleap.mp hx))]; exact hlen
  obtain ⟨m, hf, hm⟩ := findMonth_ok leap doy hdoy0 hb
  have ht : tableAt leap (m - 1) = .ok (cum leap (m.toNat - 1)) := by
    rw [tableAt_ok (by omega)]
    have : (m - 1).toNat = m.toNat - 1 := by omega
    rw [this]
  rw [hf]
  simp only [Res.bind_ok, ht, eY, reduceCtorEq, if_false, if_true]
  refine ⟨_, rfl, parts_of_split n Y leap doy m hYle hnn hleap hm, ?_, ?_, ?_, ?_⟩ <;> rfl

end Verif.DateTime
