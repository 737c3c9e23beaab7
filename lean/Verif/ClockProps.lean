import Verif.ClockModel
import Verif.DateTimeProps
/-!
# C145, C146: the clock and the time zone
-/
namespace Verif.Clock
open Verif.Calendar Verif.DateTime

/-- POSIX: `tm` is the time `t` seconds after 1970-01-01 00:00:00, broken down. -/
def Breaks (t : Int) (tm : Tm) : Prop :=
  ValidDate (tm.year + 1900) (tm.mon + 1) tm.mday ∧ 0 ≤ tm.hour ∧ tm.hour < 24 ∧ 0 ≤ tm.min ∧ tm.min < 60 ∧ 0 ≤ tm.sec ∧ tm.sec < 60 ∧
    t = ((dayNumber (tm.year + 1900) (tm.mon + 1) tm.mday : Int) - dayNumber 1970 1 1) * 86400 + tm.hour * 3600 + tm.min * 60 + tm.sec

/-- The ticks of 1970-01-01 00:00:00. -/
def epoch : Int := dayNumber 1970 1 1 * ticksPerDay

theorem epoch_eq : (dayNumber 1970 1 1 : Int) = 719162 ∧ epoch = 621355968000000000 := by decide +kernel

/-- **C145**, `UtcNow` (partial: to the millisecond): with the clock at `t` seconds and `ns` nanoseconds after the epoch, the value is that many ticks, the part below a millisecond dropped. -/
theorem C145_clock_partial (t ns : Int) (tm : Tm) (h : Breaks t tm) (h0 : 0 ≤ ns) (h1 : ns < 1000000000) :
    ∃ v, nowOf tm ns = .ok v ∧ InRange v ∧ v = epoch + t * 10000000 + ns / 1000000 * 10000 ∧
      v ≤ epoch + t * 10000000 + ns / 100 ∧ epoch + t * 10000000 + ns / 100 < v + 10000 := by
  obtain ⟨hv, a1, a2, a3, a4, a5, a6, e⟩ := h
  have hm : ns.tdiv 1000000 = ns / 1000000 := Int.tdiv_eq_ediv_of_nonneg h0
  have ht : ValidTime tm.hour tm.min tm.sec (ns / 1000000) := by unfold ValidTime; omega
  unfold nowOf
  rw [hm, ofParts_eq, if_neg (by simpa using hv), if_neg (by omega), if_pos (by omega)]
  have hb := (dayNumber_bounds hv).2.2
  rw [epoch_eq.1] at e
  refine ⟨_, rfl, ?_, ?_, ?_, ?_⟩
  · unfold InRange; rw [daysInYears_9999, tpd_eq]; unfold clockTicks; omega
  all_goals (rw [epoch_eq.2, tpd_eq]; unfold clockTicks; omega)

/-- 2020-02-29 23:59:59 UTC. -/
def exTm : Tm := ⟨120, 1, 29, 23, 59, 59⟩
example : Breaks 1583020799 exTm := by
  have : (dayNumber 1970 1 1 : Int) = 719162 ∧ (dayNumber 2020 2 29 : Int) = 737483 ∧ ValidDate 2020 2 29 := by decide +kernel
  unfold Breaks exTm
  rw [show ((120 : Int) + 1900) = 2020 by decide, show ((1 : Int) + 1) = 2 by decide, this.1, this.2.1]
  exact ⟨this.2.2, by decide⟩
example : nowOf exTm 123456789 = .ok 637186175991230000 := by decide +kernel

/-- **C145**, `Now` (partial: to the millisecond): at the same instant it is `UtcNow` plus the zone's offset from UTC (`off` seconds). -/
theorem C145_now_partial (t off ns : Int) (u l : Tm) (hu : Breaks t u) (hl : Breaks (t + off) l) (h0 : 0 ≤ ns) (h1 : ns < 1000000000) :
    ∃ v n, nowOf u ns = .ok v ∧ nowOf l ns = .ok n ∧ n = v + off * 10000000 := by
  obtain ⟨v, e1, _, e2, _⟩ := C145_clock_partial t ns u hu h0 h1
  obtain ⟨n, e3, _, e4, _⟩ := C145_clock_partial (t + off) ns l hl h0 h1
  exact ⟨v, n, e1, e3, by rw [e2, e4]; omega⟩

/-- **C145**, `Today`: the local midnight before `Now`. -/
theorem C145_today (t ns : Int) (l : Tm) (hl : Breaks t l) (h0 : 0 ≤ ns) (h1 : ns < 1000000000) :
    ∃ n d, nowOf l ns = .ok n ∧ today l ns = .ok d ∧ d = epoch + t / 86400 * 864000000000 ∧ d ≤ n ∧ n < d + 864000000000 := by
  obtain ⟨n, e1, hr, e2, _⟩ := C145_clock_partial t ns l hl h0 h1
  have hm := (inRange_iff n).mp hr
  have hM : MaxTicks = 3155378975999999999 := by decide +kernel
  rw [hM] at hm
  have e3 : today l ns = .ok (n - n % 864000000000) := by
    unfold today
    rw [e1, Res.bind_ok]
    unfold getDate ofTicks
    rw [hM, show TicksPerDay = 864000000000 from rfl, if_neg (by unfold MinTicks; omega)]
  refine ⟨n, _, e1, e3, ?_, by omega, by omega⟩
  rw [epoch_eq.2] at *
  omega

/-- **C145**, the rest refuted: instants up to a millisecond apart (10000 ticks, which .NET tells apart) are the same; a leap second is an exception. -/
theorem C145_refuted : (∀ tm ns, 0 ≤ ns → nowOf tm (ns / 1000000 * 1000000 + 999999) = nowOf tm (ns / 1000000 * 1000000)) ∧
    nowOf ⟨116, 11, 31, 23, 59, 60⟩ 0 = .throw .argumentOutOfRange := by
  refine ⟨?_, by decide +kernel⟩
  intro tm ns h
  unfold nowOf
  rw [Int.tdiv_eq_ediv_of_nonneg (by omega), Int.tdiv_eq_ediv_of_nonneg (by omega)]
  congr 1
  omega

/-! ## C146 -/

theorem timeZone_eq (u l : Tm) (h : -24 < l.hour - u.hour) (h2 : l.hour - u.hour < 24) : timeZone u l = .ok ((l.hour - u.hour) * 36000000000) := by
  unfold timeZone TimeSpan.ofHms
  generalize l.hour - u.hour = x at *
  rw [i64_ok (show I64 (x * 3600) by unfold I64; omega), Res.bind_ok, i64_ok (show I64 (0 * 60) by unfold I64; omega), Res.bind_ok,
    i64_ok (show I64 (x * 3600 + 0 * 60) by unfold I64; omega), Res.bind_ok, i64_ok (show I64 (x * 3600 + 0 * 60 + 0) by unfold I64; omega), Res.bind_ok]
  rw [if_neg (by unfold TimeSpan.MaxSeconds TimeSpan.MinSeconds; omega)]
  rw [i64_ok (by unfold I64 TimeSpan.TicksPerSecond; omega)]
  unfold TimeSpan.TicksPerSecond
  congr 1; omega

theorem hour_of {t : Int} {tm : Tm} (h : Breaks t tm) : tm.hour = t % 86400 / 3600 := by
  obtain ⟨_, a1, a2, a3, a4, a5, a6, e⟩ := h
  omega

/-- **C146**, the zone (exact): the offset found is the zone's offset exactly when that is a whole number of hours and the local date is the UTC date at the moment. -/
theorem C146_zone_partial (t off : Int) (u l : Tm) (hu : Breaks t u) (hl : Breaks (t + off) l) :
    timeZone u l = .ok (off * 10000000) ↔ off % 3600 = 0 ∧ (t + off) / 86400 = t / 86400 := by
  have h1 := hour_of hu
  have h2 := hour_of hl
  obtain ⟨_, a1, a2, _⟩ := hu
  obtain ⟨_, b1, b2, _⟩ := hl
  rw [timeZone_eq u l (by omega) (by omega), Res.ok.injEq]
  omega

/-- **C146** (partial): when that is so, `ToLocalTime` adds the offset and `ToUniversalTime` subtracts it, throwing exactly when the result leaves the calendar. -/
theorem C146_convert_partial (t off : Int) (u l : Tm) (hu : Breaks t u) (hl : Breaks (t + off) l) (ho : off % 3600 = 0) (hd : (t + off) / 86400 = t / 86400) (v : Int) (hv : InRange v) :
    toLocal u l v = (if InRange (v + off * 10000000) then .ok (v + off * 10000000) else .throw .argumentOutOfRange) ∧
    toUniversal u l v = (if InRange (v - off * 10000000) then .ok (v - off * 10000000) else .throw .argumentOutOfRange) := by
  have h := (C146_zone_partial t off u l hu hl).2 ⟨ho, hd⟩
  have hI : I64 (off * 10000000) := by
    have := hour_of hu
    have := hour_of hl
    unfold I64; omega
  unfold toLocal toUniversal
  rw [h, Res.bind_ok, Res.bind_ok, (C06_addTicks v _ hv hI).2, (C06_addTicks v _ hv hI).1, C06_subtractSpan v _ hv hI]
  exact ⟨rfl, rfl⟩

/-- Noon UTC on 1970-01-01, and an hour later. -/
def exNoon : Tm := ⟨70, 0, 1, 12, 0, 0⟩
def exOne : Tm := ⟨70, 0, 1, 13, 0, 0⟩
theorem exValid : ValidDate 1970 1 1 ∧ ValidDate 1970 1 2 ∧ (dayNumber 1970 1 2 : Int) = 719163 := by decide +kernel
example : Breaks 43200 exNoon ∧ Breaks (43200 + 3600) exOne ∧ toLocal exNoon exOne 0 = .ok 36000000000 := by
  refine ⟨⟨exValid.1, ?_⟩, ⟨exValid.1, ?_⟩, by decide +kernel⟩
  · unfold exNoon; simp only [show ((70 : Int) + 1900) = 1970 by decide, show ((0 : Int) + 1) = 1 by decide]; omega
  · unfold exOne; simp only [show ((70 : Int) + 1900) = 1970 by decide, show ((0 : Int) + 1) = 1 by decide]; omega

/-- **C146**, round trip: at one instant `ToUniversalTime` takes back what `ToLocalTime` did, and the reverse, in every zone. -/
theorem C146_round_trip (t s : Int) (u l : Tm) (hu : Breaks t u) (hl : Breaks s l) (v x : Int) (hv : InRange v) :
    (toLocal u l v = .ok x → toUniversal u l x = .ok v) ∧ (toUniversal u l v = .ok x → toLocal u l x = .ok v) := by
  obtain ⟨_, a1, a2, _⟩ := hu
  obtain ⟨_, b1, b2, _⟩ := hl
  unfold toLocal toUniversal
  rw [timeZone_eq u l (by omega) (by omega), Res.bind_ok, Res.bind_ok]
  have hI : I64 ((l.hour - u.hour) * 36000000000) := by unfold I64; omega
  generalize (l.hour - u.hour) * 36000000000 = z at *
  simp only [Res.bind_ok]
  constructor
  · intro h; exact C06_add_subtract v z x hv hI h
  · intro h
    rw [C06_subtractSpan v z hv hI] at h
    by_cases c : InRange (v - z)
    · rw [if_pos c, Res.ok.injEq] at h
      subst h
      rw [(C06_addTicks _ z c hI).2, (C06_addTicks _ z c hI).1, show v - z + z = v by omega, if_pos hv]
    · rw [if_neg c] at h; cases h

/-- **C146**, the rest refuted: an hour before midnight in a zone one hour ahead of UTC the conversion goes 23 hours back instead of one forward; half an hour of India's offset is lost;
near the end of the calendar .NET gives the last moment, here an exception is thrown. -/
theorem C146_refuted :
    (Breaks 82800 ⟨70, 0, 1, 23, 0, 0⟩ ∧ Breaks (82800 + 3600) ⟨70, 0, 2, 0, 0, 0⟩ ∧
      ∀ v, InRange v → InRange (v - 23 * 36000000000) → toLocal ⟨70, 0, 1, 23, 0, 0⟩ ⟨70, 0, 2, 0, 0, 0⟩ v = .ok (v - 23 * 36000000000)) ∧
    (Breaks 0 ⟨70, 0, 1, 0, 0, 0⟩ ∧ Breaks (0 + 19800) ⟨70, 0, 1, 5, 30, 0⟩ ∧
      ∀ v, InRange v → InRange (v + 5 * 36000000000) → toLocal ⟨70, 0, 1, 0, 0, 0⟩ ⟨70, 0, 1, 5, 30, 0⟩ v = .ok (v + 5 * 36000000000)) ∧
    toLocal exNoon exOne 3155378975999999999 = .throw .argumentOutOfRange := by
  have h0 := exValid
  have h1 := epoch_eq.1
  refine ⟨⟨⟨h0.1, ?_⟩, ⟨h0.2.1, ?_⟩, ?_⟩, ⟨⟨h0.1, ?_⟩, ⟨h0.1, ?_⟩, ?_⟩, by decide +kernel⟩
  · simp only [show ((70 : Int) + 1900) = 1970 by decide, show ((0 : Int) + 1) = 1 by decide]; omega
  · simp only [show ((70 : Int) + 1900) = 1970 by decide, show ((0 : Int) + 1) = 1 by decide]; rw [h0.2.2, h1]; decide
  · intro v hv hr
    unfold toLocal
    rw [timeZone_eq _ _ (by decide) (by decide), Res.bind_ok, (C06_addTicks v _ hv (by unfold I64; decide)).2, (C06_addTicks v _ hv (by unfold I64; decide)).1]
    rw [show v + (0 - 23) * 36000000000 = v - 23 * 36000000000 by omega, if_pos hr]
  · simp only [show ((70 : Int) + 1900) = 1970 by decide, show ((0 : Int) + 1) = 1 by decide]; omega
  · simp only [show ((70 : Int) + 1900) = 1970 by decide, show ((0 : Int) + 1) = 1 by decide]; omega
  · intro v hv hr
    unfold toLocal
    rw [timeZone_eq _ _ (by decide) (by decide), Res.bind_ok, (C06_addTicks v _ hv (by unfold I64; decide)).2, (C06_addTicks v _ hv (by unfold I64; decide)).1]
    rw [show v + (5 - 0) * 36000000000 = v + 5 * 36000000000 by omega, if_pos hr]

end Verif.Clock
