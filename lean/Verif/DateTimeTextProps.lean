import Verif.DateTimeTextModel
import Verif.DateTimeProps
import Verif.TimeSpanProps
import Verif.TextLemmas
/-!
# C10, C11: DateTime text and zone conversion
-/
namespace Verif.DateTime
open Verif.Calendar

/-- A run of digits is determined by a text in which a non-digit follows it. -/
theorem digits_split {a b : WStr} {x y : Nat} {r s : WStr} (ha : ∀ c ∈ a, isDigit c = true)
    (hb : ∀ c ∈ b, isDigit c = true) (hx : isDigit x = false) (hy : isDigit y = false)
    (h : a ++ x :: r = b ++ y :: s) : a = b ∧ x = y ∧ r = s := by
  induction a generalizing b with
  | nil =>
    cases b with
    | nil => simpa using h
    | cons c b =>
      exfalso
      rw [List.nil_append, List.cons_append, List.cons.injEq] at h
      rw [h.1, hb c (by simp)] at hx; cases hx
  | cons c a ih =>
    cases b with
    | nil =>
      exfalso
      rw [List.nil_append, List.cons_append, List.cons.injEq] at h
      rw [← h.1, ha c (by simp)] at hy; cases hy
    | cons d b =>
      rw [List.cons_append, List.cons_append, List.cons.injEq] at h
      have := ih (b := b) (fun z hz => ha z (by simp [hz])) (fun z hz => hb z (by simp [hz])) h.2
      exact ⟨by rw [h.1, this.1], this.2⟩

theorem decInt_digits {x : Int} (h : 0 ≤ x) : ∀ c ∈ decInt x, isDigit c = true := by
  unfold decInt; rw [if_neg (by omega)]; exact dec_digits _

theorem decInt_inj {x y : Int} (hx : 0 ≤ x) (hy : 0 ≤ y) (h : decInt x = decInt y) : x = y := by
  unfold decInt at h; rw [if_neg (by omega), if_neg (by omega)] at h
  have := dec_inj h; omega

theorem dec2_digits (n : Nat) : ∀ c ∈ dec2 n, isDigit c = true := by
  unfold dec2
  split
  · intro c hc
    rcases List.mem_cons.mp hc with rfl | h
    · decide
    · exact dec_digits _ _ h
  · exact dec_digits _

theorem dec2_numeral (n : Nat) : numeral (dec2 n) = n := by
  unfold dec2
  split
  · have : numeral (48 :: dec n) = numeral (dec n) := by simp [numeral]
    rw [this, numeral_dec]
  · exact numeral_dec n

theorem dec2_inj {a b : Nat} (h : dec2 a = dec2 b) : a = b := by
  rw [← dec2_numeral a, h, dec2_numeral]

/-- The shape of the text: the fields that `ToString` prints. -/
def Shown (t : Int) (s : WStr) (y m d h mi sec : Int) : Prop :=
  getYear t = .ok y ∧ getMonth t = .ok m ∧ getDay t = .ok d ∧ ValidDate y m d ∧
  (dayNumber y m d : Int) = t / ticksPerDay ∧
  h = getHour t ∧ mi = getMinute t ∧ sec = getSecond t ∧ 0 ≤ h ∧ h < 24 ∧ 0 ≤ mi ∧ mi < 60 ∧ 0 ≤ sec ∧ sec < 60 ∧
  s = decInt m ++ 47 :: (decInt d ++ 47 :: (decInt y ++ 32 :: (decInt (if h > 12 then h - 12 else h) ++
    58 :: (dec2 mi.toNat ++ 58 :: (dec2 sec.toNat ++ 32 :: (if h > 12 then [80, 77] else [65, 77]))))))

/-- C10 (shape): `ToString` never fails on an in-range value, and prints month/day/year, hour, minute and second,
with the hours 13..23 shown as 1..11 PM and the hours 0..12 as 0..12 AM. -/
theorem C10_shape (t : Int) (ht : InRange t) :
    ∃ s y m d h mi sec, toString t = .ok s ∧ Shown t s y m d h mi sec := by
  obtain ⟨y, m, d, hy, hm, hd, hv, hn, ⟨t1, t2, t3, t4, t5, t6, _⟩, _⟩ := C03_decompose t ht
  refine ⟨_, y, m, d, getHour t, getMinute t, getSecond t, ?_, hy, hm, hd, hv, hn, rfl, rfl, rfl, t1, by omega, t3,
    by omega, t5, by omega, rfl⟩
  unfold toString
  rw [hm, hd, hy]
  simp

theorem clock_of_ticks (t : Int) (ht : InRange t) :
    t / 10000000 = (t / ticksPerDay) * 86400 + getHour t * 3600 + getMinute t * 60 + getSecond t := by
  have hr := (inRange_iff t).mp ht
  have e1 : getHour t = t / 36000000000 % 24 := by
    unfold getHour TicksPerHour; rw [wrapI32_of]; unfold I32; omega
  have e2 : getMinute t = t / 600000000 % 60 := by
    unfold getMinute TicksPerMinute; rw [wrapI32_of]; unfold I32; omega
  have e3 : getSecond t = t / 10000000 % 60 := by
    unfold getSecond TicksPerSecond; rw [wrapI32_of]; unfold I32; omega
  rw [e1, e2, e3, tpd_eq]
  omega

/-- C10: two in-range values print alike exactly when they agree to the second. -/
theorem C10_identifies_second (a b : Int) (ha : InRange a) (hb : InRange b) :
    toString a = toString b ↔ a / 10000000 = b / 10000000 := by
  obtain ⟨s, y, m, d, h, mi, sec, es, gy, gm, gd, hv, hn, eh, em, esec, h0, h1, h2, h3, h4, h5, hs⟩ := C10_shape a ha
  obtain ⟨s', y', m', d', h', mi', sec', es', gy', gm', gd', hv', hn', eh', em', esec', h0', h1', h2', h3', h4', h5', hs'⟩ :=
    C10_shape b hb
  have ca := clock_of_ticks a ha
  have cb := clock_of_ticks b hb
  rw [← hn, ← eh, ← em, ← esec] at ca
  rw [← hn', ← eh', ← em', ← esec'] at cb
  obtain ⟨v1, v2, v3, v4, v5, v6⟩ := hv
  obtain ⟨v1', v2', v3', v4', v5', v6'⟩ := hv'
  constructor
  · intro e
    rw [es, es', Res.ok.injEq, hs, hs'] at e
    have d47 : isDigit 47 = false := by decide
    have d32 : isDigit 32 = false := by decide
    have d58 : isDigit 58 = false := by decide
    have hp : 0 ≤ (if h > 12 then h - 12 else h) := by split <;> omega
    have hp' : 0 ≤ (if h' > 12 then h' - 12 else h') := by split <;> omega
    obtain ⟨e1, -, e⟩ := digits_split (decInt_digits (by omega)) (decInt_digits (by omega)) d47 d47 e
    obtain ⟨e2, -, e⟩ := digits_split (decInt_digits (by omega)) (decInt_digits (by omega)) d47 d47 e
    obtain ⟨e3, -, e⟩ := digits_split (decInt_digits (by omega)) (decInt_digits (by omega)) d32 d32 e
    obtain ⟨e4, -, e⟩ := digits_split (decInt_digits hp) (decInt_digits hp') d58 d58 e
    obtain ⟨e5, -, e⟩ := digits_split (dec2_digits _) (dec2_digits _) d58 d58 e
    obtain ⟨e6, -, eampm⟩ := digits_split (dec2_digits _) (dec2_digits _) d32 d32 e
    have e1 := decInt_inj (by omega) (by omega) e1
    have e2 := decInt_inj (by omega) (by omega) e2
    have e3 := decInt_inj (by omega) (by omega) e3
    have e4 := decInt_inj hp hp' e4
    have e5 := dec2_inj e5
    have e6 := dec2_inj e6
    subst e1 e2 e3
    have e7 : h = h' := by
      by_cases c1 : h > 12 <;> by_cases c2 : h' > 12
      · rw [if_pos c1, if_pos c2] at e4; omega
      · rw [if_pos c1, if_neg c2] at eampm; exact absurd eampm (by decide)
      · rw [if_neg c1, if_pos c2] at eampm; exact absurd eampm (by decide)
      · rw [if_neg c1, if_neg c2] at e4; omega
    rw [ca, cb]; omega
  · intro e
    have hday : a / ticksPerDay = b / ticksPerDay := by
      rw [tpd_eq]
      have := ha.1
      have := hb.1
      omega
    obtain ⟨r1, r2, r3⟩ := dayNumber_inj ⟨v1, v2, v3, v4, v5, v6⟩ ⟨v1', v2', v3', v4', v5', v6'⟩ (by omega)
    subst r1 r2 r3
    have q1 : h = h' := by omega
    have q2 : mi = mi' := by omega
    have q3 : sec = sec' := by omega
    subst q1 q2 q3
    rw [es, es', hs, hs']

example : InRange 630822816000000000 ∧ toString 630822816000000000 = .ok (w "1/1/2000 0:00:00 AM") := by
  refine ⟨by rw [inRange_iff]; decide +kernel, by decide +kernel⟩

/-- C10 (12-hour clock) is violated: noon is printed as 12 AM and midnight as 0 AM. -/
theorem C10_refuted :
    toString 630823248000000000 = .ok (w "1/1/2000 12:00:00 AM") ∧ getHour 630823248000000000 = 12 ∧
    toString 630822816000000000 = .ok (w "1/1/2000 0:00:00 AM") ∧ getHour 630822816000000000 = 0 := by
  decide +kernel

theorem getTimeZone_eq (c : Clock) :
    getTimeZone c = .ok ((c.lcHour - c.gmHour) * 36000000000) ∧ I64 ((c.lcHour - c.gmHour) * 36000000000) := by
  have h1 : 0 ≤ c.lcHour ∧ c.lcHour < 24 := by unfold Clock.lcHour; omega
  have h2 : 0 ≤ c.gmHour ∧ c.gmHour < 24 := by unfold Clock.gmHour; omega
  unfold getTimeZone
  rw [TimeSpan.C13_ofHms _ _ _ (by unfold I32; omega) (by decide) (by decide), if_pos (by unfold I64; omega)]
  refine ⟨?_, by unfold I64; omega⟩
  rw [Res.ok.injEq]; omega

/-- C11 (inverse): for every clock reading and zone, converting to local time and back gives the same instant
whenever the first conversion does not throw, and vice versa. -/
theorem C11_local_universal_inverse (c : Clock) (t u : Int) (ht : InRange t) :
    (toLocalTime c t = .ok u → toUniversalTime c u = .ok t) ∧
    (toUniversalTime c t = .ok u → toLocalTime c u = .ok t) := by
  obtain ⟨e, hi⟩ := getTimeZone_eq c
  unfold toLocalTime toUniversalTime
  rw [e]
  simp only [Res.bind_ok]
  generalize (c.lcHour - c.gmHour) * 36000000000 = z at *
  constructor
  · intro h; exact C06_add_subtract t z u ht hi h
  · intro h
    rw [C06_subtractSpan t z ht hi] at h
    by_cases hr : InRange (t - z)
    · rw [if_pos hr, Res.ok.injEq] at h
      subst h
      rw [(C06_addTicks _ z hr hi).2, (C06_addTicks _ z hr hi).1, show t - z + z = t by omega, if_pos ht]
    · rw [if_neg hr] at h; cases h

example : toLocalTime ⟨1700000000, -18000⟩ 630822816000000000 = .ok 630822636000000000 := by decide +kernel

/-- C11 (offset, partial): when the zone is a whole number of hours from UTC and the local and UTC clocks show the
same day, the offset used is the true one. Missing: other zones and times of day (`C11_refuted`). -/
theorem C11_offset_partial (c : Clock) (k : Int) (hk : c.offset = 3600 * k)
    (hday : 0 ≤ c.gmHour + k ∧ c.gmHour + k < 24) (t u : Int) (ht : InRange t) (h : toLocalTime c t = .ok u) :
    u = t + c.offset * 10000000 := by
  obtain ⟨e, hi⟩ := getTimeZone_eq c
  have hz : c.lcHour - c.gmHour = k := by
    unfold Clock.lcHour Clock.gmHour at *; rw [hk]; omega
  unfold toLocalTime at h
  rw [e] at h
  simp only [Res.bind_ok] at h
  rw [hz] at h hi
  rw [(C06_addTicks t _ ht hi).2, (C06_addTicks t _ ht hi).1] at h
  by_cases hr : InRange (t + k * 36000000000)
  · rw [if_pos hr, Res.ok.injEq] at h; rw [← h, hk]; omega
  · rw [if_neg hr] at h; cases h

example : (⟨1700000000, -18000⟩ : Clock).gmHour = 22 := by decide

/-- C11 (offset) is violated: at 20:00 UTC a zone ten hours ahead is treated as fourteen hours behind, and the half
hour of a half-hour zone is lost. -/
theorem C11_refuted :
    toLocalTime ⟨72000, 36000⟩ 630822816000000000 = .ok (630822816000000000 - 14 * 36000000000) ∧
    toLocalTime ⟨0, 19800⟩ 630822816000000000 = .ok (630822816000000000 + 5 * 36000000000) := by
  decide +kernel

end Verif.DateTime
