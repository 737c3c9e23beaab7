import Verif.DateFormat
import Verif.TimeSpanTextProps
set_option linter.unusedSimpArgs false
/-!
# C202: what TimeSpan's FormatString does with every buffer and every stated size

New here: `FormatString` of TimeSpan with its buffers and its builder (TimeSpanModel has only the text).
-/
namespace Verif.SBModel
open SBSpec StrModel StrProps

/-- TimeSpanValue.cpp lines 182 and 187-189: what `swprintf` printed goes to the builder; `next` is what follows, given the number it returned. -/
def appendPrinted (s : SB) (r : Res (List Nat × Int)) (next : SB → Int → Out) : Out :=
  match r with
  | .ok (m, n) => (appendRaw s m n (-1)).andThen fun s => next s n
  | .throw e => .threw e s
  | .ub => .ub

/-- TimeSpanValue.cpp lines 156-190, the builder: the sign, the text printed to `date[32]`, and, unless `fractional` is 0, a point, its numeral printed to `frac[32]` and zeros up to seven places. `stack1`, `stack2` are what the two
buffers hold before, `over` what they hold if a text does not fit. -/
def spanBuild (neg : Bool) (date : WStr) (fractional : Int) (over stack1 stack2 : List Nat) : Out :=
  (if neg then appendChar initial 45 1 else .done initial).andThen fun s =>
  appendPrinted s (swprintf date over stack1 32) fun s _ =>
  if fractional ≠ 0 then
    (appendChar s 46 1).andThen fun s =>
    appendPrinted s (intFormat fractional over stack2 32) fun s n => appendChar s 48 (7 - n)
  else .done s

/-- TimeSpanValue.cpp lines 155-192: `FormatString` (not the MinGW branch). -/
def spanFormat (v : Int) (over stack1 stack2 mem : List Nat) (whereSize : Int) : Res (List Nat × Int) :=
  let day := wrapI32 (v.tdiv TimeSpan.TicksPerDay)
  let time := v.tmod TimeSpan.TicksPerDay
  let day := if v < 0 then -day else day
  let time := if v < 0 then -time else time
  let hours := (time.tdiv TimeSpan.TicksPerHour).tmod 24
  let min := (time.tdiv TimeSpan.TicksPerMinute).tmod 60
  let sec := (time.tdiv TimeSpan.TicksPerSecond).tmod 60
  let fractional := time.tmod TimeSpan.TicksPerSecond
  let clock := dec2 hours.toNat ++ 58 :: dec2 min.toNat ++ 58 :: dec2 sec.toNat
  let date := if day ≠ 0 then decInt day ++ 46 :: clock else clock
  match spanBuild (decide (v < 0)) date fractional over stack1 stack2 with
  | .done s => sbFormat s mem whereSize
  | .threw e _ => .throw e
  | .ub => .ub

/-! ## Proof -/

theorem add_char {s : SB} (h : Inv s) (hm : s.maxCap = 2147483647) (c n : Nat) (hl : s.len + n ≤ 128) :
    ∃ s', appendChar s c n = .done s' ∧ Inv s' ∧ s'.maxCap = 2147483647 ∧ s'.len = s.len + n ∧ content s' = content s ++ List.replicate n c := by
  rcases appendChar_spec (c := c) (n := n) h (.inr (.inr ⟨by omega, by unfold limit; omega⟩)) with ⟨_, hx⟩ | ⟨t, h1, _, h2, _, _, _, h3, h4, h5, _⟩
  · omega
  · exact ⟨t, h1, h3, h4.trans hm, by omega, h5⟩

theorem printed_ok {s : SB} (h : Inv s) (hm : s.maxCap = 2147483647) {t over stack : WStr} (ht : t.length < 32) (hs : stack.length = 32) (hl : s.len + t.length ≤ 128) (next : SB → Int → Out) :
    ∃ s', appendPrinted s (swprintf t over stack 32) next = next s' t.length ∧ Inv s' ∧ s'.maxCap = 2147483647 ∧ s'.len = s.len + t.length ∧ content s' = content s ++ t := by
  obtain ⟨s1, b1, b2, b3, b4, b5⟩ := add_text h hm (m := t ++ 0 :: stack.drop (t.length + 1)) (n := t.length) (by simp) (by omega)
  refine ⟨s1, ?_, b2, b3, b4, by rw [b5, List.take_left' rfl]⟩
  unfold appendPrinted swprintf
  rw [if_neg (by omega), if_pos (by omega)]
  simp only []
  rw [b1, andThen_done]

theorem spanBuild_ok (neg : Bool) (date : WStr) (f : Nat) (over stack1 stack2 : List Nat) (hd : date.length < 32) (hf : (dec f).length ≤ 7) (h1 : stack1.length = 32) (h2 : stack2.length = 32) :
    ∃ s, spanBuild neg date f over stack1 stack2 = .done s ∧ Inv s ∧
      content s = (if neg then [45] else []) ++ date ++ (if f ≠ 0 then 46 :: (dec f ++ List.replicate (7 - (dec f).length) 48) else []) := by
  obtain ⟨e1, e2, e3⟩ := initial_facts
  have first : ∃ s, (if neg then appendChar initial 45 1 else Out.done initial) = .done s ∧ Inv s ∧ s.maxCap = 2147483647 ∧ s.len ≤ 1 ∧ content s = if neg then [45] else [] := by
    cases neg with
    | false => exact ⟨initial, rfl, SBProps.inv_initial', e3, by rw [e2]; omega, by rw [e1]; rfl⟩
    | true =>
      obtain ⟨s, a1, a2, a3, a4, a5⟩ := add_char SBProps.inv_initial' e3 45 1 (by rw [e2]; omega)
      exact ⟨s, a1, a2, a3, by omega, by rw [a5, e1]; rfl⟩
  obtain ⟨s, a1, a2, a3, a4, a5⟩ := first
  unfold spanBuild
  rw [a1, andThen_done]
  obtain ⟨s1, b1, b2, b3, b4, b5⟩ := printed_ok a2 a3 (t := date) (over := over) hd h1 (by omega) (fun s _ =>
    if (f : Int) ≠ 0 then
      (appendChar s 46 1).andThen fun s =>
      appendPrinted s (intFormat (f : Int) over stack2 32) fun s n => appendChar s 48 (7 - n)
    else .done s)
  rw [b1]
  by_cases h0 : f = 0
  · rw [if_neg (show ¬ ((f : Int) ≠ 0) by omega), if_neg (show ¬ (f ≠ 0) by omega)]
    exact ⟨s1, rfl, b2, by rw [b5, a5]; simp⟩
  rw [if_pos (show (f : Int) ≠ 0 by omega), if_pos (show f ≠ 0 by omega)]
  obtain ⟨s2, c1, c2, c3, c4, c5⟩ := add_char b2 b3 46 1 (by omega)
  have c1' : appendChar s1 46 1 = .done s2 := c1
  rw [c1', andThen_done]
  have di : decInt (f : Int) = dec f := by unfold decInt; rw [if_neg (by omega), Int.toNat_natCast]
  unfold intFormat
  rw [di]
  obtain ⟨s3, d1, d2, d3, d4, d5⟩ := printed_ok c2 c3 (t := dec f) (over := over) (by omega) h2 (by omega) (fun s n => appendChar s 48 (7 - n))
  rw [d1]
  obtain ⟨s4, g1, g2, g3, g4, g5⟩ := add_char d2 d3 48 (7 - (dec f).length) (by omega)
  refine ⟨s4, ?_, g2, ?_⟩
  · have : (7 : Int) - ((dec f).length : Int) = ((7 - (dec f).length : Nat) : Int) := by omega
    simp only [this]
    exact g1
  · rw [g5, d5, c5, b5, a5]; simp

/-! ## C202 -/

/-- **C202**: for every TimeSpan, buffer and stated size, with `text` what its ToString returns: a stated size below the length throws IndexOutOfRangeException; otherwise text and NUL are written and the length reported, undefined
exactly if the memory does not hold both. -/
theorem C202_timespan_exact (v : Int) (hv : I64 v) (over stack1 stack2 mem : List Nat) (hs1 : stack1.length = 32) (hs2 : stack2.length = 32) (size : Int) :
    spanFormat v over stack1 stack2 mem size =
      if size < (TimeSpan.toString v).length then .throw .indexOutOfRange
      else if mem.length ≤ (TimeSpan.toString v).length then .ub
      else .ok (written (TimeSpan.toString v) mem, ((TimeSpan.toString v).length : Int)) := by
  have hte := TimeSpan.toString_eq v hv
  unfold I64 at hv
  have hA : v.natAbs ≤ 9223372036854775808 := by omega
  have hd : (if v < 0 then -wrapI32 (v.tdiv 864000000000) else wrapI32 (v.tdiv 864000000000))
      = ((v.natAbs / 864000000000 : Nat) : Int) := by
    rw [tdiv_split, wrapI32_of (by unfold I32; split <;> omega)]
    split <;> split <;> omega
  have ht : (if v < 0 then -(v.tmod 864000000000) else v.tmod 864000000000)
      = ((v.natAbs % 864000000000 : Nat) : Int) := by
    rw [tmod_split]
    split <;> split <;> omega
  have nn : ∀ x k : Nat, ((x : Int).tdiv (k : Int)) = ((x / k : Nat) : Int) := by
    intro x k; rw [Int.tdiv_eq_ediv_of_nonneg (by omega)]; rfl
  have nm : ∀ x k : Nat, ((x : Int).tmod (k : Int)) = ((x % k : Nat) : Int) := by
    intro x k; rw [Int.tmod_eq_emod_of_nonneg (by omega)]; rfl
  unfold spanFormat TimeSpan.TicksPerDay TimeSpan.TicksPerHour TimeSpan.TicksPerMinute TimeSpan.TicksPerSecond
  simp only []
  rw [hd, ht]
  have h1 : ((((v.natAbs % 864000000000 : Nat) : Int).tdiv 36000000000).tmod 24).toNat
      = v.natAbs / 36000000000 % 24 := by
    rw [show (36000000000 : Int) = ((36000000000 : Nat) : Int) from rfl, nn,
      show (24 : Int) = ((24 : Nat) : Int) from rfl, nm, Int.toNat_natCast]; omega
  have h2 : ((((v.natAbs % 864000000000 : Nat) : Int).tdiv 600000000).tmod 60).toNat
      = v.natAbs / 600000000 % 60 := by
    rw [show (600000000 : Int) = ((600000000 : Nat) : Int) from rfl, nn,
      show (60 : Int) = ((60 : Nat) : Int) from rfl, nm, Int.toNat_natCast]; omega
  have h3 : ((((v.natAbs % 864000000000 : Nat) : Int).tdiv 10000000).tmod 60).toNat
      = v.natAbs / 10000000 % 60 := by
    rw [show (10000000 : Int) = ((10000000 : Nat) : Int) from rfl, nn,
      show (60 : Int) = ((60 : Nat) : Int) from rfl, nm, Int.toNat_natCast]; omega
  have h4 : (((v.natAbs % 864000000000 : Nat) : Int).tmod 10000000) = ((v.natAbs % 10000000 : Nat) : Int) := by
    rw [show (10000000 : Int) = ((10000000 : Nat) : Int) from rfl, nm]; congr 1; omega
  have di : ∀ n : Nat, decInt (n : Int) = dec n := by
    intro n; unfold decInt; rw [if_neg (by omega), Int.toNat_natCast]
  rw [h1, h2, h3, h4, di]
  simp only [] at hte
  have k1 := dec2_short (n := v.natAbs / 36000000000 % 24) (by omega)
  have k2 := dec2_short (n := v.natAbs / 600000000 % 60) (by omega)
  have k3 := dec2_short (n := v.natAbs / 10000000 % 60) (by omega)
  have k4 := FloatText.dec_length 7 (v.natAbs / 864000000000) (by omega)
  have k5 := FloatText.dec_length 6 (v.natAbs % 10000000) (by omega)
  have hz : (((v.natAbs / 864000000000 : Nat) : Int) ≠ 0) ↔ v.natAbs / 864000000000 ≠ 0 := by omega
  simp only [hz]
  obtain ⟨s, p1, p2, p3⟩ := spanBuild_ok (decide (v < 0)) (if v.natAbs / 864000000000 ≠ 0 then dec (v.natAbs / 864000000000) ++
      46 :: (dec2 (v.natAbs / 36000000000 % 24) ++ 58 :: dec2 (v.natAbs / 600000000 % 60) ++ 58 :: dec2 (v.natAbs / 10000000 % 60))
      else dec2 (v.natAbs / 36000000000 % 24) ++ 58 :: dec2 (v.natAbs / 600000000 % 60) ++ 58 :: dec2 (v.natAbs / 10000000 % 60))
    (v.natAbs % 10000000) over stack1 stack2 (by split <;> simp only [List.length_append, List.length_cons] <;> omega) (by omega) hs1 hs2
  have hc : content s = TimeSpan.toString v := by rw [p3, hte]; simp only [decide_eq_true_eq]
  have hll := p2.len_le
  have hlen : s.len = (TimeSpan.toString v).length := by rw [← hc]; unfold content; simp; omega
  rw [p1]
  simp only []
  unfold sbFormat
  rw [hlen]
  rw [refusing_of (v := TimeSpan.toString v) (src := s.buf) (by rw [← hlen]; exact hc) (by omega)]
  rfl

/-- The longest text, and one of 16 characters with sizes 15, 16 and 17. -/
example : I64 (-9223372036854775808) ∧ TimeSpan.toString (-9223372036854775808) = w "-10675199.02:48:05.4775808" ∧
    spanFormat 15000000 [] (List.replicate 32 7) (List.replicate 32 7) (List.replicate 20 9) 15 = .throw .indexOutOfRange ∧
    spanFormat 15000000 [] (List.replicate 32 7) (List.replicate 32 7) (List.replicate 16 9) 16 = .ub ∧
    spanFormat 15000000 [] (List.replicate 32 7) (List.replicate 32 7) (List.replicate 17 9) 17 = .ok (w "00:00:01.5000000" ++ [0], 16) :=
  ⟨by unfold I64; decide, by decide +kernel, by decide +kernel, by decide +kernel, by decide +kernel⟩

end Verif.SBModel
