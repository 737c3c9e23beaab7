import Verif.ValueAppend
import Verif.DateTimeTextProps
set_option linter.unusedSimpArgs false
/-!
# C201: what DateTime's FormatString does with every buffer and every stated size

New here: `FormatString` of DateTime with its buffers and its builder (DateTimeTextModel has only the text). The size the caller states for his own buffer is also used for the 128 cells on the stack.
-/
namespace Verif.SBModel
open SBSpec StrModel StrProps

/-- DateTimeValue.cpp lines 280-284: the text of `swprintf(dateTime, whereSize, L"%d/%d/%d %d:%02d:%02d ", ...)`; `hour` is the shown one. -/
def dateHead (month day year hour minute second : Int) : WStr :=
  decInt month ++ 47 :: decInt day ++ 47 :: decInt year ++ 32 :: decInt hour ++ 58 :: dec2 minute.toNat ++ 58 :: dec2 second.toNat ++ [32]

/-- DateTimeValue.cpp lines 266-291: `FormatString` (not the MinGW branch). `stack` is what the 128 cells of `dateTime` hold before, `over` what they hold when the text does not fit the stated size. -/
def dateFormat (v : Int) (over stack mem : List Nat) (whereSize : Int) : Res (List Nat × Int) := do
  let month ← DateTime.getMonth v
  let day ← DateTime.getDay v
  let year ← DateTime.getYear v
  let hour := DateTime.getHour v
  let isPm : Bool := hour > 12
  let shown := if hour > 12 then hour - 12 else hour
  let r ← swprintf (dateHead month day year shown (DateTime.getMinute v) (DateTime.getSecond v)) over stack whereSize
  match (appendRaw initial r.1 r.2 (-1)).andThen fun s => appendRaw s ((if isPm then w "PM" else w "AM") ++ [0]) 2 (-1) with
  | .done s => sbFormat s mem whereSize
  | .threw e _ => .throw e
  | .ub => .ub

/-! ## Proof -/

theorem add_text {s : SB} (h : Inv s) (hm : s.maxCap = 2147483647) {m : WStr} {n : Nat} (hn : n ≤ m.length) (hl : (s.len : Int) + n ≤ 2147483520) :
    ∃ s', appendRaw s m n (-1) = .done s' ∧ Inv s' ∧ s'.maxCap = 2147483647 ∧ s'.len = s.len + n ∧ content s' = content s ++ m.take n := by
  have ht : (m.take n).length = n := by rw [List.length_take]; omega
  obtain ⟨s1, h1, i1, c1, l1, m1, _⟩ := appendStr_ok (v := m.take n) h (by rw [ht]; unfold limit; omega) hm
  refine ⟨s1, ?_, i1, m1, by omega, c1⟩
  have e : appendRaw s m n (-1) = appendObj s (some (m.take n)) := by
    rw [appendRaw_take (by omega) (by omega), appendObj_text, show ((n : Nat) : Int).toNat = n by omega]
  rw [e]
  exact h1

theorem dec2_short {n : Nat} (h : n < 100) : (dec2 n).length ≤ 3 := by
  have := FloatText.dec_length 1 n (by omega)
  unfold dec2
  split <;> simp <;> omega

theorem int_short {x : Int} (h0 : 0 ≤ x) (h1 : x ≤ 9999) : (decInt x).length ≤ 20 :=
  decInt_short (ty := .int32) (by unfold IntVal.InTy IntVal.Ty.min IntVal.Ty.max; simp only []; omega)

theorem month_short (y m : Nat) : Calendar.monthLen y m ≤ 31 := by
  unfold Calendar.monthLen
  repeat' split
  all_goals omega

/-! ## C201 -/

/-- **C201**: for every DateTime, buffer and stated size, with `text` what its ToString returns: a stated size from 0 to two below the length throws ArgumentOutOfRangeException, one below the length and every negative one
IndexOutOfRangeException; otherwise text and NUL are written and the length reported, undefined exactly if the memory does not hold both. -/
theorem C201_datetime_exact (t : Int) (ht : Calendar.InRange t) (over stack mem : List Nat) (hs : stack.length = 128) (size : Int) :
    ∃ text, DateTime.toString t = .ok text ∧ text.length < 128 ∧
      dateFormat t over stack mem size =
        if 0 ≤ size ∧ size ≤ text.length - 2 then .throw .argumentOutOfRange
        else if size < text.length then .throw .indexOutOfRange
        else if mem.length ≤ text.length then .ub
        else .ok (written text mem, (text.length : Int)) := by
  obtain ⟨text, y, m, d, h, mi, sec, htx, hy, hm, hd, hv, _, rfl, rfl, rfl, t1, t2, t3, t4, t5, t6, rfl⟩ := DateTime.C10_shape t ht
  refine ⟨_, htx, ?_⟩
  obtain ⟨v1, v2, v3, v4, v5, v6⟩ := hv
  have v7 := month_short y.toNat m.toNat
  have hh : ∃ hd, hd = dateHead m d y (if DateTime.getHour t > 12 then DateTime.getHour t - 12 else DateTime.getHour t) (DateTime.getMinute t) (DateTime.getSecond t) := ⟨_, rfl⟩
  obtain ⟨head, hhead⟩ := hh
  have hlen : head.length ≤ 100 := by
    have a1 := int_short (x := m) (by omega) (by omega)
    have a2 := int_short (x := d) (by omega) (by omega)
    have a3 := int_short (x := y) (by omega) (by omega)
    have a4 := int_short (x := if DateTime.getHour t > 12 then DateTime.getHour t - 12 else DateTime.getHour t) (by split <;> omega) (by split <;> omega)
    have a5 := dec2_short (n := (DateTime.getMinute t).toNat) (by omega)
    have a6 := dec2_short (n := (DateTime.getSecond t).toNat) (by omega)
    rw [hhead]
    unfold dateHead
    simp only [List.length_append, List.length_cons, List.length_nil]
    omega
  have ap : ∃ a : WStr, a = (if DateTime.getHour t > 12 then [80, 77] else [65, 77]) ∧ a = (if decide (DateTime.getHour t > 12) = true then w "PM" else w "AM") ∧ a.length = 2 := by
    by_cases h12 : DateTime.getHour t > 12
    · exact ⟨[80, 77], by rw [if_pos h12], by rw [if_pos (by simpa using h12)]; decide, rfl⟩
    · exact ⟨[65, 77], by rw [if_neg h12], by rw [if_neg (by simpa using h12)]; decide, rfl⟩
  obtain ⟨a, ha1, ha2, ha3⟩ := ap
  have htext : decInt m ++ 47 :: (decInt d ++ 47 :: (decInt y ++ 32 :: (decInt (if DateTime.getHour t > 12 then DateTime.getHour t - 12 else DateTime.getHour t) ++
    58 :: (dec2 (DateTime.getMinute t).toNat ++ 58 :: (dec2 (DateTime.getSecond t).toNat ++ 32 :: (if DateTime.getHour t > 12 then [80, 77] else [65, 77])))))) = head ++ a := by
    rw [hhead, ← ha1]; unfold dateHead; simp
  rw [htext]
  have hl2 : (head ++ a).length = head.length + 2 := by rw [List.length_append, ha3]
  refine ⟨by omega, ?_⟩
  unfold dateFormat
  rw [hm, hd, hy]
  simp only [Res.bind_ok, ← hhead, ← ha2]
  show (swprintf head over stack size >>= fun r => match (appendRaw initial r.1 r.2 (-1)).andThen fun s => appendRaw s (a ++ [0]) 2 (-1) with
    | .done s => sbFormat s mem size
    | .threw e _ => .throw e
    | .ub => .ub) = _
  unfold swprintf
  by_cases hz : 0 ≤ size ∧ size ≤ head.length
  · rw [if_pos hz, if_pos (by omega)]
    rfl
  rw [if_neg hz, if_pos (show head.length < stack.length by omega), if_neg (show ¬ (0 ≤ size ∧ size ≤ ((head ++ a).length : Int) - 2) by omega)]
  simp only [Res.bind_ok]
  obtain ⟨e1, e2, e3⟩ := initial_facts
  obtain ⟨s1, b1, b2, b3, b4, b5⟩ := add_text SBProps.inv_initial' e3 (m := head ++ 0 :: stack.drop (head.length + 1)) (n := head.length) (by simp) (by rw [e2]; omega)
  obtain ⟨s2, c1, c2, c3, c4, c5⟩ := add_text b2 b3 (m := a ++ [0]) (n := 2) (by simp; omega) (by omega)
  have hc : content s2 = head ++ a := by
    rw [c5, b5, e1, List.take_left' rfl, ← ha3, List.take_left' rfl]; simp
  rw [b1, andThen_done]
  show (match appendRaw s1 (a ++ [0]) ((2 : Nat) : Int) (-1) with
    | .done s => sbFormat s mem size
    | .threw e _ => .throw e
    | .ub => .ub) = _
  rw [c1]
  simp only []
  have hlen2 : s2.len = (head ++ a).length := by omega
  unfold sbFormat
  rw [hlen2]
  have hll := c2.len_le
  rw [refusing_of (v := head ++ a) (src := s2.buf) (by rw [← hlen2]; exact hc) (by omega)]
  rfl

/-- The first second of 2000, 19 characters: sizes 10, 18, 19 and 20. -/
example : Calendar.InRange 630822816000000000 ∧ DateTime.toString 630822816000000000 = .ok (w "1/1/2000 0:00:00 AM") ∧
    dateFormat 630822816000000000 [] (List.replicate 128 7) (List.replicate 20 9) 10 = .throw .argumentOutOfRange ∧
    dateFormat 630822816000000000 [] (List.replicate 128 7) (List.replicate 20 9) 18 = .throw .indexOutOfRange ∧
    dateFormat 630822816000000000 [] (List.replicate 128 7) (List.replicate 19 9) 19 = .ub ∧
    dateFormat 630822816000000000 [] (List.replicate 128 7) (List.replicate 20 9) 20 = .ok (w "1/1/2000 0:00:00 AM" ++ [0], 19) :=
  ⟨by decide +kernel, by decide +kernel, by decide +kernel, by decide +kernel, by decide +kernel, by decide +kernel⟩

end Verif.SBModel
