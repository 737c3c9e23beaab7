import Verif.StringRangeProps
/-!
# String operations on the inputs their partial theorems leave out

For Substring, Trim, PadLeft, PadRight, Concat, Insert, the constructor from an array, the backward searches and CopyTo: what is returned for every input, so that the claims' exceptions are exactly these.
-/
namespace Verif.StrProps
open SBModel SBProps SBSpec StrSpec StrModel

/-! ## NUL characters -/

theorem wcslen_nul : ∀ (v t : List Nat) (i : Nat), 0 ∈ v.take i → ∃ k, wcslen (v ++ t) = some k ∧ k < i
  | [], t, i, h => by simp at h
  | c :: v, t, 0, h => by simp at h
  | c :: v, t, i + 1, h => by
    by_cases hc : c = 0
    · exact ⟨0, by simp [wcslen, hc], by omega⟩
    · rw [List.take_succ_cons, List.mem_cons] at h
      rcases h with h | h
      · exact absurd h.symm hc
      obtain ⟨k, hk, hlt⟩ := wcslen_nul v t i h
      exact ⟨k + 1, by simp [wcslen, hc, hk], by omega⟩

/-- The constructor refuses a start behind a NUL. -/
theorem newString_nul {v : WStr} {i n : Int} (hi : 0 ≤ i) (h : 0 ∈ v.take i.toNat) : newString (cells v) i n = .throw .argumentOutOfRange := by
  obtain ⟨k, hk, hlt⟩ := wcslen_nul v [0] i.toNat h
  unfold newString cells
  rw [hk]
  simp only []
  rw [if_pos (Or.inr (by omega))]

/-- **C29**, every string: `Substring(start, length)` of a range inside the string returns the requested characters, unless it is not empty and a NUL stands in front of it: then it throws. -/
theorem C29_substring_exact (v : WStr) (i n : Int) (h0 : 0 ≤ i) (hn : 0 ≤ n) (hr : i + n ≤ v.length) :
    substring v i n = if n ≠ 0 ∧ 0 ∈ v.take i.toNat then .throw .argumentOutOfRange else .ok (slice v i.toNat n.toNat) := by
  unfold substring
  have e : ¬ n < 0 := by omega
  simp only [e, if_false]
  rw [if_neg (by omega), if_neg (by omega), if_neg (by omega)]
  by_cases h1 : n = 0
  · subst h1; simp [slice]
  rw [if_neg h1]
  by_cases h2 : i = 0 ∧ n = v.length
  · obtain ⟨rfl, rfl⟩ := h2; simp [slice]
  rw [if_neg h2]
  by_cases h3 : 0 ∈ v.take i.toNat
  · rw [if_pos ⟨h1, h3⟩, newString_nul h0 h3]
  · rw [if_neg (fun hh => h3 hh.2)]
    exact newString_cells h3 h0 hn hr

example : substring [97, 0, 98, 99] 1 2 = .ok [0, 98] ∧ substring [97, 0, 98, 99] 2 2 = .throw .argumentOutOfRange ∧ substring [97, 0, 98, 99] 2 0 = .ok [] := by decide +kernel

/-! ## Trimming -/

theorem takeWhile_take {v sep : WStr} {i : Nat} (h1 : ∀ k, k < i → ∃ c, v[k]? = some c ∧ c ∈ sep) (h2 : ∀ c, v[i]? = some c → c ∉ sep) :
    v.takeWhile (· ∈ sep) = v.take i := by
  induction v generalizing i with
  | nil => simp
  | cons x v ih =>
    cases i with
    | zero =>
      have := h2 x (by simp)
      simp [this]
    | succ i =>
      obtain ⟨c, hc, hm⟩ := h1 0 (by omega)
      simp at hc; subst hc
      rw [List.takeWhile_cons_of_pos (by simpa using hm), List.take_succ_cons]
      congr 1
      exact ih (fun k hk => by simpa using h1 (k + 1) (by omega)) (fun c hc => h2 c (by simpa using hc))

/-- What the helper does, for every set. -/
theorem trimHelper_exact (v sep : WStr) (atEnd : Bool) :
    (0 ∈ v.takeWhile (· ∈ sep) → trimHelper v sep true atEnd = .throw .argumentOutOfRange) ∧
    (0 ∉ v.takeWhile (· ∈ sep) → ∃ i j : Nat, i ≤ j ∧ j ≤ v.length ∧ trimHelper v sep true atEnd = .ok (slice v i (j - i)) ∧
      (∀ k, k < i → ∃ c, v[k]? = some c ∧ c ∈ sep) ∧ (atEnd = false → j = v.length) ∧
      (∀ k, j ≤ k → k < v.length → ∃ c, v[k]? = some c ∧ c ∈ sep) ∧
      (∀ c, v[i]? = some c → c ∉ sep) ∧ (atEnd = true → i < j → ∀ c, v[j - 1]? = some c → c ∉ sep)) := by
  obtain ⟨i, hi, -, i1, i2, i3⟩ := trimStartLoop_spec v sep v.length 0 (by omega)
  have i2' : ∀ k, k < i → ∃ c, v[k]? = some c ∧ c ∈ sep := fun k hk => i2 k (by omega) hk
  obtain ⟨j, hj, j1, j2, j3, j4, j5⟩ : ∃ j : Nat, (if atEnd then trimEndLoop v sep (v.length - (i : Int)).toNat (v.length - 1) else .ok ((v.length : Int) - 1)) = .ok ((j : Int) - 1) ∧
      i ≤ j ∧ j ≤ v.length ∧ (∀ k, j ≤ k → k < v.length → ∃ c, v[k]? = some c ∧ c ∈ sep) ∧ (atEnd = false → j = v.length) ∧
      (atEnd = true → i < j → ∀ c, v[j - 1]? = some c → c ∉ sep) := by
    cases atEnd with
    | false => exact ⟨v.length, by simp, i1, by omega, fun k h1 h2 => by omega, by simp, by simp⟩
    | true =>
      obtain ⟨r, hr, h1, h2, h3, h4⟩ := trimEndLoop_spec v sep i (v.length - i) v.length (by omega) (by omega)
      refine ⟨r, ?_, h1, h2, fun k hk1 hk2 => h3 k hk1 hk2, by simp, fun _ => h4⟩
      have e : (v.length - (i : Int)).toNat = v.length - i := by omega
      rw [e]; simpa using hr
  have hh : trimHelper v sep true atEnd = newString (cells v) i ((j : Int) - 1 - i + 1) := by
    unfold trimHelper
    have e : (if true = true then trimStartLoop v sep v.length 0 else Res.ok 0) = .ok (i : Int) := by simpa using hi
    rw [e, Res.bind_ok, hj, Res.bind_ok]
  rw [takeWhile_take i2' i3, hh]
  refine ⟨fun h => newString_nul (by omega) (by simpa using h), fun h => ⟨i, j, j1, j2, ?_, i2', j4, j3, i3, j5⟩⟩
  rw [newString_cells (by simpa using h) (by omega) (by omega) (by omega)]
  congr 2; omega

/-- **C34**, every set: `Trim` and `TrimStart` throw when a NUL is among the characters cut off in front; otherwise they cut off exactly what they should. `TrimEnd` always does. -/
theorem C34_trim_exact (v : WStr) (sep : Option ArrArg) (ha : ∀ a, sep = some a → a.isChar = true ∧ a.oneDim = true) :
    (0 ∈ v.takeWhile (· ∈ trimSet sep) → trim v sep true true = .throw .argumentOutOfRange ∧ trim v sep true false = .throw .argumentOutOfRange) ∧
    (0 ∉ v.takeWhile (· ∈ trimSet sep) → (∃ mid, trim v sep true true = .ok mid ∧ Trimmed (trimSet sep) v mid) ∧ ∃ mid, trim v sep true false = .ok mid ∧ TrimmedStart (trimSet sep) v mid) ∧
    (∃ mid, trim v sep false true = .ok mid ∧ TrimmedEnd (trimSet sep) v mid) := by
  simp only [trim_eq ha]
  generalize trimSet sep = set
  refine ⟨fun h => ⟨(trimHelper_exact v set true).1 h, (trimHelper_exact v set false).1 h⟩, fun h => ⟨?_, ?_⟩, ?_⟩
  · obtain ⟨i, j, h1, h2, h3, h4, -, h6, h7, h8⟩ := (trimHelper_exact v set true).2 h
    refine ⟨_, h3, v.take i, v.drop j, slice_split h1 h2, mem_take_of h4, mem_drop_of h6, ?_, ?_⟩
    · intro c hc
      exact h7 c (slice_head hc).2
    · intro c hc
      obtain ⟨hlt, hc⟩ := slice_last h1 h2 hc
      exact h8 rfl hlt c hc
  · obtain ⟨i, j, h1, h2, h3, h4, h5, h6, h7, h8⟩ := (trimHelper_exact v set false).2 h
    have := h5 rfl; subst this
    refine ⟨_, h3, v.take i, ?_, mem_take_of h4, ?_⟩
    · have := slice_split h1 h2
      rw [List.drop_length, List.append_nil] at this
      exact this
    · intro c hc
      exact h7 c (slice_head hc).2
  · obtain ⟨r, hr, h1, h2, h3, h4⟩ := trimEndLoop_spec v set 0 v.length v.length (by omega) (by omega)
    have hh : trimHelper v set false true = .ok (slice v 0 r) := by
      unfold trimHelper
      have e : (if (false : Bool) = true then trimStartLoop v set v.length 0 else Res.ok (0 : Int)) = .ok 0 := by simp
      rw [e, Res.bind_ok]
      have e2 : (if (true : Bool) = true then trimEndLoop v set ((v.length : Int) - 0).toNat (v.length - 1) else Res.ok ((v.length : Int) - 1)) = .ok ((r : Int) - 1) := by simpa using hr
      rw [e2, Res.bind_ok, newString_cells (by simp) (by omega) (by omega) (by omega)]
      congr 2; omega
    refine ⟨_, hh, v.drop r, ?_, mem_drop_of h3, ?_⟩
    · simp [slice]
    · intro c hc
      have hc' : (slice v 0 (r - 0)).getLast? = some c := by simpa using hc
      obtain ⟨hlt, hc⟩ := slice_last h1 h2 hc'
      exact h4 hlt c hc

example : trim [32, 97, 0] (some ⟨true, true, [0, 32]⟩) true true = .ok [97] ∧ trim [32, 0, 97] (some ⟨true, true, [0, 32]⟩) true true = .throw .argumentOutOfRange ∧
    (0 : Nat) ∉ [32, 97, 0].takeWhile (· ∈ trimSet (some ⟨true, true, [0, 32]⟩)) ∧ 0 ∈ [32, 0, 97].takeWhile (· ∈ trimSet (some ⟨true, true, [0, 32]⟩)) := by decide +kernel

/-! ## Texts that are too long -/

theorem setCapacity_over {s : SB} {c : Int} (h : Inv s) (hm : s.maxCap = 2147483647) (hc : limit < c) (h32 : c ≤ 2147483647) : setCapacity s c = .ub := by
  have hb := h.buf_le
  have hcl := h.cap_le
  simp only [limit] at hc
  have hr : roundUp c = 2147483648 := by unfold roundUp; split <;> omega
  unfold setCapacity
  rw [if_neg (by omega), if_neg (by omega), if_neg (fun hh => by omega), if_neg (by omega), if_pos (by omega), if_pos (by omega)]

theorem appendStr_over {s : SB} {v : WStr} (h : Inv s) (hm : s.maxCap = 2147483647) (hl : limit < (s.len : Int) + v.length) : appendStr s (some v) 0 (-1) = .ub := by
  have hb := h.buf_le
  have hcl := h.cap_le
  have hl' := hl
  simp only [limit] at hl'
  unfold appendStr
  have e : ((-1 : Int) < 0) := by omega
  simp only [e, if_true]
  rw [if_neg (by omega), if_neg (by omega)]
  unfold appendRaw
  simp only [if_true]
  rw [if_neg (by omega)]
  unfold ensureRoomFor
  by_cases h32 : I32 ((s.len : Int) + v.length)
  · rw [if_neg (by simpa using h32)]
    unfold I32 at h32
    unfold ensureCapacity
    rw [if_neg (by omega), if_pos (by omega), setCapacity_over h hm hl (by omega)]
    rfl
  · rw [if_pos h32]; rfl

/-- **C35**, every width: `PadLeft` and `PadRight` return what they should, unless the length and the width together exceed 2147483520 (and something is to be added): then they are undefined. -/
theorem C35_pad_exact (v : WStr) (width : Int) (c : Nat) (h0 : 0 ≤ width) :
    padLeft v width c = (if (v.length : Int) < width ∧ limit < v.length + width then .ub else .ok (List.replicate (width - v.length).toNat c ++ v)) ∧
    padRight v width c = (if (v.length : Int) < width ∧ limit < v.length + width then .ub else .ok (v ++ List.replicate (width - v.length).toNat c)) := by
  by_cases hc : width - v.length ≤ 0
  · have e : (width - v.length).toNat = 0 := by omega
    rw [if_neg (by omega), if_neg (by omega), e]
    unfold padLeft padRight
    rw [if_neg (by omega), if_pos hc, if_neg (by omega), if_pos hc]
    simp
  by_cases hl : limit < (v.length : Int) + width
  · rw [if_pos ⟨by omega, hl⟩, if_pos ⟨by omega, hl⟩]
    have key : ∀ f : Int → Res WStr, (∀ n : Int, limit < n → n ≤ 2147483647 → f n = .ub) → (i32 (v.length + width) >>= f) = .ub := by
      intro f hf
      by_cases h32 : I32 (v.length + width)
      · rw [i32_ok h32, Res.bind_ok]
        exact hf _ hl (by unfold I32 at h32; omega)
      · have : i32 (v.length + width) = .ub := by unfold i32; rw [if_neg h32]
        rw [this]; rfl
    have hcr : ∀ n : Int, limit < n → n ≤ 2147483647 → create n maximumCapacity = .ub := by
      intro n h1 h2
      have h1' := h1
      simp only [limit] at h1'
      unfold create maximumCapacity
      rw [if_neg (by omega), if_neg (by omega), if_neg (by omega)]
      simp only []
      rw [if_neg (by omega)]
      exact setCapacity_over (inv_initial (by omega) (by omega)) rfl h1 h2
    unfold padLeft padRight
    rw [if_neg (by omega), if_neg hc, if_neg (by omega), if_neg hc]
    exact ⟨key _ fun n h1 h2 => by rw [hcr n h1 h2]; rfl, key _ fun n h1 h2 => by rw [hcr n h1 h2]; rfl⟩
  · rw [if_neg (fun hh => hl hh.2), if_neg (fun hh => hl hh.2)]
    exact ⟨(C35_pad_left_partial v width c).1 h0 (by omega), (C35_pad_right_partial v width c).1 h0 (by omega)⟩

example : padRight (w "a") 2147483520 32 = .ub ∧ padLeft (w "abc") 2 32 = .ok (w "abc") := by decide +kernel

/-! ## Concat -/

theorem concatLoop_exact : ∀ (items : List (Option WStr)) (s : SB), Inv s → s.maxCap = 2147483647 →
    (none ∉ items ∧ (s.len : Int) + (items.map (·.getD [])).flatten.length ≤ limit ∧ ∃ s', concatLoop items s = .done s' ∧ Inv s' ∧ content s' = content s ++ (items.map (·.getD [])).flatten) ∨
    (¬ (none ∉ items ∧ (s.len : Int) + (items.map (·.getD [])).flatten.length ≤ limit) ∧ concatLoop items s = .ub)
  | [], s, h, _ => .inl ⟨by simp, by have := h.buf_le; have := h.cap_le; have := h.len_le; simp only [limit]; simp; omega, s, rfl, h, by simp⟩
  | none :: t, s, h, hm => .inr ⟨by simp, rfl⟩
  | some p :: t, s, h, hm => by
    have hstep : concatLoop (some p :: t) s = (appendStr s (some p) 0 (-1)).andThen (concatLoop t) := rfl
    by_cases hl : (s.len : Int) + p.length ≤ limit
    · obtain ⟨s1, h1, i1, c1, l1, m1, _⟩ := appendStr_ok (v := p) h hl hm
      rw [hstep, h1, andThen_done]
      have hlen : (s1.len : Int) + (t.map (·.getD [])).flatten.length = (s.len : Int) + ((some p :: t).map (·.getD [])).flatten.length := by
        rw [l1]; simp; omega
      have hn : none ∉ some p :: t ↔ none ∉ t := by simp
      rcases concatLoop_exact t s1 i1 m1 with ⟨a1, a2, s2, a3, a4, a5⟩ | ⟨a1, a2⟩
      · exact .inl ⟨hn.mpr a1, by rw [← hlen]; exact a2, s2, a3, a4, by rw [a5, c1]; simp⟩
      · exact .inr ⟨by rw [hn, ← hlen]; exact a1, a2⟩
    · refine .inr ⟨fun hh => ?_, by rw [hstep, appendStr_over h hm (by omega)]; rfl⟩
      have := hh.2
      simp only [List.map_cons, Option.getD_some, List.flatten_cons, List.length_append] at this
      push_cast at this
      omega

/-- **C36**, every array of references: `Concat(array)` is the concatenation, and undefined when an element is null or the result exceeds 2147483520 characters. -/
theorem C36_concat_array_exact (items : List (Option WStr)) :
    concatArray (some ⟨true, true, items⟩) = if none ∈ items ∨ limit < ((items.map (·.getD [])).flatten.length : Int) then .ub else .ok (items.map (·.getD [])).flatten := by
  obtain ⟨e1, e2, e3⟩ := initial_facts
  unfold concatArray
  simp only [Bool.true_eq_false, if_false, false_and]
  rcases concatLoop_exact items initial inv_initial' e3 with ⟨a1, a2, s, a3, a4, a5⟩ | ⟨a1, a2⟩
  · rw [e2] at a2
    rw [if_neg (fun hh => hh.elim a1 (fun hh => by simp only [Int.natCast_zero, Int.zero_add] at a2; omega)), a3]
    show toStr s = _
    rw [toStr_ok a4, a5, e1]; simp
  · rw [if_pos ?_, a2]; rfl
    rw [e2] at a1
    apply Decidable.byContradiction
    intro hh
    exact a1 ⟨fun h => hh (.inl h), by simp only [Int.natCast_zero, Int.zero_add]; omega⟩

example : concatArray (some ⟨true, true, [some (w "ab"), some (w "c")]⟩) = .ok (w "abc") ∧ concatArray (some ⟨true, true, [some (w "ab"), none, some (w "c")]⟩) = .ub := by decide +kernel

theorem concatRest_exact : ∀ (rest : List (Option WStr)) (s : SB), Inv s → s.maxCap = 2147483647 →
    ((s.len : Int) + (rest.map (·.getD [])).flatten.length ≤ limit ∧ ∃ s', concatRest rest s = .done s' ∧ Inv s' ∧ content s' = content s ++ (rest.map (·.getD [])).flatten) ∨
    (limit < (s.len : Int) + (rest.map (·.getD [])).flatten.length ∧ concatRest rest s = .ub) := by
  intro rest s h hm
  by_cases hl : (s.len : Int) + (rest.map (·.getD [])).flatten.length ≤ limit
  · exact .inl ⟨hl, concatRest_ok rest s h hl hm⟩
  · refine .inr ⟨by omega, ?_⟩
    induction rest generalizing s with
    | nil =>
      exfalso
      have := h.buf_le; have := h.cap_le; have := h.len_le
      simp only [limit] at hl; simp at hl; omega
    | cons o t ih =>
      cases o with
      | none =>
        show (Out.done s).andThen _ = _
        rw [andThen_done]
        exact ih s h hm (by simpa using hl)
      | some p =>
        show (appendStr s (some p) 0 (-1)).andThen _ = _
        by_cases hp : (s.len : Int) + p.length ≤ limit
        · obtain ⟨s1, h1, i1, c1, l1, m1, _⟩ := appendStr_ok (v := p) h hp hm
          rw [h1, andThen_done]
          refine ih s1 i1 m1 ?_
          rw [l1]
          simp only [List.map_cons, Option.getD_some, List.flatten_cons, List.length_append] at hl
          push_cast at hl ⊢
          omega
        · rw [appendStr_over h hm (by omega)]; rfl

/-- **C36**, all operands: `Concat(o1, o2, ...)` throws when the first operand is null, is undefined when the result exceeds 2147483520 characters, and is the concatenation otherwise. -/
theorem C36_concat_exact (o1 : Option WStr) (rest : List (Option WStr)) :
    concat o1 rest = match o1 with
      | none => .throw .argumentNull
      | some a => if limit < (a.length : Int) + (rest.map (·.getD [])).flatten.length then .ub else .ok (a ++ (rest.map (·.getD [])).flatten) := by
  cases o1 with
  | none => rfl
  | some a =>
    simp only []
    by_cases hl : limit < (a.length : Int) + (rest.map (·.getD [])).flatten.length
    · rw [if_pos hl]
      obtain ⟨e1, e2, e3⟩ := initial_facts
      unfold concat
      simp only []
      by_cases ha : (a.length : Int) ≤ limit
      · obtain ⟨s1, h1, i1, c1, l1, m1, _⟩ := appendStr_ok (v := a) (s := initial) inv_initial' (by rw [e2]; omega) e3
        rw [h1, andThen_done]
        rcases concatRest_exact rest s1 i1 m1 with ⟨b1, _⟩ | ⟨_, b2⟩
        · rw [l1, e2] at b1; push_cast at b1; omega
        · rw [b2]; rfl
      · rw [appendStr_over inv_initial' e3 (by rw [e2]; omega)]; rfl
    · rw [if_neg hl, C36_concat_partial a rest (by omega)]

example : concat (some (w "ab")) [none, some (w "c")] = .ok (w "abc") ∧ concat none [some (w "c")] = .throw .argumentNull := by decide +kernel

/-! ## Insert, Replace, Remove and the affix tests on the empty string -/

theorem sbOf_over {v : WStr} (h : limit < (v.length : Int)) (h32 : (v.length : Int) ≤ 2147483647) : sbOf v = .ub := by
  have h' := h
  simp only [limit] at h'
  unfold sbOf createFrom
  simp only [Option.getD_some]
  rw [if_neg (by omega), if_neg (by omega), if_neg (by omega), if_neg (by omega), if_neg (by omega)]
  have e : max (128 : Int) v.length = v.length := by omega
  rw [e, setCapacity_over inv_initial' rfl h h32]; rfl

/-- **C66**, every string and argument: `Insert(i, p)` at a position of the string throws IndexOutOfRange when the string or the argument is empty, is undefined when the result exceeds 2147483520 characters, and is the insertion otherwise. -/
theorem C66_insert_exact (v p : WStr) (i : Int) (h0 : 0 ≤ i) (h1 : i ≤ v.length) (h32 : (v.length : Int) + p.length ≤ 2147483647) :
    StrModel.insert v i (some p) = if v = [] ∨ (p = [] ∧ (v.length : Int) ≤ limit) then .throw .indexOutOfRange else if limit < (v.length : Int) + p.length then .ub else .ok (insertAt v i.toNat p) := by
  by_cases hv : v = []
  · rw [if_pos (.inl hv)]
    subst hv
    unfold StrModel.insert
    simp only []
    rw [if_neg (by omega), sbOf_empty]; rfl
  by_cases hvl : (v.length : Int) ≤ limit
  · obtain ⟨s, hs, s1, s2, s3, s4, s5, s6, s7⟩ := sbOf_ok hv hvl
    by_cases hp : p = []
    · rw [if_pos (.inr ⟨hp, hvl⟩)]
      subst hp
      unfold StrModel.insert
      simp only []
      rw [if_neg (by omega), hs, andThen_done]; rfl
    · rw [if_neg (by simp [hv, hp])]
      by_cases hl : limit < (v.length : Int) + p.length
      · rw [if_pos hl]
        have hl' := hl
        simp only [limit] at hl'
        unfold StrModel.insert
        simp only []
        rw [if_neg (by omega), hs, andThen_done]
        have hi : insertStr s i (some p) 1 = .ub := by
          show insertLoop i p 1 s = .ub
          unfold insertLoop
          rw [if_neg (fun hh => hp (List.length_eq_zero_iff.mp hh))]
          unfold appendRaw
          simp only []
          have hb := s1.buf_le
          have hcl := s1.cap_le
          rw [if_neg (by split <;> omega)]
          unfold ensureRoomFor
          rw [if_neg (by rw [Decidable.not_not]; unfold I32; omega)]
          unfold ensureCapacity
          rw [if_neg (by omega), if_pos (by omega), setCapacity_over s1 (by assumption) (by rw [s3]; exact hl) (by omega)]
          rfl
        rw [hi]; rfl
      · rw [if_neg hl]
        exact (C66_insert_partial v p i).1 hv hp h0 h1 (by omega)
  · rw [if_neg (fun hh => hh.elim hv (fun hh => hvl hh.2)), if_pos (by omega)]
    unfold StrModel.insert
    simp only []
    rw [if_neg (by omega), sbOf_over (by omega) (by omega)]; rfl

example : StrModel.insert (w "ad") 1 (some (w "bc")) = .ok (w "abcd") ∧ StrModel.insert [] 0 (some (w "bc")) = .throw .indexOutOfRange := by decide +kernel

/-- **C66**, **C37** on the empty string: `Remove`, both `Replace`, `Contains`, and `StartsWith`/`EndsWith` with a non-empty argument always throw IndexOutOfRange. -/
theorem C66_empty_refuted (ov : Bool) (i n : Int) (c d : Nat) (p r : Option WStr) (q : WStr) (hq : q ≠ []) :
    StrModel.remove ov [] i n = .throw .indexOutOfRange ∧ StrModel.replaceChar [] c d = .throw .indexOutOfRange ∧ StrModel.replaceStr [] p r = .throw .indexOutOfRange ∧
    StrModel.contains [] p = .throw .indexOutOfRange ∧ startsWith [] (some q) false = .throw .indexOutOfRange ∧ endsWith [] (some q) false = .throw .indexOutOfRange := by
  have hq' : q.length ≠ 0 := fun hh => hq (List.length_eq_zero_iff.mp hh)
  refine ⟨?_, ?_, ?_, ?_, ?_, ?_⟩
  · unfold StrModel.remove; rw [sbOf_empty]
  · unfold StrModel.replaceChar; rw [sbOf_empty]; rfl
  · unfold StrModel.replaceStr; rw [sbOf_empty]; rfl
  · unfold StrModel.contains countNonZero; rw [sbOf_empty]
  · unfold startsWith countNonZero; simp only [Bool.false_eq_true, if_false]; rw [if_neg hq', sbOf_empty]
  · unfold endsWith countNonZero; simp only [Bool.false_eq_true, if_false]; rw [if_neg hq', sbOf_empty]

example : (w "a") ≠ [] := by decide +kernel

/-- **C66**, every range: with a strict `memcpy` (`ov = false`) removing fewer characters than follow them is undefined; every other removal of a range inside the string is the removal. -/
theorem C66_remove_exact (ov : Bool) (v : WStr) (i n : Int) (hv : v ≠ []) (hl : (v.length : Int) ≤ limit) (h0 : 0 ≤ i) (hn : 0 ≤ n) (hr : i + n ≤ v.length) :
    StrModel.remove ov v i n = if ov = false ∧ n < v.length - i - n then .ub else .ok (removeAt v i.toNat n.toNat) := by
  have hl' := hl
  simp only [limit] at hl'
  by_cases h : ov = false ∧ n < v.length - i - n
  · rw [if_pos h]
    obtain ⟨s, hs, s1, s2, s3, s4, s5, s6, s7⟩ := sbOf_ok hv hl
    unfold StrModel.remove
    rw [hs]
    simp only []
    rw [if_neg (by omega), Res.bind_ok]
    unfold SBModel.remove
    rw [if_neg (by omega), if_neg (by omega), if_neg (by omega)]
    simp only []
    rw [if_pos ⟨h.1, by omega, by omega⟩]; rfl
  · rw [if_neg h]
    refine (C66_remove_partial ov v i n hv hl (by unfold I32; omega)).1 h0 hn hr ?_
    cases ov with
    | true => exact .inl rfl
    | false => exact .inr (by simp at h; omega)

example : StrModel.remove false (w "hello") 1 1 = .ub ∧ StrModel.remove false (w "hello") 1 2 = .ok (w "hlo") ∧ StrModel.remove true (w "hello") 1 1 = .ok (w "hllo") := by decide +kernel

/-! ## Contains and StartsWith -/

/-- The builder made from a string: its cells are the characters, then NULs up to the size of the block. -/
theorem sbOf_cells {v : WStr} (h : v ≠ []) (hl : (v.length : Int) ≤ limit) :
    ∃ s, sbOf v = .done s ∧ s.buf = v ++ List.replicate ((if v.length ≤ 128 then 129 else (roundUp v.length).toNat + 1) - v.length) 0 := by
  have hlen : 0 < v.length := List.length_pos_iff.mpr h
  simp only [limit] at hl
  have fin : ∀ (s : SB) (size : Nat), s.buf = List.replicate size 0 → v.length ≤ size →
      ∃ t, ((if (0 : Int) ≥ v.length then Out.threw .indexOutOfRange s else withBuf (poke s.buf 0 ((v.drop (0 : Int).toNat).take ((v.length : Int)).toNat)) fun b => .done { s with buf := b, len := ((v.length : Int)).toNat }) = .done t) ∧
        t.buf = v ++ List.replicate (size - v.length) 0 := by
    intro s size hb hs
    rw [if_neg (by omega), hb]
    have e : (v.drop (0 : Int).toNat).take ((v.length : Int)).toNat = v := by simp
    rw [e]
    unfold poke
    rw [if_pos ⟨by omega, by simp; omega⟩]
    refine ⟨_, rfl, ?_⟩
    simp
  unfold sbOf createFrom
  simp only [Option.getD_some]
  rw [if_neg (by omega), if_neg (by omega), if_neg (by omega), if_neg (by omega), if_neg (by omega)]
  by_cases hc : v.length ≤ 128
  · have e : max (128 : Int) v.length = 128 := by omega
    have es : setCapacity initial 128 = .done { initial with cap := 128 } := by decide +kernel
    rw [e, es, if_pos hc]
    exact fin _ 129 rfl (by omega)
  · have e : max (128 : Int) v.length = v.length := by omega
    have hb := roundUp_bounds (c := v.length) (by omega)
    have es : setCapacity initial v.length = .done { initial with buf := List.replicate (roundUp v.length + 1).toNat 0, cap := (roundUp v.length).toNat, internal := false } := by
      have e1 : initial.maxCap = 2147483647 := rfl
      have e2 : initial.cap = 128 := rfl
      have e3 : initial.internal = true := rfl
      have e4 : initial.len = 0 := rfl
      unfold setCapacity
      rw [e1, e2, e3, e4, if_neg (by omega), if_neg (by omega), if_neg (by simp), if_neg (by omega), if_pos (by omega), if_neg (by omega)]
      have ep : peek initial.buf 0 ((0 : Nat) : Int) = some [] := by decide +kernel
      rw [ep]
      simp only []
      have eq : poke (List.replicate (roundUp v.length + 1).toNat 0) 0 [] = some (List.replicate (roundUp v.length + 1).toNat 0) := by
        unfold poke
        rw [if_pos ⟨by omega, by simp only [List.length_nil, List.length_replicate]; omega⟩]
        simp
      rw [eq]
      rfl
    rw [e, es, if_neg hc]
    have e5 : (roundUp v.length).toNat + 1 = (roundUp v.length + 1).toNat := by omega
    rw [e5]
    exact fin _ _ rfl (by omega)

/-- **C37**, arguments longer than the string: `StartsWith(p)` compares with the NULs behind the characters in the builder's block (129 cells, or one more than the length rounded up to a multiple of 128); behind the block it is undefined. -/
theorem C37_starts_with_long_exact (v p : WStr) (hv : v ≠ []) (hl : (v.length : Int) ≤ limit) (hsm : p.length < 536870912) (hgt : v.length < p.length) :
    startsWith v (some p) false = if p.length ≤ (if v.length ≤ 128 then 129 else (roundUp v.length).toNat + 1) then .ok (decide (p = v ++ List.replicate (p.length - v.length) 0)) else .ub := by
  obtain ⟨s, hs, hb⟩ := sbOf_cells hv hl
  generalize (if v.length ≤ 128 then 129 else (roundUp v.length).toNat + 1) = size at hb ⊢
  unfold startsWith
  simp only [Bool.false_eq_true, if_false]
  rw [if_neg (by omega)]
  unfold countNonZero
  rw [hs]
  simp only []
  have e : (0 : Int) + 1 + p.length - p.length = 1 := by omega
  unfold countSubStrings
  simp only []
  rw [e, if_neg (by omega)]
  show (countLoop s.buf p 1 0 1 0 >>= _) = _
  unfold countLoop
  rw [if_pos (by omega)]
  by_cases hsz : p.length ≤ size
  · rw [if_pos hsz, peek_some (by omega) (by omega) (by rw [hb]; simp; omega)]
    have ht : (s.buf.drop (0 : Int).toNat).take ((p.length : Int)).toNat = v ++ List.replicate (p.length - v.length) 0 := by
      rw [hb]
      have e1 : (0 : Int).toNat = 0 := rfl
      have e2 : ((p.length : Int)).toNat = p.length := by omega
      rw [e1, e2, List.drop_zero, List.take_append, List.take_of_length_le (by omega), List.take_replicate]
      congr 2; omega
    simp only [ht]
    by_cases hp : v ++ List.replicate (p.length - v.length) 0 = p
    · rw [if_pos hp, decide_eq_true hp.symm]
      unfold countLoop
      rw [if_neg (by omega)]; rfl
    · rw [if_neg hp, decide_eq_false (fun hh => hp hh.symm)]
      rfl
  · rw [if_neg hsz]
    have : peek s.buf 0 p.length = none := by
      unfold peek
      rw [if_neg]
      rintro ⟨-, -, h3⟩
      rw [hb] at h3
      simp at h3
      omega
    rw [this]; rfl

example : startsWith (w "ab") (some [97, 98, 0]) false = .ok true ∧ startsWith (w "ab") (some (w "abc")) false = .ok false ∧ startsWith (w "ab") (some (List.replicate 130 97)) false = .ub := by decide +kernel

theorem countLoop_empty (buf : List Nat) : ∀ (n : Nat) (i e : Int) (acc : Nat), 0 ≤ i → i ≤ buf.length → i < e → countLoop buf [] n i e acc = .ub
  | 0, i, e, acc, _, _, h => by unfold countLoop; rw [if_pos h]
  | n + 1, i, e, acc, h0, h1, h => by
    unfold countLoop
    have : peek buf i (([] : List Nat).length) = some [] := by
      rw [peek_some h0 (by simp) (by simpa using h1)]; simp
    rw [if_pos h, this]
    simp only [if_true]
    exact countLoop_empty buf n _ e _ (by simpa using h0) (by simpa using h1) (by simpa using h)

/-- **C37**: `Contains("")` never returns, for every non-empty string. -/
theorem C37_contains_empty_refuted (v : WStr) (hv : v ≠ []) (hl : (v.length : Int) ≤ limit) : StrModel.contains v (some []) = .ub := by
  obtain ⟨s, hs, -⟩ := sbOf_cells hv hl
  unfold StrModel.contains countNonZero
  rw [hs]
  simp only []
  unfold countSubStrings
  simp only []
  rw [if_neg (fun hh => absurd hh.2 (by decide)), countLoop_empty _ _ _ _ _ (by omega) (by omega) (by simp; omega)]
  rfl

example : (w "ab") ≠ [] ∧ ((w "ab").length : Int) ≤ limit := by decide +kernel

/-! ## Backward searches that run past the beginning -/

theorem lastLoop_past (p : Nat → Bool) (v : WStr) : ∀ (n i : Nat), i < v.length → i + 1 < n → lastLoop p v n i = (lastLoop p v (i + 1) i >>= fun r => if r = -1 then .throw .indexOutOfRange else .ok r)
  | 0, i, _, h => by omega
  | n + 1, i, hi, h => by
    obtain ⟨c, hc, hg⟩ := getChars_ok (v := v) (i := (i : Int)) (by omega) (by omega)
    have u : ∀ m : Nat, lastLoop p v (m + 1) i = if p c then .ok (i : Int) else lastLoop p v m ((i : Int) - 1) := by
      intro m
      rw [lastLoop, hg, Res.bind_ok]
    rw [u n, u i]
    by_cases hp : p c = true
    · rw [if_pos hp, if_pos hp, Res.bind_ok, if_neg (by omega)]
    · rw [if_neg hp, if_neg hp]
      cases i with
      | zero =>
        obtain ⟨n, rfl⟩ : ∃ m, n = m + 1 := ⟨n - 1, by omega⟩
        show lastLoop p v (n + 1) (-1) = .throw .indexOutOfRange
        rw [lastLoop, getChars_throw (Or.inl (by omega))]
        rfl
      | succ i =>
        have e : ((i + 1 : Nat) : Int) - 1 = (i : Int) := by omega
        rw [e]
        exact lastLoop_past p v n i (by omega) (by omega)

/-- **C30**, every count: `LastIndexOf(c, start, count)` from a position of the string is the last match in the part of the range inside the string; without one it is -1, or IndexOutOfRange when the range runs past the beginning. -/
theorem C30_last_index_of_exact (v : WStr) (c : Nat) (i n : Int) (h0 : 0 ≤ i) (h1 : i < v.length) (hn : 0 ≤ n) :
    ∃ r, IsLast (fun j => v[j]? = some c) (i + 1 - n).toNat (i.toNat + 1) r ∧ lastIndexOf v c i n = if r = -1 ∧ i + 1 < n then .throw .indexOutOfRange else .ok r := by
  by_cases h : n ≤ i + 1
  · obtain ⟨r, hr, hs⟩ := (C30_last_index_of_partial v c i n).1 h0 h1 hn h
    exact ⟨r, hs, by rw [hr, if_neg (by omega)]⟩
  · obtain ⟨r, hr, hs⟩ := (C30_last_index_of_partial v c i (i + 1)).1 h0 h1 (by omega) (by omega)
    have e : (i + 1 - n).toNat = (i + 1 - (i + 1)).toNat := by omega
    refine ⟨r, by rw [e]; exact hs, ?_⟩
    unfold lastIndexOf at hr ⊢
    rw [lastRange_pos v i n h0 hn, Res.bind_ok]
    rw [lastRange_pos v i (i + 1) h0 (by omega), Res.bind_ok] at hr
    have hp := lastLoop_past (fun d => d == c) v n.toNat i.toNat (by omega) (by omega)
    have e1 : (i.toNat : Int) = i := by omega
    have e2 : (i + 1).toNat = i.toNat + 1 := by omega
    rw [e1] at hp
    simp only [e2] at hr
    show lastLoop _ v n.toNat i = _
    rw [hp, hr, Res.bind_ok]
    by_cases hm : r = -1
    · rw [if_pos hm, if_pos ⟨hm, by omega⟩]
    · rw [if_neg hm, if_neg (fun hh => hm hh.1)]

example : lastIndexOf (w "abc") 97 1 5 = .ok 0 ∧ lastIndexOf (w "abc") 122 1 5 = .throw .indexOutOfRange ∧ lastIndexOf (w "abc") 122 1 2 = .ok (-1) := by decide +kernel

theorem lastStrLoop_past (v p : WStr) (start : Int) : ∀ (n i : Nat), i ≤ v.length → i + 1 < n → lastStrLoop v p start n i = (lastStrLoop v p start (i + 1) i >>= fun r => if r = -1 then .ub else .ok r)
  | 0, i, _, h => by omega
  | n + 1, i, hi, h => by
    have rest : lastStrLoop v p start n ((i : Int) - 1) = (lastStrLoop v p start i ((i : Int) - 1) >>= fun r => if r = -1 then .ub else .ok r) := by
      cases i with
      | zero =>
        obtain ⟨n, rfl⟩ : ∃ m, n = m + 1 := ⟨n - 1, by omega⟩
        show lastStrLoop v p start (n + 1) (-1) = .ub
        rw [lastStrLoop, if_pos (Or.inl (by omega))]
      | succ i =>
        have e : ((i + 1 : Nat) : Int) - 1 = (i : Int) := by omega
        rw [e]
        exact lastStrLoop_past v p start n i (by omega) (by omega)
    rw [lastStrLoop, if_neg (by omega)]
    conv => rhs; rw [lastStrLoop]
    rw [if_neg (by omega)]
    cases findText (cText ((cells v).drop (i : Int).toNat)) (cText (cells p)) with
    | none => exact rest
    | some k =>
      simp only []
      by_cases hk : (i : Int) + k ≤ start
      · rw [if_pos hk, if_pos hk, Res.bind_ok, if_neg (by omega)]
      · rw [if_neg hk, if_neg hk]
        exact rest

/-- **C65**, every count: `LastIndexOf(value, start, count)` is the last position of the range inside the string at which the value stands; without one it is -1, or undefined when the range runs past the beginning. From a start behind the
string it is undefined. -/
theorem C65_last_index_of_exact (v p : WStr) (hv : 0 ∉ v) (hp : 0 ∉ p) (i n : Int) (h0 : 0 ≤ i) (hn : 0 ≤ n) :
    (i ≤ v.length → ∃ r, IsLast (OccursAt p v) (i + 1 - n).toNat (i.toNat + 1) r ∧ lastIndexOfStr v (some p) i n = if r = -1 ∧ i + 1 < n then .ub else .ok r) ∧
    (v.length < i → 0 < n → lastIndexOfStr v (some p) i n = .ub) := by
  refine ⟨fun h1 => ?_, fun h1 h2 => ?_⟩
  · by_cases h : n ≤ i + 1
    · obtain ⟨r, hr, hs⟩ := C65_last_index_of_partial v p hv hp i n h0 h1 hn h
      exact ⟨r, hs, by rw [hr, if_neg (by omega)]⟩
    · obtain ⟨r, hr, hs⟩ := C65_last_index_of_partial v p hv hp i (i + 1) h0 h1 (by omega) (by omega)
      have e : (i + 1 - n).toNat = (i + 1 - (i + 1)).toNat := by omega
      refine ⟨r, by rw [e]; exact hs, ?_⟩
      unfold lastIndexOfStr at hr ⊢
      simp only [] at hr ⊢
      rw [lastRange_pos v i n h0 hn, Res.bind_ok]
      rw [lastRange_pos v i (i + 1) h0 (by omega), Res.bind_ok] at hr
      have hp := lastStrLoop_past v p i n.toNat i.toNat (by omega) (by omega)
      have e1 : (i.toNat : Int) = i := by omega
      have e2 : (i + 1).toNat = i.toNat + 1 := by omega
      rw [e1] at hp
      simp only [e2] at hr
      show lastStrLoop v p i n.toNat i = _
      rw [hp, hr, Res.bind_ok]
      by_cases hm : r = -1
      · rw [if_pos hm, if_pos ⟨hm, by omega⟩]
      · rw [if_neg hm, if_neg (fun hh => hm hh.1)]
  · unfold lastIndexOfStr
    simp only []
    rw [lastRange_pos v i n h0 hn, Res.bind_ok]
    obtain ⟨m, hm⟩ : ∃ m, n.toNat = m + 1 := ⟨n.toNat - 1, by omega⟩
    simp only [hm]
    rw [lastStrLoop, if_pos (Or.inr (by omega))]

example : lastIndexOfStr (w "abc") (some (w "b")) 2 9 = .ok 1 ∧ lastIndexOfStr (w "abc") (some (w "x")) 2 9 = .ub ∧ lastIndexOfStr (w "abc") (some (w "x")) 2 3 = .ok (-1) := by decide +kernel

/-! ## CopyTo and the constructor from an array -/

/-- **C29**, empty ranges: `CopyTo` of no characters from the end of the string or to the end of the array throws IndexOutOfRange. -/
theorem C29_copy_to_empty_refuted (v : WStr) (a : ArrArg) (ha : a.isChar = true) (hd : a.oneDim = true) (i j : Int) (h0 : 0 ≤ i) (h1 : 0 ≤ j) (h2 : i ≤ v.length) (h3 : j ≤ a.data.length)
    (h : i = v.length ∨ j = a.data.length) : copyTo v i (some a) j 0 = .throw .indexOutOfRange := by
  unfold copyTo
  simp only [ha, hd, Bool.true_eq_false, if_false]
  rw [if_neg (by omega), if_neg (by omega), if_neg (by omega), if_neg (by omega)]
  by_cases h4 : i ≥ v.length
  · rw [if_pos h4]
  · rw [if_neg h4, if_pos (by omega)]

example : copyTo (w "ab") 1 (some ⟨true, true, w "xyz"⟩) 3 0 = .throw .indexOutOfRange := by decide +kernel

/-- **C68**, default length: `String(array, start)` throws for every start after 0 (unless the array is empty) and holds the whole array for every other start. -/
theorem C68_from_array_default (a : ArrArg) (ha : a.isChar = true) (hd : a.oneDim = true) (i n : Int) (hn : n < 0) :
    newFromArray (some a) i n = if 0 < i ∧ a.data ≠ [] then .throw .argumentOutOfRange else .ok a.data := by
  unfold newFromArray
  simp only [ha, hd, hn, if_true, Bool.true_eq_false, if_false]
  by_cases h0 : a.data = []
  · simp [h0]
  have hp : 0 < a.data.length := List.length_pos_iff.mpr h0
  rw [if_neg (by omega)]
  by_cases hi : 0 < i
  · rw [if_pos (show 0 < i ∧ a.data ≠ [] from ⟨hi, h0⟩), if_pos (by split <;> omega)]
  · rw [if_neg (show ¬ (0 < i ∧ a.data ≠ []) from fun hh => hi hh.1)]
    have e : (if i < 0 then 0 else i) = 0 := by split <;> omega
    rw [e, if_neg (by omega)]
    simp

example : newFromArray (some ⟨true, true, w "hello"⟩) 1 (-1) = .throw .argumentOutOfRange ∧ newFromArray (some ⟨true, true, w "hello"⟩) (-3) (-1) = .ok (w "hello") := by decide +kernel

end Verif.StrProps
