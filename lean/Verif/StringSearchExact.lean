import Verif.StringComplete
set_option linter.unusedSimpArgs false
set_option linter.unusedVariables false
/-!
# C184: what the text searches, the forward character searches and the constructors of String do with every argument
-/
namespace Verif.StrProps
open StrModel StrSpec SBModel

/-! ## Specification -/

/-- The characters before the first NUL: what a search for a text searches for. -/
def before (p : WStr) : WStr := p.takeWhile (fun c => c != 0)

/-- The text `q` stands in `v` at position `j` and no NUL is between position `i` and it. -/
def Seen (q v : WStr) (i j : Nat) : Prop := OccursAt q v j ∧ ∀ k, i ≤ k → k < j → v[k]? ≠ some 0

/-! ## Proof -/

theorem cText_before (p : WStr) : cText p = before p := by
  unfold cText before
  congr 1
  funext c
  by_cases h : c = 0 <;> simp [h]

theorem cText_cells_any (p : WStr) : cText (cells p) = before p := by
  rw [← cText_before]
  unfold cText cells
  induction p with
  | nil => simp
  | cons x t ih =>
    by_cases h : x = 0
    · subst h; simp
    · simp only [List.cons_append, List.takeWhile_cons, h, ne_eq, not_false_iff, decide_true, if_true]
      rw [ih]

theorem before_nonul : ∀ p : WStr, 0 ∉ before p
  | [] => by simp [before]
  | x :: t => by
    by_cases h : x = 0
    · subst h; simp [before]
    · have := before_nonul t
      unfold before at *
      simp [h, List.takeWhile_cons, this, Ne.symm h]

theorem before_cons {x : Nat} (t : WStr) (h : x ≠ 0) : before (x :: t) = x :: before t := by simp [before, h]
theorem before_zero (t : WStr) : before (0 :: t) = [] := by simp [before]

theorem prefix_before : ∀ (q t : WStr), 0 ∉ q → (q <+: before t ↔ q <+: t)
  | [], t, _ => by simp
  | y :: q, [], _ => by simp [before]
  | y :: q, x :: t, h => by
    have hy : y ≠ 0 := by intro hc; exact h (by simp [hc])
    by_cases hx : x = 0
    · subst hx
      rw [before_zero]
      simp [List.cons_prefix_cons, hy]
    · rw [before_cons t hx, List.cons_prefix_cons, List.cons_prefix_cons, prefix_before q t (fun hh => h (List.mem_cons_of_mem _ hh))]

theorem occurs_before (q : WStr) (hq : 0 ∉ q) : ∀ (m : Nat) (t : WStr),
    (OccursAt q (before t) m ∧ m ≤ (before t).length) ↔ (OccursAt q t m ∧ m ≤ t.length ∧ ∀ k, k < m → t[k]? ≠ some 0)
  | 0, t => by simp [OccursAt, prefix_before q t hq]
  | m + 1, [] => by simp [before]
  | m + 1, x :: t => by
    by_cases hx : x = 0
    · subst hx
      rw [before_zero]
      simp only [List.length_nil, Nat.le_zero, Nat.add_eq_zero_iff, Nat.one_ne_zero, and_false, false_iff]
      rintro ⟨_, _, h⟩
      exact h 0 (by omega) rfl
    · have ih := occurs_before q hq m t
      rw [before_cons t hx]
      simp only [OccursAt, List.drop_succ_cons, List.length_cons, Nat.add_le_add_iff_right] at ih ⊢
      rw [ih]
      constructor
      · rintro ⟨a, b, c⟩
        refine ⟨a, b, fun k hk => ?_⟩
        cases k with
        | zero => simp [hx]
        | succ k => simpa using c k (by omega)
      · rintro ⟨a, b, c⟩
        exact ⟨a, b, fun k hk => by simpa using c (k + 1) (by omega)⟩

theorem drop_cells (v : WStr) (i : Nat) (h : i ≤ v.length) : (cells v).drop i = cells (v.drop i) := by
  unfold cells; rw [List.drop_append_of_le_length h]

/-- What `wcsstr` finds from a position: the first occurrence that is seen from there. -/
theorem find_seen (v p : WStr) (i : Nat) (h : i ≤ v.length) :
    match findText (cText ((cells v).drop i)) (cText (cells p)) with
    | none => ∀ j, i ≤ j → j ≤ v.length → ¬ Seen (before p) v i j
    | some k => Seen (before p) v i (i + k) ∧ i + k ≤ v.length ∧ ∀ j, i ≤ j → j < i + k → ¬ Seen (before p) v i j := by
  rw [drop_cells v i h, cText_cells_any, cText_cells_any]
  have hq := before_nonul p
  have key : ∀ j, i ≤ j → j ≤ v.length → Seen (before p) v i j → OccursAt (before p) (before (v.drop i)) (j - i) ∧ j - i ≤ (before (v.drop i)).length := by
    intro j h1 h2 ⟨s1, s2⟩
    refine (occurs_before _ hq (j - i) (v.drop i)).mpr ⟨?_, by simp; omega, fun k hk => ?_⟩
    · rw [occursAt_drop, show i + (j - i) = j by omega]; exact s1
    · rw [List.getElem?_drop]; exact s2 (i + k) (by omega) (by omega)
  cases hf : findText (before (v.drop i)) (before p) with
  | none =>
    intro j h1 h2 hs
    obtain ⟨a, b⟩ := key j h1 h2 hs
    exact findText_none hf _ b a
  | some k =>
    obtain ⟨f1, f2, f3⟩ := findText_some hf
    obtain ⟨g1, g2, g3⟩ := (occurs_before _ hq k (v.drop i)).mp ⟨f1, f2⟩
    rw [List.length_drop] at g2
    refine ⟨⟨by rw [← occursAt_drop]; exact g1, fun m h1 h2 => ?_⟩, by omega, fun j h1 h2 hs => ?_⟩
    · have := g3 (m - i) (by omega)
      rwa [List.getElem?_drop, show i + (m - i) = m by omega] at this
    · obtain ⟨a, b⟩ := key j h1 (by omega) hs
      exact f3 (j - i) (by omega) a

/-! ## C184: searches for a text -/

/-- **C184**, `IndexOf(text, start, count)` for all arguments: ArgumentNullException for null and for a range that is not inside the string; otherwise the first position in the range, its end included, at which
what is before the first NUL of the text stands without a NUL in between, or -1. -/
theorem C184_index_of_text (v : WStr) (value : Option WStr) (i n : Int) :
    match value with
    | none => indexOfStr v value i n = .throw .argumentNull
    | some p =>
      if 0 ≤ i ∧ 0 ≤ n ∧ i + n ≤ v.length then ∃ r, indexOfStr v value i n = .ok r ∧ IsFirst (Seen (before p) v i.toNat) i.toNat (i.toNat + n.toNat + 1) r
      else indexOfStr v value i n = .throw .argumentNull := by
  cases value with
  | none => rfl
  | some p =>
    simp only []
    by_cases h : 0 ≤ i ∧ 0 ≤ n ∧ i + n ≤ v.length
    · rw [if_pos h]
      have hs := find_seen v p i.toNat (by omega)
      unfold indexOfStr
      simp only []
      rw [if_neg (by omega), if_neg (by omega)]
      cases hf : findText (cText ((cells v).drop i.toNat)) (cText (cells p)) with
      | none =>
        rw [hf] at hs
        exact ⟨-1, rfl, .inl ⟨rfl, fun j h1 h2 => hs j h1 (by omega)⟩⟩
      | some k =>
        rw [hf] at hs
        simp only []
        obtain ⟨s1, s2, s3⟩ := hs
        refine ⟨_, rfl, ?_⟩
        by_cases hk : i + (k : Int) > i + n
        · rw [if_pos hk]
          exact .inl ⟨rfl, fun j h1 h2 => s3 j h1 (by omega)⟩
        · rw [if_neg hk]
          exact .inr ⟨i.toNat + k, by omega, by omega, by omega, s1, fun j h1 h2 => s3 j h1 h2⟩
    · rw [if_neg h]
      unfold indexOfStr
      simp only []
      by_cases h1 : i < 0 ∨ n < 0
      · rw [if_pos h1]
      · rw [if_neg h1, if_pos (by omega)]

example : indexOfStr [97, 0, 98, 99] (some (w "bc")) 0 4 = .ok (-1) ∧ indexOfStr [97, 0, 98, 99] (some (w "bc")) 2 2 = .ok 2 ∧ Seen (w "bc") [97, 0, 98, 99] 2 2 ∧
    before [98, 0, 120] = w "b" ∧ indexOfStr (w "abc") (some [98, 0, 120]) 0 3 = .ok 1 ∧ indexOfStr (w "abc") (some (w "c")) 2 2 = .throw .argumentNull := by
  refine ⟨by decide +kernel, by decide +kernel, ⟨by decide, fun k h1 h2 => by omega⟩, by decide +kernel, by decide +kernel, by decide +kernel⟩

/-- **C184**: the overloads of `IndexOf(text)` without a count or a start search to the end and from the beginning; the subtraction that finds the count is undefined exactly for a start so far before the
beginning that it overflows. -/
theorem C184_index_of_text_defaults (v p : WStr) (i : Int) :
    indexOfStr0 v none = .throw .argumentNull ∧ indexOfStr1 v none i = .throw .argumentNull ∧ indexOfStr0 v (some p) = indexOfStr v (some p) 0 v.length ∧
    indexOfStr1 v (some p) i = if I32 (v.length - i) then indexOfStr v (some p) i (v.length - i) else .ub := by
  refine ⟨rfl, rfl, rfl, ?_⟩
  unfold indexOfStr1 i32
  simp only []
  split <;> rfl

/-- The backward text search, for any texts: `n` steps down from `i`, nothing found above `i` up to `start`. -/
theorem lastStrLoop_any {v p : WStr} {start : Nat} (hst : start ≤ v.length) :
    ∀ (n i : Nat), n ≤ i + 1 → i ≤ start → (∀ j, i < j → j ≤ start → ¬ OccursAt (before p) v j) →
    ∃ r, lastStrLoop v p start n i = .ok r ∧ IsLast (OccursAt (before p) v) (i + 1 - n) (start + 1) r
  | 0, i, _, _, hno => ⟨-1, rfl, Or.inl ⟨rfl, fun j h1 h2 => hno j (by omega) (by omega)⟩⟩
  | n + 1, i, hn, h, hno => by
    unfold lastStrLoop
    rw [if_neg (by omega)]
    have hti : (i : Int).toNat = i := by omega
    rw [hti]
    have hs := find_seen v p i (by omega)
    have here : Seen (before p) v i i ↔ OccursAt (before p) v i := ⟨fun h => h.1, fun h => ⟨h, fun k h1 h2 => by omega⟩⟩
    have step : ∀ (_ : ¬ OccursAt (before p) v i), ∃ r, lastStrLoop v p start n (i - 1) = .ok r ∧ IsLast (OccursAt (before p) v) (i + 1 - (n + 1)) (start + 1) r := by
      intro hni
      cases i with
      | zero =>
        have hn0 : n = 0 := by omega
        subst hn0
        refine ⟨-1, rfl, Or.inl ⟨rfl, fun j h1 h2 => ?_⟩⟩
        by_cases hj : j = 0
        · subst hj; exact hni
        · exact hno j (by omega) (by omega)
      | succ i =>
        obtain ⟨r, hr, hs⟩ := lastStrLoop_any hst n i (by omega) (by omega) (fun j h1 h2 => by
          by_cases hji : j = i + 1
          · subst hji; exact hni
          · exact hno j (by omega) h2)
        refine ⟨r, by rw [← hr]; congr 1; omega, ?_⟩
        have e : i + 1 + 1 - (n + 1) = i + 1 - n := by omega
        rw [e]; exact hs
    cases hf : findText (cText ((cells v).drop i)) (cText (cells p)) with
    | none =>
      rw [hf] at hs
      exact step (fun hh => hs i (Nat.le_refl _) (by omega) (here.mpr hh))
    | some k =>
      rw [hf] at hs
      obtain ⟨s1, s2, s3⟩ := hs
      simp only []
      by_cases hk : (i : Int) + k ≤ start
      · rw [if_pos hk]
        have hk0 : k = 0 := by
          by_cases hk0 : k = 0
          · exact hk0
          · exact absurd s1.1 (hno (i + k) (by omega) (by omega))
        subst hk0
        exact ⟨_, rfl, Or.inr ⟨i, by simp, by omega, by omega, by simpa using s1.1, fun j h1 h2 => hno j h1 (by omega)⟩⟩
      · rw [if_neg hk]
        exact step (fun hh => s3 i (Nat.le_refl _) (by omega) (here.mpr hh))

/-- **C184**, `LastIndexOf(text, start, count)` for all arguments. With a negative start replaced by the last position and a negative count by one more than the start: ArgumentNullException for null;
undefined when that one more overflows; -1 for no steps; undefined from a start behind the string; otherwise the last position of the range at which what is before the first NUL of the text stands, and without
one -1 or, when the range runs past the beginning, undefined. -/
theorem C184_last_index_of_text (v : WStr) (hl : (v.length : Int) ≤ 2147483647) (value : Option WStr) (i n : Int) (hi : I32 i) (hn : I32 n) (start count : Int)
    (hs : start = if i < 0 then (v.length : Int) - 1 else i) (hc : count = if n < 0 then start + 1 else n) :
    match value with
    | none => lastIndexOfStr v value i n = .throw .argumentNull
    | some p =>
      if 2147483647 < count then lastIndexOfStr v value i n = .ub
      else if count = 0 then lastIndexOfStr v value i n = .ok (-1)
      else if start < 0 ∨ v.length < start then lastIndexOfStr v value i n = .ub
      else ∃ r, IsLast (OccursAt (before p) v) (start + 1 - count).toNat (start.toNat + 1) r ∧ lastIndexOfStr v value i n = if r = -1 ∧ start + 1 < count then .ub else .ok r := by
  cases value with
  | none => rfl
  | some p =>
    simp only []
    unfold I32 at hi hn
    have e : lastIndexOfStr v (some p) i n = if 2147483647 < count then .ub else lastStrLoop v p start count.toNat start := by
      unfold lastIndexOfStr lastRange
      simp only []
      rw [← hs]
      have hs0 : -1 ≤ start := by rw [hs]; split <;> omega
      by_cases h : n < 0
      · rw [if_pos h] at hc
        rw [if_pos h]
        by_cases ho : 2147483647 < count
        · rw [if_pos ho]; unfold i32; rw [if_neg (by unfold I32; omega)]; rfl
        · rw [if_neg ho, i32_ok (by unfold I32; omega), Res.bind_ok, Res.bind_ok, hc]
      · rw [if_neg h] at hc
        rw [if_neg h, if_neg (by omega), Res.bind_ok, Res.bind_ok, hc]
    rw [e]
    have hs0 : -1 ≤ start := by rw [hs]; split <;> omega
    have hc0 : 0 ≤ count := by rw [hc]; split <;> omega
    by_cases ho : 2147483647 < count
    · simp only [if_pos ho]
    simp only [if_neg ho]
    by_cases h0 : count = 0
    · rw [if_pos h0, h0]; rfl
    rw [if_neg h0]
    obtain ⟨m, hm⟩ : ∃ m, count.toNat = m + 1 := ⟨count.toNat - 1, by omega⟩
    by_cases hr : start < 0 ∨ v.length < start
    · rw [if_pos hr, hm, lastStrLoop, if_pos (by omega)]
    rw [if_neg hr]
    have e1 : (start.toNat : Int) = start := by omega
    by_cases hp : count ≤ start + 1
    · obtain ⟨r, h1, h2⟩ := lastStrLoop_any (v := v) (p := p) (start := start.toNat) (by omega) count.toNat start.toNat (by omega) (by omega) (fun j h1 h2 => by omega)
      rw [e1] at h1
      refine ⟨r, ?_, by rw [h1, if_neg (by omega)]⟩
      rw [show (start + 1 - count).toNat = start.toNat + 1 - count.toNat by omega]; exact h2
    · obtain ⟨r, h1, h2⟩ := lastStrLoop_any (v := v) (p := p) (start := start.toNat) (by omega) (start.toNat + 1) start.toNat (by omega) (by omega) (fun j h1 h2 => by omega)
      have hpast := lastStrLoop_past v p start count.toNat start.toNat (by omega) (by omega)
      rw [e1] at h1 hpast
      refine ⟨r, ?_, ?_⟩
      · rw [show (start + 1 - count).toNat = start.toNat + 1 - (start.toNat + 1) by omega]; exact h2
      · rw [hpast, h1, Res.bind_ok]
        by_cases hm : r = -1
        · rw [if_pos hm, if_pos ⟨hm, by omega⟩]
        · rw [if_neg hm, if_neg (fun hh => hm hh.1)]

example : lastIndexOfStr [97, 98, 0, 98, 0] (some [98, 0, 99]) (-1) (-1) = .ok 3 ∧ lastIndexOfStr (w "abc") (some (w "x")) 2 9 = .ub ∧ lastIndexOfStr [] (some (w "x")) (-1) 1 = .ub ∧
    lastIndexOfStr (w "abc") (some (w "x")) 2147483647 (-1) = .ub ∧ I32 2147483647 := by decide +kernel

/-! ## C184: forward character searches -/

/-- **C184**, `IndexOf(char, start, count)` for all arguments. -/
theorem C184_index_of (v : WStr) (c : Nat) (i n : Int) :
    if ¬ I32 (v.length - i) then indexOf v c i n = .ub
    else if v.length < i + n then indexOf v c i n = .throw .argumentNull
    else if ¬ I32 (i + n) then indexOf v c i n = .ub
    else if n ≤ 0 then indexOf v c i n = .ok (-1)
    else if i < 0 then indexOf v c i n = .throw .indexOutOfRange
    else ∃ r, indexOf v c i n = .ok r ∧ IsFirst (fun j => v[j]? = some c) i.toNat (i.toNat + n.toNat) r := by
  obtain ⟨a1, a2, a3, a4, a5, a6⟩ := C30_index_of_exact v c i n
  by_cases h1 : I32 (v.length - i)
  · rw [if_neg (fun h => h h1)]
    by_cases h2 : (v.length : Int) < i + n
    · rw [if_pos h2]; exact a2 h1 (by omega)
    rw [if_neg h2]
    by_cases h3 : I32 (i + n)
    · rw [if_neg (fun h => h h3)]
      by_cases h4 : n ≤ 0
      · rw [if_pos h4]; exact a4 h1 (by omega) h3 h4
      rw [if_neg h4]
      by_cases h5 : i < 0
      · rw [if_pos h5]; exact a5 h1 (by omega) h3 (by omega) h5
      · rw [if_neg h5]; exact a6 h1 (by omega) h3 (by omega) (by omega)
    · rw [if_pos h3]; exact a3 h1 (by omega) h3
  · rw [if_pos h1]; exact a1 h1

example : indexOf (w "banana") 110 3 3 = .ok 4 ∧ indexOf (w "banana") 110 (-1) 3 = .throw .indexOutOfRange ∧ indexOf (w "banana") 110 (-1) 0 = .ok (-1) ∧ indexOf (w "b") 98 (-2147483648) 0 = .ub := by decide +kernel

/-- **C184**, `IndexOfAny(chars, start, count)` for all arguments. -/
theorem C184_index_of_any (v : WStr) (arr : Option ArrArg) (i n : Int) :
    match arr with
    | none => indexOfAny v arr i n = .throw .argumentNull
    | some a =>
      if ¬ (0 ≤ i ∧ 0 ≤ n ∧ i + n ≤ v.length) then indexOfAny v arr i n = .throw .argumentNull
      else if a.oneDim = false then indexOfAny v arr i n = .throw .rank
      else if a.isChar = false then indexOfAny v arr i n = .throw .argumentNull
      else ∃ r, indexOfAny v arr i n = .ok r ∧ IsFirst (fun j => ∃ c, v[j]? = some c ∧ c ∈ a.data) i.toNat (i.toNat + n.toNat) r := by
  cases arr with
  | none => rfl
  | some a =>
    simp only []
    by_cases h : 0 ≤ i ∧ 0 ≤ n ∧ i + n ≤ v.length
    · rw [if_neg (fun hh => hh h)]
      by_cases hd : a.oneDim = false
      · rw [if_pos hd]; unfold indexOfAny; simp only [hd, if_true]; rw [if_neg (by omega), if_neg (by omega)]
      rw [if_neg hd]
      by_cases hc : a.isChar = false
      · rw [if_pos hc]; unfold indexOfAny; simp only [hc, hd, if_true]; rw [if_neg (by omega), if_neg (by omega)]; rfl
      rw [if_neg hc]
      exact (C30_index_of_any v a (by simpa using hc) (by simpa using hd) i n).1 h.1 h.2.1 h.2.2
    · rw [if_pos h]
      unfold indexOfAny
      simp only []
      by_cases h1 : i < 0 ∨ n < 0
      · rw [if_pos h1]
      · rw [if_neg h1, if_pos (by omega)]

example : indexOfAny (w "banana") (some ⟨true, true, w "xn"⟩) 3 3 = .ok 4 ∧ indexOfAny (w "banana") (some ⟨true, false, w "xn"⟩) 3 3 = .throw .rank ∧
    indexOfAny (w "banana") (some ⟨true, false, w "xn"⟩) 3 4 = .throw .argumentNull := by decide +kernel

/-! ## C184: constructors -/

/-- **C184**, the constructors for all arguments. From a `Char*`: the characters before the first NUL, undefined when there is none. From an array: null is the empty string, or undefined with a negative length; a
length of 0 (or an empty array with a negative length) is the empty string whatever the array; a range not inside the array and an array that is not of characters throw ArgumentOutOfRangeException, a matrix RankException;
a negative start is 0. From a character and an amount: that many, ArgumentOutOfRangeException for a negative amount, undefined for the largest amount. -/
theorem C184_constructors (mem : List Nat) (values : Option ArrArg) (i n : Int) (c : Nat) (amount : Int) (ha : I32 amount) :
    (newLiteral mem = if 0 ∈ mem then .ok (before mem) else .ub) ∧
    (newFromArray values i n = match values with
      | none => if n < 0 then .ub else .ok []
      | some a =>
        if n = 0 ∨ (n < 0 ∧ a.data = []) then .ok []
        else if a.data.length < (max i 0) + (if n < 0 then (a.data.length : Int) else n) ∨ a.isChar = false then .throw .argumentOutOfRange
        else if a.oneDim = false then .throw .rank
        else .ok (slice a.data i.toNat (if n < 0 then a.data.length else n.toNat))) ∧
    (newRepeat c amount = if amount < 0 then .throw .argumentOutOfRange else if amount = 2147483647 then .ub else .ok (List.replicate amount.toNat c)) := by
  refine ⟨?_, ?_, ?_⟩
  · unfold newLiteral
    have key : ∀ m : List Nat, wcslen m = if 0 ∈ m then some (before m).length else none := by
      intro m
      induction m with
      | nil => rfl
      | cons x t ih =>
        unfold wcslen
        by_cases hx : x = 0
        · subst hx; simp [before]
        · simp only [if_neg hx, ih, before_cons t hx]
          by_cases h0 : 0 ∈ t
          · simp [h0]
          · simp [h0, Ne.symm hx]
    rw [key]
    by_cases h : 0 ∈ mem
    · rw [if_pos h, if_pos h]
      simp only [Res.ok.injEq]
      have hp : before mem <+: mem := List.takeWhile_prefix _
      exact (List.prefix_iff_eq_take.mp hp).symm
    · rw [if_neg h, if_neg h]
  · cases values with
    | none => rfl
    | some a =>
      unfold newFromArray
      simp only []
      have e0 : (n = 0 ∨ (n < 0 ∧ a.data = [])) ↔ (if n < 0 then (a.data.length : Int) else n) = 0 := by
        have hd : a.data = [] ↔ a.data.length = 0 := List.length_eq_zero_iff.symm
        rw [hd]; split <;> omega
      have es : (if i < 0 then 0 else i) = max i 0 := by split <;> omega
      have en : (if n < 0 then a.data.length else n.toNat) = (if n < 0 then (a.data.length : Int) else n).toNat := by split <;> rfl
      simp only [e0, es, en]
      generalize (if n < 0 then (a.data.length : Int) else n) = m
      by_cases h : m = 0
      · rw [if_pos h, if_pos h]
      rw [if_neg h, if_neg h]
      by_cases h1 : (a.data.length : Int) < (max i 0) + m
      · rw [if_pos (show _ ∨ _ from .inl h1), if_pos (by omega)]
      rw [if_neg (show ¬ m > (a.data.length : Int) - max i 0 by omega)]
      by_cases h2 : a.isChar = false
      · rw [if_pos (show _ ∨ a.isChar = false from .inr h2), if_pos h2]
      rw [if_neg (show ¬ (_ ∨ _) from fun hh => hh.elim h1 h2), if_neg h2]
      by_cases h3 : a.oneDim = false
      · rw [if_pos h3, if_pos h3]
      rw [if_neg h3, if_neg h3]
      unfold slice
      rw [show (max i 0).toNat = i.toNat by omega]
  · unfold newRepeat i32
    unfold I32 at ha
    by_cases h : amount < 0
    · rw [if_pos h, if_pos h]
    rw [if_neg h, if_neg h]
    by_cases h2 : amount = 2147483647
    · rw [if_pos h2, if_neg (by unfold I32; omega)]; rfl
    · rw [if_neg h2, if_pos (by unfold I32; omega)]; rfl

example : newLiteral [97, 0, 98] = .ok (w "a") ∧ newLiteral [97] = .ub ∧ newFromArray (some ⟨true, true, w "hello"⟩) 1 3 = .ok (w "ell") ∧ newFromArray (some ⟨false, true, [1]⟩) 7 0 = .ok [] ∧
    newFromArray (some ⟨true, true, w "hello"⟩) 1 (-1) = .throw .argumentOutOfRange ∧ newRepeat 97 2 = .ok (w "aa") ∧ I32 2 := by decide +kernel

end Verif.StrProps
