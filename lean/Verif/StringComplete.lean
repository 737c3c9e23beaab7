import Verif.StringExact
import Verif.ExactProps
/-!
# C166, C167: what the extractions and the backward character searches of String do, for every argument
-/
namespace Verif.StrProps
open StrModel StrSpec SBModel

/-! ## C166: extraction -/

/-- **C166**. `Substring(start, length)` of every string, with every start and length (a negative length meaning "to the end"): ArgumentOutOfRangeException when the range is not inside the string, or when
the range is not empty and a NUL stands in front of it; otherwise exactly the characters of the range. -/
theorem C166_substring (v : WStr) (i n : Int) (m : Int) (hm : m = if n < 0 then (v.length : Int) - i else n) :
    substring v i n = if i < 0 ∨ v.length < i ∨ v.length < i + m ∨ (m ≠ 0 ∧ 0 ∈ v.take i.toNat) then .throw .argumentOutOfRange else .ok (slice v i.toNat m.toNat) := by
  by_cases h0 : i < 0
  · rw [if_pos (.inl h0)]; unfold substring; rw [if_pos h0]
  by_cases h1 : (v.length : Int) < i
  · rw [if_pos (.inr (.inl h1))]; unfold substring; rw [if_neg h0, if_pos (by omega)]
  have hm0 : 0 ≤ m := by rw [hm]; split <;> omega
  have e : substring v i n = substring v i m := by
    unfold substring
    have h1' : ¬ i > v.length := by omega
    simp only [if_neg h0, if_neg h1', ← hm, show ¬ m < 0 by omega, if_false]
  rw [e]
  by_cases h2 : (v.length : Int) < i + m
  · rw [if_pos (.inr (.inr (.inl h2)))]
    unfold substring
    simp only [show ¬ m < 0 by omega, if_false]
    rw [if_neg h0, if_neg (by omega), if_pos (by omega)]
  rw [C29_substring_exact v i m (by omega) hm0 (by omega)]
  by_cases h3 : m ≠ 0 ∧ 0 ∈ v.take i.toNat
  · rw [if_pos h3, if_pos (.inr (.inr (.inr h3)))]
  · rw [if_neg h3, if_neg (by rintro (h | h | h | h) <;> first | exact h3 h | omega)]

example : substring (w "hello") 1 3 = .ok (w "ell") ∧ substring (w "hello") 2 (-5) = .ok (w "llo") ∧ substring (w "hello") 6 (-1) = .throw .argumentOutOfRange ∧
    substring [0, 97] 1 (-1) = .throw .argumentOutOfRange ∧ substring [0, 97] 2 0 = .ok [] := by decide +kernel

/-- **C166**. `ToCharArray(start, length)`: exactly the characters of the range; ArgumentOutOfRangeException when the start is negative or the range ends behind the string, undefined (an array of negative size)
when the length is negative and the start lies behind the string. -/
theorem C166_to_char_array (v : WStr) (i n : Int) :
    toCharArray v i n = if i < 0 ∨ (0 ≤ n ∧ v.length < i + n) then .throw .argumentOutOfRange
      else if n < 0 ∧ v.length < i then .ub
      else .ok (if n < 0 then v.drop i.toNat else slice v i.toNat n.toNat) := by
  obtain ⟨h1, h2, h3⟩ := C29_to_char_array_partial v i n
  by_cases ha : i < 0 ∨ (0 ≤ n ∧ (v.length : Int) < i + n)
  · rw [if_pos ha]; exact h3 (by omega)
  rw [if_neg ha]
  by_cases hb : n < 0 ∧ (v.length : Int) < i
  · rw [if_pos hb]; exact C29_to_char_array_refuted v i n (by omega) hb.1
  rw [if_neg hb]
  by_cases hn : n < 0
  · rw [if_pos hn]; exact h2 (by omega) (by omega) hn
  · rw [if_neg hn]; exact h1 (by omega) (by omega) (by omega)

example : toCharArray (w "hello") 1 3 = .ok (w "ell") ∧ toCharArray (w "hello") 5 (-1) = .ok [] ∧ toCharArray (w "hello") 6 (-1) = .ub := by decide +kernel

/-- **C166**. `CopyTo` with every destination, positions and count: ArgumentNullException for a null array, an array that is not of characters and for every range that is not inside the string and the array,
RankException for a matrix, IndexOutOfRangeException for an empty range at the end of the string or of the array; otherwise the characters of the range replace those of the array, the others staying. -/
theorem C166_copy_to (v : WStr) (dest : Option ArrArg) (i j n : Int) :
    copyTo v i dest j n = match dest with
      | none => .throw .argumentNull
      | some a =>
        if a.oneDim = false then .throw .rank
        else if a.isChar = false ∨ ¬ (0 ≤ i ∧ 0 ≤ j ∧ 0 ≤ n ∧ i + n ≤ v.length ∧ j + n ≤ a.data.length) then .throw .argumentNull
        else if n = 0 ∧ (i = v.length ∨ j = a.data.length) then .throw .indexOutOfRange
        else .ok (a.data.take j.toNat ++ slice v i.toNat n.toNat ++ a.data.drop (j.toNat + n.toNat)) := by
  cases dest with
  | none => rfl
  | some a =>
    simp only []
    by_cases hd : a.oneDim = false
    · rw [if_pos hd]; unfold copyTo; simp only [hd, if_true]
    rw [if_neg hd]
    by_cases hc : a.isChar = false
    · rw [if_pos (.inl hc)]; unfold copyTo; simp only [hd, hc, if_true]; rfl
    obtain ⟨h1, h2⟩ := C29_copy_to_partial v a (by simpa using hc) (by simpa using hd) i j n
    by_cases hr : 0 ≤ i ∧ 0 ≤ j ∧ 0 ≤ n ∧ i + n ≤ v.length ∧ j + n ≤ a.data.length
    · rw [if_neg (fun h => h.elim hc (fun h => h hr))]
      by_cases he : n = 0 ∧ (i = v.length ∨ j = a.data.length)
      · rw [if_pos he]
        unfold copyTo
        simp only []
        rw [if_neg hd, if_neg hc, if_neg (by omega), if_neg (by omega), if_neg (by omega), if_neg (by omega)]
        by_cases hi : i ≥ v.length
        · rw [if_pos hi]
        · rw [if_neg hi, if_pos (by omega)]
      · rw [if_neg he]
        exact h1 hr.1 hr.2.1 hr.2.2.1 hr.2.2.2.1 hr.2.2.2.2 (by omega)
    · rw [if_pos (.inr hr)]; exact h2 hr

example : copyTo (w "hello") 1 (some ⟨true, true, w "abcdef"⟩) 2 3 = .ok (w "abellf") ∧ copyTo (w "hello") 5 (some ⟨true, true, w "abc"⟩) 0 0 = .throw .indexOutOfRange := by decide +kernel

/-! ## C167: backward searches for characters -/

/-- What a backward search for a character does: `start` is the first position looked at, `count` how many are asked for. -/
inductive SearchedBack (P : Nat → Prop) (len : Nat) (start count : Int) : Res Int → Prop where
  /-- `start + 1` is not an Int32 -/
  | undefined (h : 2147483647 < count) : SearchedBack P len start count .ub
  | nothing (h : count = 0) : SearchedBack P len start count (.ok (-1))
  /-- the first position is not in the string -/
  | outside (h : 0 < count) (h2 : count ≤ 2147483647) (hs : start < 0 ∨ (len : Int) ≤ start) : SearchedBack P len start count (.throw .indexOutOfRange)
  /-- the last position among those asked for -/
  | found (r : Int) (h : 0 < count) (h2 : count ≤ 2147483647) (hs : 0 ≤ start ∧ start < len) (hr : r ≠ -1) (hl : IsLast P (start + 1 - count).toNat (start.toNat + 1) r) : SearchedBack P len start count (.ok r)
  | absent (h : 0 < count) (hs : 0 ≤ start ∧ start < len) (hc : count ≤ start + 1) (hl : IsLast P (start + 1 - count).toNat (start.toNat + 1) (-1)) : SearchedBack P len start count (.ok (-1))
  /-- not found, and more positions were asked for than there are -/
  | ranOff (h2 : count ≤ 2147483647) (hs : 0 ≤ start ∧ start < len) (hc : start + 1 < count) (hl : IsLast P (start + 1 - count).toNat (start.toNat + 1) (-1)) : SearchedBack P len start count (.throw .indexOutOfRange)

theorem searchedBack (p : Nat → Bool) (v : WStr) (hl : (v.length : Int) ≤ 2147483647) (i n start count : Int) (hi : I32 i) (hn : I32 n) (hs : start = if i < 0 then (v.length : Int) - 1 else i) (hc : count = if n < 0 then start + 1 else n) :
    SearchedBack (fun j => ∃ c, v[j]? = some c ∧ p c = true) v.length start count (lastRange v i n >>= fun r => lastLoop p v r.2 r.1) := by
  unfold I32 at hi hn
  have hs1 : -1 ≤ start := by rw [hs]; split <;> omega
  have hc0 : 0 ≤ count := by rw [hc]; split <;> omega
  by_cases ho : 2147483647 < count
  · have : lastRange v i n = .ub := by
      unfold lastRange
      simp only [← hs]
      have h0 : n < 0 := by rw [hc] at ho; split at ho <;> omega
      rw [if_pos h0] at hc
      rw [if_pos h0]
      unfold i32
      rw [if_neg (by unfold I32; omega)]; rfl
    rw [this]; exact .undefined ho
  have e : lastRange v i n = .ok (start, count.toNat) := by
    unfold lastRange
    simp only [← hs]
    by_cases h0 : n < 0
    · rw [if_pos h0] at hc ⊢
      rw [i32_ok (by unfold I32; omega), Res.bind_ok, hc]
    · rw [if_neg h0] at hc ⊢
      rw [Res.bind_ok, hc]
  rw [e, Res.bind_ok]
  simp only []
  clear e hc hs hi hn
  by_cases h0 : count = 0
  · rw [h0]; exact .nothing rfl
  by_cases hb : start < 0 ∨ (v.length : Int) ≤ start
  · obtain ⟨k, hk⟩ : ∃ k, count.toNat = k + 1 := ⟨count.toNat - 1, by omega⟩
    rw [hk, lastLoop, getChars_throw (by omega)]
    exact .outside (by omega) (by omega) hb
  obtain ⟨s, rfl⟩ : ∃ s : Nat, start = s := ⟨start.toNat, by omega⟩
  by_cases hle : count ≤ (s : Int) + 1
  · obtain ⟨r, hr, hsp⟩ := lastLoop_spec p v count.toNat s (by omega) (by omega)
    rw [hr]
    have e1 : s + 1 - count.toNat = ((s : Int) + 1 - count).toNat := by omega
    rw [e1] at hsp
    by_cases hm : r = -1
    · subst hm; exact .absent (by omega) (by omega) hle hsp
    · exact .found r (by omega) (by omega) (by omega) hm hsp
  · rw [lastLoop_past p v count.toNat s (by omega) (by omega)]
    obtain ⟨r, hr, hsp⟩ := lastLoop_spec p v (s + 1) s (by omega) (by omega)
    rw [hr, Res.bind_ok]
    have e1 : s + 1 - (s + 1) = ((s : Int) + 1 - count).toNat := by omega
    rw [e1] at hsp
    by_cases hm : r = -1
    · subst hm; rw [if_pos rfl]; exact .ranOff (by omega) (by omega) (by omega) hsp
    · rw [if_neg hm]; exact .found r (by omega) (by omega) (by omega) hm hsp

/-- **C167**. `LastIndexOf(Char, start, count)` of every string, for every start (negative: the last position) and count (negative: all the way down): exactly one of the outcomes listed in `SearchedBack`. -/
theorem C167_last_index_of (v : WStr) (hl : (v.length : Int) ≤ 2147483647) (c : Nat) (i n : Int) (hi : I32 i) (hn : I32 n) (start count : Int)
    (hs : start = if i < 0 then (v.length : Int) - 1 else i) (hc : count = if n < 0 then start + 1 else n) :
    SearchedBack (fun j => v[j]? = some c) v.length start count (lastIndexOf v c i n) := by
  have h := searchedBack (fun d => d == c) v hl i n start count hi hn hs hc
  have e : (fun (j : Nat) => ∃ d, v[j]? = some d ∧ (d == c) = true) = fun j => v[j]? = some c := by
    funext j; simp
  rw [e] at h; exact h

/-- **C167**. `LastIndexOfAny(chars, start, count)` of every string, for every array, start and count: ArgumentNullException for null (and for an array that is not of characters), RankException for a matrix (both
after the overflow of `start + 1`), -1 for an empty array, and otherwise one of the outcomes of `SearchedBack`. -/
theorem C167_last_index_of_any (v : WStr) (hl : (v.length : Int) ≤ 2147483647) (arr : Option ArrArg) (i n : Int) (hi : I32 i) (hn : I32 n) (start count : Int)
    (hs : start = if i < 0 then (v.length : Int) - 1 else i) (hc : count = if n < 0 then start + 1 else n) :
    match arr with
    | none => lastIndexOfAny v arr i n = .throw .argumentNull
    | some a =>
      if 2147483647 < count then lastIndexOfAny v arr i n = .ub
      else if a.oneDim = false then lastIndexOfAny v arr i n = .throw .rank
      else if a.isChar = false then lastIndexOfAny v arr i n = .throw .argumentNull
      else if a.data = [] then lastIndexOfAny v arr i n = .ok (-1)
      else SearchedBack (fun j => ∃ d, v[j]? = some d ∧ d ∈ a.data) v.length start count (lastIndexOfAny v arr i n) := by
  cases arr with
  | none => rfl
  | some a =>
    have h := searchedBack (fun d => a.data.contains d) v hl i n start count hi hn hs hc
    simp only []
    have hs1 : -1 ≤ start := by unfold I32 at hi; rw [hs]; split <;> omega
    by_cases ho : 2147483647 < count
    · rw [if_pos ho]
      unfold I32 at hn
      have : lastRange v i n = .ub := by
        unfold lastRange
        simp only [← hs]
        have h0 : n < 0 := by rw [hc] at ho; split at ho <;> omega
        rw [if_pos h0] at hc
        rw [if_pos h0]
        unfold i32
        rw [if_neg (by unfold I32; omega)]; rfl
      unfold lastIndexOfAny; simp only [this]; rfl
    rw [if_neg ho]
    have e : lastRange v i n = .ok (start, count.toNat) := by
      unfold lastRange
      simp only [← hs]
      by_cases h0 : n < 0
      · rw [if_pos h0] at hc ⊢
        rw [i32_ok (by unfold I32; omega), Res.bind_ok, hc]
      · rw [if_neg h0] at hc ⊢
        rw [Res.bind_ok, hc]
    unfold lastIndexOfAny
    rw [e, Res.bind_ok] at h
    simp only [e, Res.bind_ok]
    by_cases hd : a.oneDim = false
    · rw [if_pos hd, if_pos hd]
    · rw [if_neg hd, if_neg hd]
      by_cases hch : a.isChar = false
      · rw [if_pos hch, if_pos hch]
      · rw [if_neg hch, if_neg hch]
        by_cases he : a.data = []
        · rw [if_pos he, if_pos he]
        · rw [if_neg he, if_neg he]
          have e2 : (fun (j : Nat) => ∃ c, v[j]? = some c ∧ a.data.contains c = true) = fun j => ∃ c, v[j]? = some c ∧ c ∈ a.data := by
            funext j; simp
          rw [e2] at h; exact h

example : I32 (-1) ∧ I32 9 ∧ lastIndexOf (w "banana") 97 (-1) (-1) = .ok 5 ∧ lastIndexOf (w "banana") 97 4 2 = .ok 3 ∧ lastIndexOf (w "banana") 122 4 9 = .throw .indexOutOfRange ∧
    lastIndexOf (w "banana") 97 9 (-1) = .throw .indexOutOfRange ∧ lastIndexOf (w "banana") 98 2 9 = .ok 0 ∧ lastIndexOfAny (w "banana") (some ⟨true, true, w "nb"⟩) 3 (-1) = .ok 2 := by decide +kernel

end Verif.StrProps
