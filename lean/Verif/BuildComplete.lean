import Verif.StringComplete
/-!
# C168: what the String operations that build another string do, for every argument
-/
namespace Verif.StrProps
open SBModel SBProps SBSpec StrSpec StrModel

/-- **C168**. `PadLeft` and `PadRight` of every string, with every width and character. -/
theorem C168_pad (v : WStr) (width : Int) (c : Nat) :
    padLeft v width c = (if width < 0 then .throw .argumentOutOfRange else if (v.length : Int) < width ∧ limit < v.length + width then .ub else .ok (List.replicate (width - v.length).toNat c ++ v)) ∧
    padRight v width c = (if width < 0 then .throw .argumentOutOfRange else if (v.length : Int) < width ∧ limit < v.length + width then .ub else .ok (v ++ List.replicate (width - v.length).toNat c)) := by
  by_cases h0 : width < 0
  · rw [if_pos h0, if_pos h0]
    exact ⟨(C35_pad_left_partial v width c).2 h0, (C35_pad_right_partial v width c).2 h0⟩
  · rw [if_neg h0, if_neg h0]
    exact C35_pad_exact v width c (by omega)

example : padLeft (w "7") 3 48 = .ok (w "007") ∧ padRight (w "ab") 1 32 = .ok (w "ab") ∧ padLeft (w "ab") (-1) 32 = .throw .argumentOutOfRange ∧ padRight (w "a") 2147483520 32 = .ub := by decide +kernel

/-- **C168**. `Concat` of every array of references and of every list of operands: the texts in order. A null array or a null first operand is refused, a matrix is a RankException; a null element of an array, an array of
values and a result of more than 2147483520 characters are undefined. -/
theorem C168_concat (arr : Option ObjArr) (o1 : Option WStr) (rest : List (Option WStr)) :
    concatArray arr = (match arr with
      | none => .throw .argumentNull
      | some a =>
        if a.oneDim = false then .throw .rank
        else if (a.refs = false ∧ a.items ≠ []) ∨ none ∈ a.items ∨ limit < ((a.items.map (·.getD [])).flatten.length : Int) then .ub
        else .ok (a.items.map (·.getD [])).flatten) ∧
    concat o1 rest = (match o1 with
      | none => .throw .argumentNull
      | some a => if limit < ((a ++ (rest.map (·.getD [])).flatten).length : Int) then .ub else .ok (a ++ (rest.map (·.getD [])).flatten)) := by
  refine ⟨?_, ?_⟩
  · cases arr with
    | none => rfl
    | some a =>
      obtain ⟨refs, oneDim, items⟩ := a
      simp only []
      cases oneDim with
      | false => rfl
      | true =>
        simp only [Bool.true_eq_false, if_false]
        have h := C36_concat_array_exact items
        cases refs with
        | true =>
          rw [h]
          simp only [Bool.true_eq_false, false_and, false_or]
        | false =>
          unfold concatArray at h ⊢
          simp only [Bool.true_eq_false, if_false, false_and, true_and] at h ⊢
          by_cases he : items = []
          · subst he
            rw [if_neg (fun hh => hh rfl), h]
            simp
          · rw [if_pos he, if_pos (Or.inl he)]
  · rw [C36_concat_exact]
    cases o1 with
    | none => rfl
    | some a =>
      simp only [List.length_append]
      rw [Int.natCast_add]

example : concat (some (w "ab")) [none, some (w "c")] = .ok (w "abc") ∧ concatArray (some ⟨true, true, [some (w "x"), some (w "y")]⟩) = .ok (w "xy") ∧ concatArray (some ⟨false, true, []⟩) = .ok [] ∧
    concatArray (some ⟨true, false, []⟩) = .throw .rank := by decide +kernel

/-- **C168**. `Insert` into every string, at every position, of every text: refused when the text is null or the position outside the string; IndexOutOfRangeException when the string or the text is empty; undefined
when the result exceeds 2147483520 characters; otherwise the insertion. -/
theorem C168_insert (v : WStr) (i : Int) (value : Option WStr) (h32 : (v.length : Int) ≤ 2147483647) :
    StrModel.insert v i value = match value with
      | none => .throw .argumentNull
      | some p =>
        if i < 0 ∨ v.length < i then .throw .argumentOutOfRange
        else if v = [] ∨ (p = [] ∧ (v.length : Int) ≤ limit) then .throw .indexOutOfRange
        else if limit < (v.length : Int) + p.length then .ub
        else .ok (insertAt v i.toNat p) := by
  cases value with
  | none => rfl
  | some p =>
    simp only []
    by_cases hi : i < 0 ∨ (v.length : Int) < i
    · rw [if_pos hi]; exact (C66_insert_partial v p i).2 hi
    rw [if_neg hi]
    by_cases hs : (v.length : Int) + p.length ≤ 2147483647
    · exact C66_insert_exact v p i (by omega) (by omega) hs
    have hp : p ≠ [] := by rintro rfl; simp at hs; omega
    have hl : limit < (v.length : Int) + p.length := by simp only [limit]; omega
    by_cases hv : v = []
    · rw [if_pos (.inl hv)]
      subst hv
      unfold StrModel.insert
      simp only []
      rw [if_neg (by omega), sbOf_empty]; rfl
    rw [if_neg (fun h => h.elim hv (fun h => hp h.1)), if_pos hl]
    unfold StrModel.insert
    simp only []
    rw [if_neg (by omega)]
    by_cases hvl : (v.length : Int) ≤ limit
    · obtain ⟨s, hs', s1, s2, s3, s4, s5, s6, s7⟩ := sbOf_ok hv hvl
      rw [hs', andThen_done]
      have : insertStr s i (some p) 1 = .ub := by
        show insertLoop i p 1 s = .ub
        unfold insertLoop
        rw [if_neg (fun hh => hp (List.length_eq_zero_iff.mp hh))]
        unfold appendRaw
        simp only []
        rw [if_neg (by split <;> omega)]
        unfold ensureRoomFor
        rw [if_pos (by unfold I32; omega)]
        rfl
      rw [this]; rfl
    · rw [sbOf_over (by omega) h32]; rfl

example : StrModel.insert (w "ad") 1 (some (w "bc")) = .ok (w "abcd") ∧ StrModel.insert (w "ad") 3 (some (w "bc")) = .throw .argumentOutOfRange ∧ StrModel.insert (w "ad") 1 none = .throw .argumentNull ∧
    StrModel.insert (w "ad") 1 (some []) = .throw .indexOutOfRange := by decide +kernel

/-- **C168**. `Remove` from every string, with every start and count (negative: to the end). `ov`: whether `memcpy` tolerates overlap. -/
theorem C168_remove (ov : Bool) (v : WStr) (i n : Int) (h32 : (v.length : Int) ≤ 2147483647) (hi : I32 i) :
    StrModel.remove ov v i n =
      if v = [] then .throw .indexOutOfRange
      else if limit < (v.length : Int) then .ub
      else if n < 0 then (if 2147483647 < v.length - i then .ub else if i < 0 ∨ v.length < i then .throw .argumentOutOfRange else .ok (v.take i.toNat))
      else if i < 0 ∨ v.length < i + n then .throw .argumentOutOfRange
      else if ov = false ∧ n < v.length - i - n then .ub
      else .ok (removeAt v i.toNat n.toNat) := by
  by_cases hv : v = []
  · rw [if_pos hv]; subst hv
    unfold StrModel.remove; rw [sbOf_empty]
  rw [if_neg hv]
  by_cases hl : limit < (v.length : Int)
  · rw [if_pos hl]; unfold StrModel.remove; rw [sbOf_over hl h32]
  rw [if_neg hl]
  obtain ⟨p1, p2, p3⟩ := C66_remove_partial ov v i n hv (by omega) hi
  unfold I32 at hi
  by_cases hn : n < 0
  · rw [if_pos hn]
    obtain ⟨s, hs', s1, s2, s3, s4, s5, s6, s7⟩ := sbOf_ok hv (by omega : (v.length : Int) ≤ limit)
    by_cases ho : 2147483647 < (v.length : Int) - i
    · rw [if_pos ho]
      unfold StrModel.remove
      rw [hs']
      simp only []
      rw [if_pos hn]
      unfold i32
      rw [if_neg (by unfold I32; omega)]; rfl
    rw [if_neg ho]
    by_cases hb : i < 0 ∨ (v.length : Int) < i
    · rw [if_pos hb]
      unfold StrModel.remove
      rw [hs']
      simp only []
      rw [if_pos hn, i32_ok (by unfold I32; omega), Res.bind_ok]
      unfold SBModel.remove
      by_cases hc : (v.length : Int) - i < 0
      · rw [if_pos hc]; rfl
      · rw [if_neg hc, if_pos (by omega)]; rfl
    · rw [if_neg hb]; exact p2 (by omega) (by omega) hn
  · rw [if_neg hn]
    by_cases hb : i < 0 ∨ (v.length : Int) < i + n
    · rw [if_pos hb]; exact p3 ⟨by omega, by omega⟩
    · rw [if_neg hb]
      exact C66_remove_exact ov v i n hv (by omega) (by omega) (by omega) (by omega)

example : StrModel.remove true (w "hello") 1 2 = .ok (w "hlo") ∧ StrModel.remove true (w "hello") 2 (-1) = .ok (w "he") ∧ StrModel.remove true (w "hello") 4 2 = .throw .argumentOutOfRange ∧
    StrModel.remove true (w "hello") (-2147483648) (-1) = .ub ∧ StrModel.remove false (w "hello") 1 1 = .ub := by decide +kernel

/-- **C168**. `Replace(Char, Char)` in every string. -/
theorem C168_replace_char (v : WStr) (old new : Nat) (h32 : (v.length : Int) ≤ 2147483647) :
    StrModel.replaceChar v old new = if v = [] then .throw .indexOutOfRange else if limit < (v.length : Int) then .ub else .ok (v.map fun c => if c = old then new else c) := by
  by_cases hv : v = []
  · rw [if_pos hv]; subst hv; exact (C66_empty_refuted true 0 0 old new none none [97] (by decide)).2.1
  rw [if_neg hv]
  by_cases hl : limit < (v.length : Int)
  · rw [if_pos hl]; unfold StrModel.replaceChar; rw [sbOf_over hl h32]; rfl
  · rw [if_neg hl]; exact C66_replace_char_partial v old new hv (by omega)

example : StrModel.replaceChar (w "banana") 97 111 = .ok (w "bonono") ∧ StrModel.replaceChar [] 97 111 = .throw .indexOutOfRange := by decide +kernel

/-- **C168**. `Trim`, `TrimStart` and `TrimEnd` of every string with every argument: an array of other things than characters and a matrix are refused (unless empty); when a NUL stands among the characters to be cut off in
front, cutting them off throws; otherwise exactly the leading, trailing or both kinds of trim characters are gone. -/
theorem C168_trim (v : WStr) (sep : Option ArrArg) (front back : Bool) (hf : front = true ∨ back = true) :
    (∀ a, sep = some a → a.data ≠ [] → a.isChar = false → trim v sep front back = .throw .argumentOutOfRange) ∧
    (∀ a, sep = some a → a.data ≠ [] → a.isChar = true → a.oneDim = false → trim v sep front back = .throw .rank) ∧
    ((∀ a, sep = some a → a.data ≠ [] → a.isChar = true ∧ a.oneDim = true) →
      (front = true → 0 ∈ v.takeWhile (· ∈ trimSet sep) → trim v sep front back = .throw .argumentOutOfRange) ∧
      (front = false ∨ 0 ∉ v.takeWhile (· ∈ trimSet sep) → ∃ mid, trim v sep front back = .ok mid ∧
        (front = true → back = true → Trimmed (trimSet sep) v mid) ∧ (front = true → back = false → TrimmedStart (trimSet sep) v mid) ∧ (front = false → TrimmedEnd (trimSet sep) v mid))) := by
  refine ⟨?_, ?_, ?_⟩
  · rintro a rfl h1 h2
    unfold trim
    simp only []
    rw [if_neg (fun h => h1 (List.length_eq_zero_iff.mp h)), if_pos h2]
  · rintro a rfl h1 h2 h3
    unfold trim
    simp only []
    rw [if_neg (fun h => h1 (List.length_eq_zero_iff.mp h)), if_neg (by simp [h2]), if_pos h3]
  · intro h
    have e : ∃ sep', (∀ a, sep' = some a → a.isChar = true ∧ a.oneDim = true) ∧ trimSet sep' = trimSet sep ∧ ∀ b1 b2, trim v sep' b1 b2 = trim v sep b1 b2 := by
      cases sep with
      | none => exact ⟨none, by simp, rfl, fun _ _ => rfl⟩
      | some a =>
        by_cases hd : a.data = []
        · refine ⟨none, by simp, ?_, fun _ _ => ?_⟩
          · unfold trimSet; simp [hd]
          · unfold trim; simp [hd]
        · refine ⟨some a, ?_, rfl, fun _ _ => rfl⟩
          rintro b hb
          cases hb
          exact h a rfl hd
    obtain ⟨sep', h1, h2, h3⟩ := e
    obtain ⟨t1, t2, t3⟩ := C34_trim_exact v sep' h1
    rw [h2] at t1 t2 t3
    simp only [h3] at t1 t2 t3
    refine ⟨fun hh hm => ?_, fun hm => ?_⟩
    · subst hh
      cases back with
      | true => exact (t1 hm).1
      | false => exact (t1 hm).2
    · cases front with
      | false =>
        have hb : back = true := by simpa using hf
        subst hb
        obtain ⟨m, m1, m2⟩ := t3
        exact ⟨m, m1, by simp, by simp, fun _ => m2⟩
      | true =>
        have hm' : 0 ∉ v.takeWhile (· ∈ trimSet sep) := hm.elim (by simp) id
        obtain ⟨⟨m, m1, m2⟩, ⟨k, k1, k2⟩⟩ := t2 hm'
        cases back with
        | true => exact ⟨m, m1, fun _ _ => m2, by simp, by simp⟩
        | false => exact ⟨k, k1, by simp, fun _ _ => k2, by simp⟩

example : trim (w "  ab ") none true true = .ok (w "ab") ∧ trim (w "xxabx") (some ⟨true, true, w "x"⟩) false true = .ok (w "xxab") ∧ trim (w "a") (some ⟨false, true, w "x"⟩) true true = .throw .argumentOutOfRange ∧
    trim [0, 97] (some ⟨true, true, [0]⟩) true false = .throw .argumentOutOfRange := by decide +kernel

end Verif.StrProps
