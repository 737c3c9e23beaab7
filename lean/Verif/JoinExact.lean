import Verif.StringSearchExact
set_option linter.unusedSimpArgs false
set_option linter.unusedVariables false
/-!
# C185: what Join with a string separator, StartsWith, EndsWith and Contains do with every argument
-/
namespace Verif.StrProps
open SBModel SBProps SBSpec StrSpec StrModel

/-- What is appended, one after the other: the first element, and the separator before each further element. -/
def pieces (sep : Option WStr) : List (Option WStr) → List (Option WStr)
  | [] => []
  | o :: t => o :: t.flatMap (fun q => [sep, q])

theorem appendObj_eq (s : SB) (o : Option WStr) : appendStr s o 0 (-1) = appendObj s o := by
  cases o with
  | none => unfold appendStr appendObj; simp
  | some t => rfl

theorem joinLoop_rest (sep : Option WStr) : ∀ (t : List (Option WStr)) (s : SB),
    joinLoop (fun s => appendStr s sep 0 (-1)) false t s = concatLoop (t.flatMap (fun q => [sep, q])) s
  | [], s => rfl
  | o :: t, s => by
    simp only [joinLoop, List.flatMap_cons, List.cons_append, List.nil_append, concatLoop, Bool.false_eq_true, if_false, appendObj_eq]
    congr 1
    funext s1
    congr 1
    funext s2
    exact joinLoop_rest sep t s2

theorem joinLoop_pieces (sep : Option WStr) (t : List (Option WStr)) (s : SB) :
    joinLoop (fun s => appendStr s sep 0 (-1)) true t s = concatLoop (pieces sep t) s := by
  cases t with
  | nil => rfl
  | cons o t =>
    show (Out.done s).andThen _ = _
    rw [andThen_done]
    show (appendObj s o).andThen _ = (appendObj s o).andThen _
    congr 1
    funext s1
    exact joinLoop_rest sep t s1

theorem pieces_none (sep : Option WStr) (t : List (Option WStr)) : none ∈ pieces sep t ↔ none ∈ t ∨ (sep = none ∧ 2 ≤ t.length) := by
  cases t with
  | nil => simp [pieces]
  | cons o t =>
    simp only [pieces, List.mem_cons, List.mem_flatMap, List.length_cons]
    constructor
    · rintro (h | ⟨q, hq, h | h | h⟩)
      · exact .inl (.inl h)
      · exact .inr ⟨h.symm, by have := List.length_pos_of_mem hq; omega⟩
      · exact .inl (.inr (h ▸ hq))
      · cases h
    · rintro ((h | h) | ⟨h, hl⟩)
      · exact .inl h
      · exact .inr ⟨none, h, by simp⟩
      · obtain ⟨q, hq⟩ := List.exists_mem_of_length_pos (l := t) (by omega)
        exact .inr ⟨q, hq, by simp [h]⟩

theorem pieces_text (sep : Option WStr) (t : List (Option WStr)) : ((pieces sep t).map (·.getD [])).flatten = joined (sep.getD []) (t.map (·.getD [])) := by
  cases t with
  | nil => rfl
  | cons o t =>
    simp only [pieces, List.map_cons, List.flatten_cons]
    induction t generalizing o with
    | nil => simp [joined]
    | cons q t ih =>
      rw [List.map_cons, joined, ← ih q]
      simp

/-- **C185**, `Join(separator, array, start, count)` for all arguments, a negative count meaning to the end: ArgumentNullException for a null array, the empty string for an empty array, RankException for a matrix,
ArgumentNullException for a range that is not inside the array (only a negative count may go with a start behind the end: the empty string). Undefined exactly for a range that is not empty in an array that is not of
references, for a null element in the range, for a null separator between two elements and for a result of more than 2147483520 characters; otherwise the elements with the separator between them. -/
theorem C185_join (sep : Option WStr) (values : Option ObjArr) (i n : Int) :
    joinStr sep values i n = match values with
      | none => .throw .argumentNull
      | some a =>
        if a.items = [] then .ok []
        else if a.oneDim = false then .throw .rank
        else if i < 0 ∨ (0 ≤ n ∧ a.items.length < i + n) then .throw .argumentNull
        else
          let range := (a.items.drop i.toNat).take (if n < 0 then a.items.length else n.toNat)
          let text := joined (sep.getD []) (range.map (·.getD []))
          if (range ≠ [] ∧ a.refs = false) ∨ none ∈ range ∨ (sep = none ∧ 2 ≤ range.length) ∨ 2147483520 < text.length then .ub
          else .ok text := by
  cases values with
  | none => rfl
  | some a =>
    unfold joinStr joinWith
    simp only []
    by_cases h0 : a.items = []
    · rw [if_pos (List.length_eq_zero_iff.mpr h0), if_pos h0]
    rw [if_neg (fun h => h0 (List.length_eq_zero_iff.mp h)), if_neg h0]
    by_cases hd : a.oneDim = false
    · rw [if_pos hd, if_pos hd]
    rw [if_neg hd, if_neg hd]
    by_cases hi : i < 0
    · rw [if_pos hi, if_pos (show _ ∨ _ from .inl hi)]
    rw [if_neg hi]
    by_cases hr : 0 ≤ n ∧ (a.items.length : Int) < i + n
    · rw [if_pos (show _ ∨ _ from .inr hr), if_pos (by split <;> omega)]
    rw [if_neg (show ¬ (i < 0 ∨ _) from fun h => h.elim hi hr), if_neg (show ¬ (if n < 0 then (a.items.length : Int) - i else n) > (a.items.length : Int) - i by split <;> omega)]
    have hw : (a.items.drop i.toNat).take (if n < 0 then (a.items.length : Int) - i else n).toNat = (a.items.drop i.toNat).take (if n < 0 then a.items.length else n.toNat) := by
      by_cases hn : n < 0
      · rw [if_pos hn, if_pos hn, List.take_of_length_le (by simp; omega), List.take_of_length_le (by simp)]
      · rw [if_neg hn, if_neg hn]
    have hne : (0 < (if n < 0 then (a.items.length : Int) - i else n)) ↔ (a.items.drop i.toNat).take (if n < 0 then a.items.length else n.toNat) ≠ [] := by
      rw [← List.length_pos_iff, ← hw, List.length_take, List.length_drop]
      split <;> omega
    rw [hw]
    simp only [hne]
    generalize (a.items.drop i.toNat).take (if n < 0 then a.items.length else n.toNat) = range
    by_cases h1 : range ≠ [] ∧ a.refs = false
    · rw [if_pos h1, if_pos (show _ ∨ _ from .inl h1)]
    rw [if_neg h1, joinLoop_pieces]
    obtain ⟨e1, e2, e3⟩ := initial_facts
    have hL : limit = 2147483520 := rfl
    rcases concatLoop_exact (pieces sep range) initial inv_initial' e3 with ⟨a1, a2, s, a3, a4, a5⟩ | ⟨a1, a2⟩
    · rw [pieces_none] at a1
      rw [pieces_text, e2, hL] at a2
      rw [if_neg ?_, a3]
      · show toStr s = _
        rw [toStr_ok a4, a5, e1, pieces_text]; simp
      · rintro (h | h | h | h)
        · exact h1 h
        · exact a1 (.inl h)
        · exact a1 (.inr h)
        · simp only [Int.natCast_zero, Int.zero_add] at a2; omega
    · rw [pieces_none, pieces_text, e2, hL] at a1
      rw [a2, if_pos]
      · rfl
      · apply Decidable.byContradiction
        intro hh
        refine a1 ⟨fun h => hh (.inr (h.elim .inl (fun h => .inr (.inl h)))), ?_⟩
        have : ¬ 2147483520 < (joined (sep.getD []) (range.map (·.getD []))).length := fun h => hh (.inr (.inr (.inr h)))
        simp only [Int.natCast_zero, Int.zero_add]; omega

/-- Ranges, a null separator with one element, a null element, an array of numbers. -/
example : joinStr (some (w ", ")) (some ⟨true, true, [some (w "a"), some (w "b"), some (w "c")]⟩) 1 (-1) = .ok (w "b, c") ∧
    joinStr none (some ⟨true, true, [some (w "a"), some (w "b")]⟩) 1 1 = .ok (w "b") ∧ joinStr none (some ⟨true, true, [some (w "a"), some (w "b")]⟩) 0 2 = .ub ∧
    joinStr (some (w "-")) (some ⟨true, true, [some (w "a"), none]⟩) 0 2 = .ub ∧ joinStr (some (w "-")) (some ⟨false, true, [some (w "a")]⟩) 0 0 = .ok [] ∧
    joinStr (some (w "-")) (some ⟨true, true, [some (w "a")]⟩) 5 (-1) = .ok [] ∧ joinStr (some (w "-")) (some ⟨true, true, [some (w "a")]⟩) 1 1 = .throw .argumentNull := by decide +kernel

/-! ## StartsWith, EndsWith, Contains -/

/-- The number of characters of the buffer a copy of a string of `n` characters is compared in. -/
def bufferSize (n : Nat) : Nat := if n ≤ 128 then 129 else (n + 127) / 128 * 128 + 1

theorem bufferSize_eq (n : Nat) : (if n ≤ 128 then 129 else (roundUp n).toNat + 1) = bufferSize n := by
  unfold bufferSize
  split
  · rfl
  · unfold roundUp; omega

/-- **C185**, `Contains` for all arguments: IndexOutOfRangeException on an empty string; undefined for null, for an empty text, for a text of 2^29 or more characters that is not longer than the string and on a string of more
than 2147483520 characters; otherwise whether the text is part of the string. -/
theorem C185_contains (v : WStr) (h32 : (v.length : Int) ≤ 2147483647) (what : Option WStr) :
    if v = [] then StrModel.contains v what = .throw .indexOutOfRange
    else if 2147483520 < v.length then StrModel.contains v what = .ub
    else match what with
      | none => StrModel.contains v what = .ub
      | some p =>
        if p = [] ∨ (536870912 ≤ p.length ∧ p.length ≤ v.length) then StrModel.contains v what = .ub
        else ∃ b, StrModel.contains v what = .ok b ∧ (b = true ↔ p <:+: v) := by
  have hL : limit = 2147483520 := rfl
  by_cases hv : v = []
  · rw [if_pos hv]; unfold StrModel.contains countNonZero; rw [hv, sbOf_empty]
  rw [if_neg hv]
  by_cases hl : 2147483520 < v.length
  · rw [if_pos hl]; unfold StrModel.contains countNonZero; rw [sbOf_over (by omega) h32]
  rw [if_neg hl]
  cases what with
  | none =>
    obtain ⟨s, hs, -⟩ := sbOf_cells hv (by omega)
    unfold StrModel.contains countNonZero
    rw [hs]
  | some p =>
    simp only []
    by_cases hp : p = []
    · rw [if_pos (.inl hp), hp]; exact C37_contains_empty_refuted v hv (by omega)
    by_cases hb : 536870912 ≤ p.length
    · obtain ⟨s, hs, -⟩ := sbOf_cells hv (by omega)
      by_cases hle : p.length ≤ v.length
      · rw [if_pos (.inr ⟨hb, hle⟩)]
        unfold StrModel.contains countNonZero
        rw [hs]
        unfold countSubStrings
        simp only []
        rw [if_pos (by omega)]; rfl
      · rw [if_neg (by rintro (h | h); exact hp h; omega)]
        refine ⟨false, ?_, ?_⟩
        · unfold StrModel.contains countNonZero
          rw [hs]
          unfold countSubStrings
          simp only []
          rw [if_neg (by omega), show ((0 : Int) + 1 + v.length - p.length - 0).toNat = 0 by omega, countLoop, if_neg (by omega)]
          rfl
        · constructor
          · intro h; cases h
          · intro h; have := h.length_le; omega
    · rw [if_neg (by rintro (h | h); exact hp h; omega)]
      exact C37_contains_partial v p hv (by omega) hp (by omega)

/-- **C185**, `EndsWith` for all arguments: ArgumentNullException for null; true for the string itself and the empty text; IndexOutOfRangeException on an empty string; undefined for a text longer than the string or of 2^29
or more characters and on a string of more than 2147483520 characters; otherwise whether the string ends with the text. -/
theorem C185_ends_with (v : WStr) (h32 : (v.length : Int) ≤ 2147483647) (what : Option WStr) (same : Bool) :
    match what with
    | none => endsWith v what same = .throw .argumentNull
    | some p =>
      if same = true ∨ p = [] then endsWith v what same = .ok true
      else if v = [] then endsWith v what same = .throw .indexOutOfRange
      else if 2147483520 < v.length ∨ v.length < p.length ∨ 536870912 ≤ p.length then endsWith v what same = .ub
      else ∃ b, endsWith v what same = .ok b ∧ (b = true ↔ p <:+ v) := by
  have hL : limit = 2147483520 := rfl
  cases what with
  | none => rfl
  | some p =>
    simp only []
    cases same with
    | true => rw [if_pos (.inl rfl)]; rfl
    | false =>
      by_cases hp : p = []
      · rw [if_pos (.inr hp), hp]; unfold endsWith; simp
      rw [if_neg (by rintro (h | h); cases h; exact hp h)]
      have hp' : p.length ≠ 0 := fun hh => hp (List.length_eq_zero_iff.mp hh)
      have e : endsWith v (some p) false = countNonZero v (some p) (v.length - p.length) p.length := by
        unfold endsWith; simp only [Bool.false_eq_true, if_false]; rw [if_neg hp']
      by_cases hv : v = []
      · rw [if_pos hv, e]; unfold countNonZero; rw [hv, sbOf_empty]
      rw [if_neg hv]
      by_cases hl : 2147483520 < v.length
      · rw [if_pos (.inl hl), e]; unfold countNonZero; rw [sbOf_over (by omega) h32]
      by_cases hg : v.length < p.length
      · rw [if_pos (.inr (.inl hg))]; exact C37_ends_with_long_refuted v p hv (by omega) hg
      by_cases hb : 536870912 ≤ p.length
      · rw [if_pos (.inr (.inr hb)), e]
        obtain ⟨s, hs, -⟩ := sbOf_cells hv (by omega)
        unfold countNonZero
        rw [hs]
        unfold countSubStrings
        simp only []
        rw [if_pos (by omega)]; rfl
      rw [if_neg (by omega)]
      exact C37_ends_with_partial v p hv (by omega) (by omega) (by omega)

/-- **C185**, `StartsWith` for all arguments: as `EndsWith`, except that a text longer than the string is compared with the string followed by the NULs of its buffer, and is undefined only when it is longer than the buffer. -/
theorem C185_starts_with (v : WStr) (h32 : (v.length : Int) ≤ 2147483647) (what : Option WStr) (same : Bool) :
    match what with
    | none => startsWith v what same = .throw .argumentNull
    | some p =>
      if same = true ∨ p = [] then startsWith v what same = .ok true
      else if v = [] then startsWith v what same = .throw .indexOutOfRange
      else if 2147483520 < v.length ∨ bufferSize v.length < p.length ∨ 536870912 ≤ p.length then startsWith v what same = .ub
      else startsWith v what same = .ok (decide (p <+: v ++ List.replicate (bufferSize v.length - v.length) 0)) := by
  have hL : limit = 2147483520 := rfl
  cases what with
  | none => rfl
  | some p =>
    simp only []
    cases same with
    | true => rw [if_pos (.inl rfl)]; rfl
    | false =>
      by_cases hp : p = []
      · rw [if_pos (.inr hp), hp]; unfold startsWith; simp
      rw [if_neg (by rintro (h | h); cases h; exact hp h)]
      have hp' : p.length ≠ 0 := fun hh => hp (List.length_eq_zero_iff.mp hh)
      have e : startsWith v (some p) false = countNonZero v (some p) 0 p.length := by
        unfold startsWith; simp only [Bool.false_eq_true, if_false]; rw [if_neg hp']
      by_cases hv : v = []
      · rw [if_pos hv, e]; unfold countNonZero; rw [hv, sbOf_empty]
      rw [if_neg hv]
      by_cases hl : 2147483520 < v.length
      · rw [if_pos (.inl hl), e]; unfold countNonZero; rw [sbOf_over (by omega) h32]
      have hsz : v.length < bufferSize v.length := by unfold bufferSize; split <;> omega
      by_cases hb : 536870912 ≤ p.length
      · rw [if_pos (.inr (.inr hb)), e]
        obtain ⟨s, hs, -⟩ := sbOf_cells hv (by omega)
        unfold countNonZero
        rw [hs]
        unfold countSubStrings
        simp only []
        rw [if_pos (by omega)]; rfl
      by_cases hg : p.length ≤ v.length
      · rw [if_neg (by omega)]
        obtain ⟨b, h1, h2⟩ := C37_starts_with_partial v p hv (by omega) (by omega) hg
        rw [h1]
        congr 1
        have : p <+: v ↔ p <+: v ++ List.replicate (bufferSize v.length - v.length) 0 := by
          constructor
          · intro h; exact h.trans (List.prefix_append _ _)
          · intro h; exact List.prefix_of_prefix_length_le h (List.prefix_append _ _) hg
        rw [this] at h2
        cases b with
        | true => rw [eq_comm, decide_eq_true_iff]; exact h2.mp rfl
        | false => rw [eq_comm, decide_eq_false_iff_not]; intro h; have := h2.mpr h; cases this
      · have hx := C37_starts_with_long_exact v p hv (by omega) (by omega) (by omega)
        rw [bufferSize_eq] at hx
        rw [hx]
        by_cases hz : p.length ≤ bufferSize v.length
        · rw [if_pos hz, if_neg (by omega)]
          congr 1
          have : p = v ++ List.replicate (p.length - v.length) 0 ↔ p <+: v ++ List.replicate (bufferSize v.length - v.length) 0 := by
            rw [List.prefix_iff_eq_take, List.take_append, List.take_of_length_le (by omega), List.take_replicate, Nat.min_eq_left (by omega)]
          simp only [this]
        · rw [if_neg hz, if_pos (by omega)]

/-- A text longer than the string: with NULs it is taken for a beginning; longer than the buffer it is undefined. -/
example : startsWith (w "ab") (some (w "ab" ++ [0])) false = .ok true ∧ startsWith (w "ab") (some (w "abc")) false = .ok false ∧ bufferSize 2 = 129 ∧
    endsWith (w "ab") (some (w "b")) false = .ok true ∧ endsWith (w "ab") (some (w "cab")) false = .ub ∧ StrModel.contains (w "banana") (some (w "nan")) = .ok true ∧
    StrModel.contains [] none = .throw .indexOutOfRange ∧ (w "ab") ≠ [] := by decide +kernel

end Verif.StrProps
