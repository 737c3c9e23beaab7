import Verif.SBExact
import Verif.StringSearchExact
set_option linter.unusedSimpArgs false
set_option linter.unusedVariables false
/-!
# C186: what reading and comparing StringBuilders does with every argument, after every history
-/
namespace Verif.SBRead
open SBModel SBProps SBSpec
open StrProps (before before_cons before_zero)

/-- The text before the first NUL only depends on the cells up to a NUL. -/
theorem before_take : ∀ (l : List Nat) (k : Nat), l[k]? = some 0 → before l = before (l.take k)
  | [], k, h => by simp at h
  | x :: t, 0, h => by
    simp at h; subst h; rw [before_zero]; rfl
  | x :: t, k + 1, h => by
    by_cases hx : x = 0
    · subst hx; rw [List.take_succ_cons, before_zero, before_zero]
    · rw [List.take_succ_cons, before_cons t hx, before_cons _ hx, before_take t k (by simpa using h)]

theorem wcslen_before : ∀ (m : List Nat) (k : Nat), m[k]? = some 0 → wcslen m = some (before m).length
  | [], k, h => by simp at h
  | x :: t, k, h => by
    unfold wcslen
    by_cases hx : x = 0
    · subst hx; rw [before_zero]; rfl
    · rw [if_neg hx, before_cons t hx]
      cases k with
      | zero => simp at h; exact absurd h hx
      | succ k => rw [wcslen_before t k (by simpa using h)]; rfl

theorem before_prefix (l : List Nat) : l.take (before l).length = before l := (List.prefix_iff_eq_take.mp (List.takeWhile_prefix _)).symm

/-- **C186**, `ToString(start, length)` of a builder after every history (also one with calls that threw), for all starts and lengths. With `xs` the text `ToString()` gives: IndexOutOfRangeException for a start outside
the text (the end of the text is outside) and for a range that runs past its end; undefined exactly when start + length overflows; a negative length gives the memory from the start up to the first NUL; otherwise
exactly the range. -/
theorem C186_to_string_range {ov : Bool} {s : SB} (h : AnyReach ov s) {xs : WStr} (hx : toStr s = .ok xs) (i n : Int) :
    toStrRange s i n =
      if i < 0 ∨ xs.length ≤ i then .throw .indexOutOfRange
      else if ¬ I32 (i + n) then .ub
      else if xs.length < i + n then .throw .indexOutOfRange
      else if n < 0 then .ok (before (s.buf.drop i.toNat))
      else .ok ((xs.drop i.toNat).take n.toNat) := by
  have hi := anyReach_inv h
  have hll := hi.len_le
  rw [toStr_ok hi] at hx; injection hx with hx; subst hx
  rw [content_length hi]
  unfold toStrRange
  by_cases h0 : i < 0 ∨ (s.len : Int) ≤ i
  · rw [if_pos h0, if_pos (by omega)]
  rw [if_neg h0, if_neg (show ¬ (i < 0 ∨ i ≥ (s.len : Int)) by omega)]
  by_cases h1 : I32 (i + n)
  · rw [if_neg (show ¬ ¬ I32 (i + n) from fun h => h h1), if_neg (show ¬ ¬ I32 (i + n) from fun h => h h1)]
    by_cases h2 : (s.len : Int) < i + n
    · rw [if_pos h2, if_pos (show i + n > (s.len : Int) by omega)]
    rw [if_neg h2, if_neg (show ¬ i + n > (s.len : Int) by omega)]
    have hnul : (s.buf.drop i.toNat)[s.buf.length - 1 - i.toNat]? = some 0 := by
      rw [List.getElem?_drop, ← hi.nul]; congr 1; omega
    unfold newString
    rw [wcslen_before _ _ hnul]
    simp only []
    rw [if_neg (by omega)]
    by_cases hn : n < 0
    · rw [if_pos hn, if_pos hn]
      have hle : (before (s.buf.drop i.toNat)).length ≤ (s.buf.drop i.toNat).length := (List.takeWhile_prefix _).length_le
      rw [peek_some (by omega) (by omega) (by omega)]
      simp only []
      rw [show ((s.buf.drop i.toNat).drop (0 : Int).toNat).take ((before (s.buf.drop i.toNat)).length : Int).toNat = (s.buf.drop i.toNat).take (before (s.buf.drop i.toNat)).length by simp, before_prefix]
    · rw [if_neg hn, if_neg hn, peek_some (by omega) (by omega) (by rw [List.length_drop]; omega)]
      simp only []
      congr 1
      apply List.ext_getElem?
      intro j
      rw [List.getElem?_take, List.getElem?_take]
      split
      · rw [List.getElem?_drop, List.getElem?_drop, List.getElem?_drop, content_get, if_pos (by omega)]; congr 1; omega
      · rfl
  · rw [if_pos h1, if_pos h1]

/-- **C186**: when the program kept Capacity at or above Length and did not lengthen with `set_Length`, a negative length gives the text from the start up to its first NUL. -/
theorem C186_to_string_tail {ov : Bool} {s : SB} (h : TidyReach ov s) {xs : WStr} (hx : toStr s = .ok xs) (i : Nat) (hi : i ≤ xs.length) :
    before (s.buf.drop i) = before (xs.drop i) := by
  obtain ⟨is, _, ts⟩ := C27_length_le_capacity_partial h
  rw [toStr_ok is] at hx; injection hx with hx; subst hx
  rw [content_length is] at hi
  have hz : (s.buf.drop i)[s.len - i]? = some 0 := by rw [List.getElem?_drop, ← ts]; congr 1; omega
  rw [before_take _ _ hz]
  congr 1
  unfold content
  rw [List.drop_take]

/-- **C186**, `Equals` of two builders after every history, and with null: never undefined; true exactly when Capacity and MaxCapacity agree and the memories agree up to the first NUL. -/
theorem C186_equals {ov : Bool} {s : SB} (h : AnyReach ov s) (other : Option SB) (ho : ∀ t, other = some t → AnyReach ov t) :
    ∃ b, equals s other = .ok b ∧ (b = true ↔ ∃ t, other = some t ∧ s.cap = t.cap ∧ s.maxCap = t.maxCap ∧ before s.buf = before t.buf) := by
  cases other with
  | none => exact ⟨false, rfl, by simp⟩
  | some t =>
    have is := anyReach_inv h
    have it := anyReach_inv (ho t rfl)
    unfold equals
    simp only []
    by_cases hc : t.cap ≠ s.cap ∨ t.maxCap ≠ s.maxCap
    · rw [if_pos hc]
      refine ⟨false, rfl, ?_⟩
      simp only [Bool.false_eq_true, false_iff]
      rintro ⟨t', e, h1, h2, _⟩
      injection e with e; subst e
      rcases hc with hc | hc
      · exact hc h1.symm
      · exact hc h2.symm
    · rw [if_neg hc]
      obtain ⟨r, h1, h2⟩ := wcsEq_spec t.buf s.buf ⟨_, it.nul⟩ ⟨_, is.nul⟩
      rw [h1]
      refine ⟨r, rfl, ?_⟩
      rw [h2]
      have e1 := StrProps.cText_before t.buf
      have e2 := StrProps.cText_before s.buf
      unfold StrModel.cText at e1 e2
      rw [e1, e2]
      constructor
      · intro hh; exact ⟨t, rfl, by omega, by omega, hh.symm⟩
      · rintro ⟨t', e, _, _, hh⟩
        injection e with e; subst e
        exact hh.symm

/-- **C186**: for builders kept as above, `Equals` compares the texts up to their first NUL. -/
theorem C186_equals_text {ov : Bool} {s t : SB} {xs ys : WStr} (hs : TidyReach ov s) (ht : TidyReach ov t) (hx : toStr s = .ok xs) (hy : toStr t = .ok ys) :
    (before s.buf = before t.buf) ↔ before xs = before ys := by
  have e1 := C186_to_string_tail hs hx 0 (by omega)
  have e2 := C186_to_string_tail ht hy 0 (by omega)
  simp only [List.drop_zero] at e1 e2
  rw [e1, e2]

/-- A builder holding "a", NUL, "b": ranges, a negative length, comparison with a builder that differs after the NUL. -/
def exNul (c : Nat) : SB := after (createFrom (some [97, 0, c]) 0 3 128)

example : AnyReach true (exNul 98) ∧ TidyReach true (exNul 98) ∧ toStr (exNul 98) = .ok [97, 0, 98] ∧ toStrRange (exNul 98) 0 (-1) = .ok [97] ∧ before ((exNul 98).buf.drop 2) = [98] ∧
    toStrRange (exNul 98) 1 2 = .ok [0, 98] ∧ toStrRange (exNul 98) 3 0 = .throw .indexOutOfRange ∧ toStrRange (exNul 98) 2 2147483647 = .ub ∧
    equals (exNul 98) (some (exNul 99)) = .ok true ∧ before [97, 0, 98] = before [97, 0, 99] := by
  refine ⟨.from (v := some [97, 0, 98]) (i := 0) (n := 3) (c := 128) (by decide +kernel), .from (v := some [97, 0, 98]) (i := 0) (n := 3) (c := 128) (by decide +kernel), ?_⟩
  decide +kernel

end Verif.SBRead
