import Verif.FmtTextProps
/-!
# C176: exactly which C# string literals, character literals and names survive translation

C53, C54 and C55 hold for some inputs and fail for others. Here the two sets are separated exactly, for every string, character and
name: the failures listed are all the failures there are.
-/
namespace Verif.FmtTextProps
open Verif.Fmt Verif.CppLex

/-- The terminator search over a text laid out with its NUL finds the first NUL of the text, or the terminator. -/
theorem wcslen_laid (s : WStr) : SBModel.wcslen (s ++ [0]) = some (s.takeWhile (· ≠ 0)).length := by
  induction s with
  | nil => rfl
  | cons c s ih =>
    by_cases h : c = 0
    · subst h; simp [SBModel.wcslen]
    · simp [SBModel.wcslen, h, ih]

theorem take_takeWhile (s : WStr) : (s ++ [0]).take (s.takeWhile (· ≠ 0)).length = s.takeWhile (· ≠ 0) := by
  induction s with
  | nil => rfl
  | cons c s ih =>
    by_cases h : c = 0
    · subst h; simp
    · simp only [List.cons_append, ne_eq, h, not_false_eq_true, decide_true, List.takeWhile_cons_of_pos, List.length_cons,
        List.take_succ_cons, List.cons.injEq, true_and]
      exact ih

theorem takeWhile_id {s : WStr} : s.takeWhile (· ≠ 0) = s ↔ ∀ c ∈ s, c ≠ 0 := by
  constructor
  · intro h
    induction s with
    | nil => intro c hc; cases hc
    | cons d s ih =>
      by_cases hd : d = 0
      · subst hd; simp at h
      · simp only [ne_eq, hd, not_false_eq_true, decide_true, List.takeWhile_cons_of_pos, List.cons.injEq, true_and] at h
        intro c hc
        cases hc with
        | head => exact hd
        | tail _ hc => exact ih h c hc
  · intro h
    induction s with
    | nil => rfl
    | cons c s ih =>
      have hc := h c (by simp)
      simp only [ne_eq, hc, not_false_eq_true, decide_true, List.takeWhile_cons_of_pos, List.cons.injEq, true_and]
      exact ih (fun x hx => h x (by simp [hx]))

/-- A code unit of a UTF-16 text that is half of a surrogate pair. -/
def Surrogate (c : Nat) : Prop := 0xD800 ≤ c ∧ c ≤ 0xDFFF

theorem any_surrogate (s : WStr) : s.any isSurrogate = true ↔ ∃ c ∈ s, Surrogate c := by
  rw [List.any_eq_true]
  simp [isSurrogate, Surrogate]

/-- **C176**, string literals: the translated literal does not compile exactly when the C# string contains a surrogate; otherwise
the String object the program holds is the C# string up to its first NUL, and never anything else. -/
theorem C176_string (s : WStr) (h : ∀ c ∈ s, c < 65536) :
    (translatedString s = none ↔ ∃ c ∈ s, Surrogate c) ∧
    (¬ (∃ c ∈ s, Surrogate c) → translatedString s = some (.ok (s.takeWhile (· ≠ 0)))) ∧
    (translatedString s = some (.ok s) ↔ ∀ c ∈ s, c ≠ 0 ∧ ¬ Surrogate c) := by
  have key : translatedString s = if s.any isSurrogate then none else some (.ok (s.takeWhile (· ≠ 0))) := by
    unfold translatedString
    rw [C54_literal s h]
    split
    · rfl
    · simp only [Option.map_some, StrModel.newLiteral, wcslen_laid, take_takeWhile]
  rw [key]
  by_cases hs : s.any isSurrogate = true
  · have hw := (any_surrogate s).mp hs
    rw [if_pos hs]
    refine ⟨⟨fun _ => hw, fun _ => rfl⟩, fun hn => absurd hw hn, ⟨fun e => (nomatch e), fun hall => ?_⟩⟩
    obtain ⟨c, hc, hcs⟩ := hw
    exact absurd hcs (hall c hc).2
  · have hw : ¬ ∃ c ∈ s, Surrogate c := fun hh => hs ((any_surrogate s).mpr hh)
    rw [if_neg hs]
    refine ⟨⟨fun e => (nomatch e), fun hh => absurd hh hw⟩, fun _ => rfl, ?_⟩
    rw [Option.some.injEq, Res.ok.injEq, takeWhile_id]
    exact ⟨fun hall c hc => ⟨hall c hc, fun hcs => hw ⟨c, hc, hcs⟩⟩, fun hall c hc => (hall c hc).1⟩

/-- Two literals of one program denote the same text exactly when they agree up to the first NUL: distinct C# strings without NULs
never become equal. -/
theorem C176_distinct (s t : WStr) (hs : ∀ c ∈ s, c < 65536 ∧ ¬ Surrogate c) (ht : ∀ c ∈ t, c < 65536 ∧ ¬ Surrogate c) :
    translatedString s = translatedString t ↔ s.takeWhile (· ≠ 0) = t.takeWhile (· ≠ 0) := by
  rw [(C176_string s (fun c hc => (hs c hc).1)).2.1 (fun ⟨c, hc, e⟩ => (hs c hc).2 e),
    (C176_string t (fun c hc => (ht c hc).1)).2.1 (fun ⟨c, hc, e⟩ => (ht c hc).2 e), Option.some.injEq, Res.ok.injEq]

/-- One string of each kind: preserved, cut at its NUL, rejected by the compiler. -/
example : translatedString (w "a\"b\n" ++ [0x20AC, 0xFFFF]) = some (.ok (w "a\"b\n" ++ [0x20AC, 0xFFFF])) ∧
    translatedString (w "key" ++ 0 :: w "value") = some (.ok (w "key")) ∧
    translatedString (w "key") = translatedString (w "key" ++ 0 :: w "value") ∧
    translatedString (w "ok" ++ [0xD83D, 0xDE00]) = none := by decide +kernel

/-- **C176**, character literals: every char survives except the surrogates, whose literal does not compile. -/
theorem C176_char (c : Nat) (h : c < 65536) :
    (charValue (charLiteral c) = some c ↔ ¬ Surrogate c) ∧ (charValue (charLiteral c) = none ↔ Surrogate c) := by
  rw [C55_literal c h]
  by_cases hs : Surrogate c
  · have e : isSurrogate c = true := by simpa [isSurrogate, Surrogate] using hs
    simp [e, hs]
  · have e : isSurrogate c = false := by simpa [isSurrogate, Surrogate] using hs
    simp [e, hs]

example : charValue (charLiteral 0xD7FF) = some 0xD7FF ∧ charValue (charLiteral 0xE000) = some 0xE000 ∧
    charValue (charLiteral 0) = some 0 ∧ charValue (charLiteral 0xDFFF) = none := by decide +kernel

/-- **C176**, names: the C++ identifier is a keyword exactly for the names `this` and `Void`. -/
theorem C176_name (ci : CharInfo) (n t : WStr) (e : nameText ci n = .ok t) : isKeyword t ↔ n = w "this" ∨ n = w "Void" := by
  constructor
  · exact C53_keyword_partial ci n t e
  · obtain ⟨hv, kv, ht, kt⟩ := C53_keyword_refuted ci
    rintro (rfl | rfl)
    · rw [ht, Res.ok.injEq] at e; subst e; exact kt
    · rw [hv, Res.ok.injEq] at e; subst e; exact kv

/-- The name `Void` is reached, and so is a name that is not a keyword. -/
example : nameText asciiInfo (w "Void") = .ok (w "void") ∧ nameText asciiInfo (w "int") = .ok (w "x_int") := by decide +kernel

end Verif.FmtTextProps
