import Verif.BoolCharModel
import Verif.StringLemmas
set_option linter.unusedSimpArgs false
set_option linter.unusedVariables false
/-!
# Properties of Boolean and Char: C24, C70, C71, C72
-/
namespace Verif.BCProps
open SBModel StrModel BCModel

/-! ## Specification -/

/-- ASCII lower case of one character. -/
def asciiLower (c : Nat) : Nat := if 65 ≤ c ∧ c ≤ 90 then c + 32 else c

/-- `s` is the word `t` (given in lower case) up to the case of its letters. -/
def SameWord (s t : WStr) : Prop := s.map asciiLower = t

instance (s t : WStr) : Decidable (SameWord s t) := by unfold SameWord; infer_instance

/-! ## C24 -/

theorem asciiLower_zero {c : Nat} (h : asciiLower c = 0) : c = 0 := by
  unfold asciiLower at h; split at h <;> omega

/-- The comparison loop with `ignoreCase` on a NUL-free text against any NUL-terminated word: equal exactly when
the text is a case-insensitive prefix of the word. -/
theorem cmpLoop_ignore : ∀ (a b tb : WStr), 0 ∉ a → 0 ∉ b →
    ∃ r, cmpLoop cLocale true false (a ++ [0]) (b ++ 0 :: tb) a.length = .ok r ∧ (r = 0 ↔ a.map asciiLower <+: b.map asciiLower)
  | [], b, tb, _, _ => ⟨0, by simp [cmpLoop], by simp⟩
  | x :: a, [], tb, ha, _ => by
    have hx : x ≠ 0 := by intro hc; exact ha (by simp [hc])
    have hx' : asciiLower x ≠ 0 := fun h => hx (asciiLower_zero h)
    refine ⟨1, ?_, by simp⟩
    have e : cLocale.toLower x = asciiLower x := rfl
    have e0 : cLocale.toLower 0 = 0 := rfl
    simp only [List.cons_append, List.nil_append, List.length_cons, cmpLoop, if_true, e, e0]
    simp [hx']

  | x :: a, y :: b, tb, ha, hb => by
    have hx : x ≠ 0 := by intro hc; exact ha (by simp [hc])
    have hx' : asciiLower x ≠ 0 := fun h => hx (asciiLower_zero h)
    obtain ⟨r, h1, h2⟩ := cmpLoop_ignore a b tb (fun h => ha (List.mem_cons_of_mem _ h)) (fun h => hb (List.mem_cons_of_mem _ h))
    have e : cLocale.toLower x = asciiLower x := rfl
    have e0 : cLocale.toLower y = asciiLower y := rfl
    simp only [List.cons_append, List.length_cons, cmpLoop, if_true, e, e0, List.map_cons]
    by_cases hxy : asciiLower x = asciiLower y
    · refine ⟨r, ?_, ?_⟩
      · have : asciiLower y ≠ 0 := hxy ▸ hx'
        simp [hxy, this, h1]
      · rw [h2, hxy]; simp [List.cons_prefix_cons]
    · refine ⟨if asciiLower x > asciiLower y then 1 else if asciiLower x < asciiLower y then -1 else 0, ?_, ?_⟩
      · simp [hxy]
      · simp only [List.cons_prefix_cons, hxy, false_and, iff_false]
        split
        · omega
        · split <;> omega

theorem compare_ignore (a b : WStr) (ha : 0 ∉ a) (hb : 0 ∉ b) :
    ∃ r, StrModel.compare cLocale (some a) (some b) true = .ok r ∧ (r = 0 ↔ a.map asciiLower <+: b.map asciiLower) := by
  obtain ⟨r, h1, h2⟩ := cmpLoop_ignore a b [] ha hb
  refine ⟨r, ?_, h2⟩
  unfold StrModel.compare compareAt compareAt.v1 compareAt.v2
  simp only [cells, List.length_append, List.length_singleton]
  rw [if_neg (by omega)]
  exact h1

/-- What `Parse` really does on every NUL-free string: it answers true for every case-insensitive *prefix* of "true", false for
every other prefix of "false", and FormatException otherwise. -/
theorem C24_parse_exact (s : WStr) (hs : 0 ∉ s) :
    boolParse cLocale (some s) =
      if s.map asciiLower <+: w "true" then .ok true
      else if s.map asciiLower <+: w "false" then .ok false
      else .throw .format := by
  obtain ⟨r, h1, h2⟩ := compare_ignore s trueString hs (by decide)
  obtain ⟨q, k1, k2⟩ := compare_ignore s falseString hs (by decide)
  have et : trueString.map asciiLower = w "true" := by decide
  have ef : falseString.map asciiLower = w "false" := by decide
  rw [et] at h2
  rw [ef] at k2
  unfold boolParse
  simp only []
  rw [h1, Res.bind_ok, k1, Res.bind_ok]
  simp only [h2, k2]

example : boolParse cLocale (some (w "tRUe")) = .ok true ∧ boolParse cLocale (some (w "False")) = .ok false ∧
    boolParse cLocale (some (w "yes")) = .throw .format := by decide +kernel

/-- **C24** (partial: strings of four or more characters other than "fals", without embedded NUL; the process locale "C").
`Parse` accepts exactly the two words up to case and throws FormatException for every other string; null throws. -/
theorem C24_parse_partial (s : WStr) (hs : 0 ∉ s) (hl : 4 ≤ s.length) (hf : ¬ SameWord s (w "fals")) :
    (SameWord s (w "true") → boolParse cLocale (some s) = .ok true) ∧
    (SameWord s (w "false") → boolParse cLocale (some s) = .ok false) ∧
    (¬ SameWord s (w "true") → ¬ SameWord s (w "false") → boolParse cLocale (some s) = .throw .format) ∧
    boolParse cLocale none = .throw .argument := by
  rw [C24_parse_exact s hs]
  unfold SameWord at *
  have hlen : (s.map asciiLower).length = s.length := by simp
  generalize s.map asciiLower = t at *
  have ptrue : t <+: w "true" ↔ t = w "true" := by
    constructor
    · intro h
      have := h.length_le
      have e : (w "true").length = 4 := by decide
      exact h.eq_of_length (by omega)
    · intro h; rw [h]; exact List.prefix_refl _
  have pfalse : t <+: w "false" ↔ t = w "false" := by
    constructor
    · intro h
      have hle := h.length_le
      have e : (w "false").length = 5 := by decide
      by_cases h5 : t.length = 5
      · exact h.eq_of_length (by omega)
      · exfalso
        apply hf
        rw [List.prefix_iff_eq_take] at h
        rw [show t.length = 4 by omega] at h
        rw [h]; decide
    · intro h; rw [h]; exact List.prefix_refl _
  refine ⟨fun h => by rw [if_pos (ptrue.mpr h)], fun h => ?_, fun h1 h2 => ?_, rfl⟩
  · rw [if_neg (by rw [ptrue, h]; decide), if_pos (pfalse.mpr h)]
  · rw [if_neg (by rw [ptrue]; exact h1), if_neg (by rw [pfalse]; exact h2)]

example : 0 ∉ w "TRUE" ∧ 4 ≤ (w "TRUE").length ∧ ¬ SameWord (w "TRUE") (w "fals") ∧ SameWord (w "TRUE") (w "true") := by decide

/-- **C24** is false of the code: the empty string, "T", "tr", "fals" are all accepted. -/
theorem C24_parse_refuted : boolParse cLocale (some []) = .ok true ∧ boolParse cLocale (some (w "T")) = .ok true ∧
    boolParse cLocale (some (w "tr")) = .ok true ∧ boolParse cLocale (some (w "fals")) = .ok false ∧
    boolParse cLocale (some (w "f")) = .ok false := by decide +kernel

/-- Formatting a short NUL-free text through `Object::ToString` returns exactly that text, whatever the stack buffer held. -/
theorem objToString_copy (v : WStr) (hv : 0 ∉ v) (hl : v.length < 128) (g : List Nat) (hg : g.length = 128) :
    objToString (fun m n => (copyChars m n (cells v) v.length) >>= fun m => .ok (m, (v.length : Int))) g = .ok v := by
  unfold objToString copyChars
  simp only []
  rw [if_neg (by omega), peek_some (by omega) (by omega) (by simp [cells]; omega)]
  have ht : ((cells v).drop (0 : Int).toNat).take (v.length : Int).toNat = v := by simp [cells]
  rw [ht]
  simp only []
  obtain ⟨a, ha, hal, hag⟩ := poke_some (buf := g) (i := 0) (xs := v) (by omega) (by omega)
  rw [ha]
  simp only []
  obtain ⟨b, hb, hbl, hbg⟩ := poke_some (buf := a) (i := (v.length : Int)) (xs := [0]) (by omega) (by simp; omega)
  rw [hb]
  simp only [Res.bind_ok]
  obtain ⟨c, hc, hcl, hcg⟩ := poke_some (buf := b) (i := (v.length : Int)) (xs := [0]) (by omega) (by simp; omega)
  rw [hc]
  simp only []
  unfold newString
  obtain ⟨k, hk, _⟩ := wcslen_some c v.length (by rw [hcg, if_pos (by simp)]; simp)
  rw [hk]
  simp only []
  rw [if_neg (by omega), if_neg (by omega), peek_some (by omega) (by omega) (by omega)]
  simp only [Res.ok.injEq]
  apply List.ext_getElem?
  intro j
  simp only [Int.toNat_zero, List.drop_zero, Int.toNat_natCast, List.getElem?_take]
  split
  · rename_i hj
    rw [hcg, if_neg (by simp; omega), hbg, if_neg (by simp; omega), hag, if_pos (by simp; omega)]; simp
  · rw [List.getElem?_eq_none (by omega)]

/-- **C24**: `b.ToString()` is "True"/"False" whatever the stack held, and `Parse` reads it back. -/
theorem C24_round_trip (b : Bool) (g : List Nat) (hg : g.length = 128) :
    ∃ s, boolToString b g = .ok s ∧ s = (if b then w "True" else w "False") ∧ boolParse cLocale (some s) = .ok b := by
  cases b
  · exact ⟨falseString, objToString_copy falseString (by decide) (by decide) g hg, rfl, by decide +kernel⟩
  · exact ⟨trueString, objToString_copy trueString (by decide) (by decide) g hg, rfl, by decide +kernel⟩

example : boolToString true (List.replicate 128 7) = .ok (w "True") := by decide +kernel

/-! ## C72: Boolean and Char comparison -/

/-- **C72**: Boolean's `CompareTo` is the order false < true, null is least, `Equals` is `CompareTo = 0`, other classes throw. -/
theorem C72_bool_order (a b : Bool) (o : Boxed Bool) :
    (boolCompareTo a b < 0 ↔ a = false ∧ b = true) ∧ (boolCompareTo a b = 0 ↔ a = b) ∧ boolCompareTo b a = -boolCompareTo a b ∧
    boolCompareToObj a .null = .ok 1 ∧ boolCompareToObj a .other = .throw .argument ∧
    boolCompareToObj a (.same b) = .ok (boolCompareTo a b) ∧
    (boolEqualsObj a o = .ok true ↔ o = .same a) ∧ (boolEqualsObj a o = .ok true ∨ boolEqualsObj a o = .ok false) := by
  cases a <;> cases b <;> rcases o with _ | x | _ <;> (try cases x) <;> simp [boolCompareTo, boolCompareToObj, boolEqualsObj]

example : boolCompareTo false true = -1 ∧ boolCompareTo true false = 1 ∧ boolEqualsObj true (.same true) = .ok true := by decide

/-- **C72**: Char's `CompareTo` is a total order by code unit: its sign is the comparison, it fits Int32, is antisymmetric and
transitive; `Equals(Char)` is its zero set. -/
theorem C72_char_order (a b c : Nat) (ha : a < 65536) (hb : b < 65536) :
    (charCompareTo a b < 0 ↔ a < b) ∧ (charCompareTo a b = 0 ↔ a = b) ∧ (charCompareTo a b > 0 ↔ a > b) ∧
    I32 (charCompareTo a b) ∧ charCompareTo b a = -charCompareTo a b ∧
    (charCompareTo a b ≤ 0 → charCompareTo b c ≤ 0 → charCompareTo a c ≤ 0) ∧ (charEquals a b = true ↔ a = b) ∧
    charCompareToObj a .null = .ok 1 ∧ charCompareToObj a .other = .throw .argument ∧
    charCompareToObj a (.same b) = .ok (charCompareTo a b) := by
  unfold charCompareTo charEquals I32
  refine ⟨by omega, by omega, by omega, by omega, by omega, by omega, by simp, rfl, rfl, rfl⟩

example : charCompareTo 97 98 = -1 ∧ charCompareTo 98 97 = 1 := by decide

/-- **C72** (partial: the argument is not null). `Equals(Object*)` is true exactly for a boxed Char of the same value. -/
theorem C72_char_equals_object_partial (a : Nat) (o : Boxed Nat) (ho : o ≠ .null) :
    ∃ r, charEqualsObj a o = .ok r ∧ (r = true ↔ o = .same a) := by
  rcases o with _ | x | _
  · exact absurd rfl ho
  · exact ⟨a == x, rfl, by simp; exact eq_comm⟩
  · exact ⟨false, rfl, by simp⟩

example : charEqualsObj 97 (.same 97) = .ok true ∧ charEqualsObj 97 .other = .ok false := by decide

/-- **C72** is false of the code: `Equals(null)` on a Char dereferences the null pointer. -/
theorem C72_char_equals_null_refuted (a : Nat) : charEqualsObj a .null = .ub := rfl

/-! ## C71: Char parsing -/

/-- **C71**: `Parse` returns the only character of a one-character string and throws FormatException for every other string,
ArgumentNullException for null; `TryParse` answers true with the same character exactly when `Parse` returns, and otherwise
false with NUL; neither can fail otherwise. -/
theorem C71_parse (s : Option WStr) :
    (∀ c, charParse s = .ok c ↔ s = some [c]) ∧
    (charParse s = .throw .argumentNull ↔ s = none) ∧ (charParse s = .throw .format ↔ ∃ v : WStr, s = some v ∧ v.length ≠ 1) ∧
    (∀ c, charTryParse s = .ok (true, c) ↔ charParse s = .ok c) ∧
    ((∀ c, charParse s ≠ .ok c) → charTryParse s = .ok (false, 0)) := by
  cases s with
  | none => simp [charParse, charTryParse]
  | some v =>
    rcases v with _ | ⟨x, _ | ⟨y, t⟩⟩
    · simp [charParse, charTryParse]
    · simp [charParse, charTryParse, StrModel.getChars]
    · simp [charParse, charTryParse]

example : charParse (some (w "x")) = .ok 120 ∧ charTryParse (some (w "xy")) = .ok (false, 0) := by decide +kernel

/-- **C71**: `c.ToString()` is the one-character string `c` for every code unit (also NUL), and `Parse` reads it back. -/
theorem C71_round_trip (c : Nat) (g : List Nat) (hg : g.length = 128) :
    charToString c g = .ok [c] ∧ charParse (some [c]) = .ok c := by
  refine ⟨?_, by simp [charParse, StrModel.getChars]⟩
  unfold charToString objToString charFormat
  rw [if_neg (by omega)]
  obtain ⟨a, ha, hal, hag⟩ := poke_some (buf := g) (i := 0) (xs := [c]) (by omega) (by simp; omega)
  rw [ha]
  simp only [Res.bind_ok]
  obtain ⟨b, hb, hbl, hbg⟩ := poke_some (buf := a) (i := 1) (xs := [0]) (by omega) (by simp; omega)
  rw [hb]
  simp only []
  unfold newString
  obtain ⟨k, hk, _⟩ := wcslen_some b 1 (by rw [hbg, if_pos (by simp)]; simp)
  rw [hk]
  simp only []
  rw [if_neg (by omega), if_neg (by omega), peek_some (by omega) (by omega) (by omega)]
  simp only [Res.ok.injEq]
  apply List.ext_getElem?
  intro j
  show ((b.drop 0).take 1)[j]? = _
  rw [List.drop_zero, List.getElem?_take]
  split
  · have : j = 0 := by omega
    subst this
    rw [hbg, if_neg (by simp), hag, if_pos (by simp)]; simp
  · rw [List.getElem?_eq_none (by simp; omega)]

example : (List.replicate 128 7).length = 128 ∧ charToString 65 (List.replicate 128 7) = .ok (w "A") := by decide +kernel

/-! ## C70: the `(String, index)` overloads of the Char classification functions -/

/-- **C70** (partial: see the next theorem for negative indices). For a classification `f` the overload on `(s, i)` answers `f`
of the `i`-th character, and ArgumentOutOfRangeException / ArgumentNullException for an index past the end / a null string. -/
theorem C70_on_string_partial {α : Type} (f : Nat → α) (v : WStr) (i : Int) :
    (∀ h : 0 ≤ i ∧ i < v.length, onStringAt f (some v) i = .ok (f (v[i.toNat]'(by omega)))) ∧
    (i ≥ v.length → onStringAt f (some v) i = .throw .argumentOutOfRange) ∧
    onStringAt f none i = .throw .argumentNull := by
  refine ⟨fun h => ?_, fun h => ?_, rfl⟩
  · unfold onStringAt StrModel.getChars
    simp only []
    rw [if_neg (by omega), if_neg (by omega), List.getElem?_eq_getElem (by omega)]
    rfl
  · unfold onStringAt; simp only []; rw [if_pos h]

example : onStringAt isDigit (some (w "a7")) 1 = .ok true ∧ onStringAt isDigit (some (w "a7")) 2 = .throw .argumentOutOfRange := by decide +kernel

/-- **C70** is false of the code for negative indices: .NET throws ArgumentOutOfRangeException, the code IndexOutOfRangeException
(for every string and every negative index). -/
theorem C70_negative_index_refuted {α : Type} (f : Nat → α) (v : WStr) (i : Int) (h : i < 0) :
    onStringAt f (some v) i = .throw .indexOutOfRange := by
  unfold onStringAt StrModel.getChars
  simp only []
  rw [if_neg (by omega), if_pos (by omega)]
  rfl

example : onStringAt isDigit (some (w "a7")) (-1) = .throw .indexOutOfRange := by decide +kernel

/-- **C70**: `GetNumericValue` is the digit's value 0..9 on '0'..'9' and -1 on every other character. -/
theorem C70_numeric_value (c : Nat) :
    (48 ≤ c → c ≤ 57 → getNumericValue c = (c : Int) - 48 ∧ 0 ≤ getNumericValue c ∧ getNumericValue c ≤ 9) ∧
    ((c < 48 ∨ c > 57) → getNumericValue c = -1) := by
  unfold getNumericValue isDigit
  refine ⟨fun h1 h2 => ?_, fun h => ?_⟩
  · simp [h1, h2]; omega
  · rw [if_neg (by simp; omega)]

example : getNumericValue 55 = 7 ∧ getNumericValue 65 = -1 := by decide

end Verif.BCProps
