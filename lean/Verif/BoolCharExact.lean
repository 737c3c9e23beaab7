import Verif.BoolCharProps
set_option linter.unusedSimpArgs false
set_option linter.unusedVariables false
/-!
# C183: what Boolean.Parse, the comparisons of Boolean and Char with an object, and Char's functions of a string and a position do with every argument
-/
namespace Verif.BCProps
open SBModel StrModel BCModel

/-! ## Specification -/

/-- `Boolean.Parse` takes `s` for the word `t` (in lower case): up to case, `s` is a beginning of `t`; if `s` contains NUL, what is before the first NUL is all of `t`. -/
def TakenFor (s t : WStr) : Prop :=
  if 0 ∈ s then (s.takeWhile (fun c => c != 0)).map asciiLower = t else s.map asciiLower <+: t

instance (s t : WStr) : Decidable (TakenFor s t) := by unfold TakenFor; infer_instance

/-! ## Proof -/

theorem asciiLower_pos {c : Nat} (h : c ≠ 0) : asciiLower c ≠ 0 := fun h' => h (asciiLower_zero h')

/-- The comparison that ignores case, of any text with a word without NUL. -/
theorem cmpLoop_any : ∀ (a b : WStr), 0 ∉ b →
    ∃ r, cmpLoop cLocale true false (a ++ [0]) (b ++ [0]) a.length = .ok r ∧ (r = 0 ↔ TakenFor a (b.map asciiLower))
  | [], b, _ => ⟨0, by simp [cmpLoop], by simp [TakenFor]⟩
  | x :: a, [], _ => by
    have e : cLocale.toLower x = asciiLower x := rfl
    have e0 : cLocale.toLower 0 = 0 := rfl
    by_cases hx : x = 0
    · subst hx
      refine ⟨0, ?_, by simp [TakenFor]⟩
      simp only [List.cons_append, List.nil_append, List.length_cons, cmpLoop, if_true, e0]
      simp
    · have hx' := asciiLower_pos hx
      refine ⟨1, ?_, ?_⟩
      · simp only [List.cons_append, List.nil_append, List.length_cons, cmpLoop, if_true, e, e0]
        simp [hx']
      · constructor
        · intro h; cases h
        · intro h
          unfold TakenFor at h
          split at h
          · simp [hx] at h
          · simp at h
  | x :: a, y :: b, hb => by
    have hy : y ≠ 0 := by intro hc; exact hb (by simp [hc])
    have hy' := asciiLower_pos hy
    obtain ⟨r, h1, h2⟩ := cmpLoop_any a b (fun h => hb (List.mem_cons_of_mem _ h))
    have e : cLocale.toLower x = asciiLower x := rfl
    have e0 : cLocale.toLower y = asciiLower y := rfl
    simp only [List.cons_append, List.length_cons, cmpLoop, if_true, e, e0, List.map_cons]
    by_cases hxy : asciiLower x = asciiLower y
    · have hx : x ≠ 0 := by
        intro hc
        subst hc
        exact hy' (by rw [← hxy]; rfl)
      refine ⟨r, ?_, ?_⟩
      · simp [hxy, hy', h1]
      · rw [h2]
        unfold TakenFor
        have hm : (0 ∈ x :: a) ↔ 0 ∈ a := by simp [hx.symm]
        by_cases h0 : 0 ∈ a
        · rw [if_pos h0, if_pos (hm.mpr h0)]; simp [hx, hxy]
        · rw [if_neg h0, if_neg (fun h => h0 (hm.mp h))]; simp [List.cons_prefix_cons, hxy]
    · refine ⟨if asciiLower x > asciiLower y then 1 else if asciiLower x < asciiLower y then -1 else 0, ?_, ?_⟩
      · simp [hxy]
      · have hn : ¬ TakenFor (x :: a) (asciiLower y :: b.map asciiLower) := by
          intro h
          unfold TakenFor at h
          split at h
          · by_cases hx : x = 0
            · simp [hx] at h
            · simp [hx] at h; exact hxy h.1
          · simp [List.cons_prefix_cons] at h; exact hxy h.1
        simp only [hn, iff_false]
        split
        · omega
        · split <;> omega

theorem compare_any (a b : WStr) (hb : 0 ∉ b) :
    ∃ r, StrModel.compare cLocale (some a) (some b) true = .ok r ∧ (r = 0 ↔ TakenFor a (b.map asciiLower)) := by
  obtain ⟨r, h1, h2⟩ := cmpLoop_any a b hb
  refine ⟨r, ?_, h2⟩
  unfold StrModel.compare compareAt compareAt.v1 compareAt.v2
  simp only [cells, List.length_append, List.length_singleton]
  rw [if_neg (by omega)]
  exact h1

/-! ## C183 -/

/-- **C183**, `Boolean.Parse` for every argument, in the "C" locale: true for what is taken for "true", false for what is taken for "false", FormatException for everything else,
ArgumentException for null. -/
theorem C183_parse (s : Option WStr) :
    boolParse cLocale s = match s with
      | none => .throw .argument
      | some v => if TakenFor v (w "true") then .ok true else if TakenFor v (w "false") then .ok false else .throw .format := by
  cases s with
  | none => rfl
  | some s =>
    obtain ⟨r, h1, h2⟩ := compare_any s trueString (by decide)
    obtain ⟨q, k1, k2⟩ := compare_any s falseString (by decide)
    have et : trueString.map asciiLower = w "true" := by decide
    have ef : falseString.map asciiLower = w "false" := by decide
    rw [et] at h2
    rw [ef] at k2
    unfold boolParse
    simp only []
    rw [h1, Res.bind_ok, k1, Res.bind_ok]
    simp only [h2, k2]

/-- A text with NUL, a beginning, the empty text, another word. -/
example : boolParse cLocale (some (w "TRUE" ++ [0, 120])) = .ok true ∧ TakenFor (w "TRUE" ++ [0, 120]) (w "true") ∧ boolParse cLocale (some [116, 0]) = .throw .format ∧
    boolParse cLocale (some (w "fA")) = .ok false ∧ boolParse cLocale (some []) = .ok true ∧ boolParse cLocale (some (w "truex")) = .throw .format := by decide +kernel

/-- **C183**, `CompareTo` and `Equals` of a Boolean with every object: null is less and not equal, something else is refused by `CompareTo` and not equal, a Boolean is compared with false before true. -/
theorem C183_bool (a : Bool) (o : Boxed Bool) :
    (boolCompareToObj a o = match o with
      | .null => .ok 1
      | .other => .throw .argument
      | .same b => .ok (if a = b then 0 else if b then -1 else 1)) ∧
    boolEqualsObj a o = .ok (decide (o = .same a)) := by
  rcases o with _ | x | _
  · exact ⟨rfl, by simp [boolEqualsObj]⟩
  · refine ⟨?_, ?_⟩
    · cases a <;> cases x <;> rfl
    · cases a <;> cases x <;> rfl
  · exact ⟨rfl, by simp [boolEqualsObj]⟩

example : boolCompareToObj false (.same true) = .ok (-1) ∧ boolEqualsObj false .null = .ok false := by decide

/-- **C183**, `CompareTo` and `Equals` of a Char with every object: as for a Boolean, by the difference of the code units, except that `Equals(null)` is undefined. -/
theorem C183_char (a : Nat) (o : Boxed Nat) :
    (charCompareToObj a o = match o with
      | .null => .ok 1
      | .other => .throw .argument
      | .same b => .ok ((a : Int) - b)) ∧
    (charEqualsObj a o = if o = .null then .ub else .ok (decide (o = .same a))) := by
  rcases o with _ | x | _
  · exact ⟨rfl, rfl⟩
  · refine ⟨rfl, ?_⟩
    rw [if_neg (by simp)]
    show Res.ok (a == x) = _
    by_cases h : a = x
    · subst h; simp
    · simp [h, Ne.symm h]
  · exact ⟨rfl, by rw [if_neg (by simp)]; simp [charEqualsObj]⟩

example : charCompareToObj 98 (.same 97) = .ok 1 ∧ charEqualsObj 98 (.same 98) = .ok true ∧ charEqualsObj 98 .null = .ub := by decide

/-- **C183**, a Char function of a string and a position, for every argument: the function of the character there; null, a position behind the last character and a negative position each have
their own exception. -/
theorem C183_on_string {α : Type} (f : Nat → α) (s : Option WStr) (i : Int) :
    match s with
    | none => onStringAt f s i = .throw .argumentNull
    | some v =>
      (∀ c, 0 ≤ i → v[i.toNat]? = some c → onStringAt f s i = .ok (f c)) ∧
      (v.length ≤ i → onStringAt f s i = .throw .argumentOutOfRange) ∧
      (i < 0 → onStringAt f s i = .throw .indexOutOfRange) := by
  cases s with
  | none => rfl
  | some v =>
    refine ⟨fun c h0 hc => ?_, fun h => (C70_on_string_partial f v i).2.1 h, fun h => C70_negative_index_refuted f v i h⟩
    obtain ⟨hl, hc⟩ := List.getElem?_eq_some_iff.mp hc
    rw [(C70_on_string_partial f v i).1 ⟨h0, by omega⟩, hc]

example : onStringAt getNumericValue (some (w "a7")) 1 = .ok 7 ∧ (w "a7")[1]? = some 55 ∧ onStringAt getNumericValue (some (w "a7")) 2 = .throw .argumentOutOfRange ∧
    onStringAt getNumericValue (some (w "a7")) (-1) = .throw .indexOutOfRange := by decide +kernel

end Verif.BCProps
