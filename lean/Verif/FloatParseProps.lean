import Verif.FloatScanProps
/-!
# C130, C131: Double.Parse, Single.Parse and TryParse
-/
namespace Verif.FloatText
open Verif.FltModel Verif.FltSpec Verif.FltProps Verif.Rnd Verif.FloatTextSpec

variable {F : Fmt}

theorem parse_some (L : Locale) (F : Fmt) (s : WStr) : parse L F (some s) = match scan L F s with
    | none => .ub
    | some b => .ok b := rfl

/-- **C130, numerals**: for white space followed by a decimal numeral, `Parse` of Double and Single returns the numeral's number rounded to nearest, ties to even (the infinity when that is the
nearest), with the numeral's sign. Missing: `C130_refuted`; what may follow the numeral is in `C130_rest_ignored`. -/
theorem C130_numeral_partial (L : Locale) (h46 : L.isSpace 46 = false) (hl : Lib F) (ws t : WStr) (sg : Bool) (m : Nat) (e : Int)
    (hw : ∀ c ∈ ws, L.isSpace c = true) (ht : DecimalText t sg m e) :
    ∃ b, parse L F (some (ws ++ t)) = .ok b ∧ Rounded F (decimal sg m e) b ∧ neg F b = sg := by
  have h := scan_spec L h46 F ws t [] stops_nil sg m e hw ht
  rw [List.append_nil] at h
  refine ⟨_, ?_, place_rounded hl sg m e, (pack_parts (lib_bin hl) sg _ (place_near hl m e).1).1⟩
  rw [parse_some, h]

/-- Non-vacuity: ` -12.5e3` is white space and a numeral; `Parse` gives -12500. -/
example : (∀ c ∈ w " ", cLocale.isSpace c = true) ∧ DecimalText (w "-12.5e3") true 125 2 ∧ parse cLocale dbl (some (w " -12.5e3")) = .ok 0xC0C86A0000000000 := by
  refine ⟨by decide, ⟨w "-", w "12", w ".5", w "5", w "e3", 3, by decide, Or.inr (Or.inr ⟨by decide, rfl⟩), by decide, by decide, Or.inr (by decide), by decide, ?_, by decide, by decide⟩, by decide +kernel⟩
  exact Or.inr ⟨101, [], [51], false, by decide, Or.inl rfl, Or.inl ⟨rfl, rfl⟩, by decide, by decide, by decide⟩

/-- **C130 is false: text after the numeral is ignored.** Whatever follows a numeral without continuing it (letters, a second number, a thousands separator) changes nothing; .NET throws a
FormatException unless it is white space. -/
theorem C130_rest_ignored_refuted (L : Locale) (h46 : L.isSpace 46 = false) (F : Fmt) (ws t r : WStr) (sg : Bool) (m : Nat) (e : Int)
    (hw : ∀ c ∈ ws, L.isSpace c = true) (ht : DecimalText t sg m e) (hr : ∀ c s, r = c :: s → isDigit c = false ∧ c ≠ 46 ∧ c ≠ 101 ∧ c ≠ 69 ∧ c ≠ 120 ∧ c ≠ 88) :
    parse L F (some (ws ++ (t ++ r))) = parse L F (some (ws ++ t)) := by
  have hr' : Stops r := by
    intro c s e
    obtain ⟨h1, h2, h3, h4, h5, h6⟩ := hr c s e
    refine ⟨h1, h2, ?_, ?_⟩ <;> (unfold lower; split <;> omega)
  have h1 := scan_spec L h46 F ws t r hr' sg m e hw ht
  have h2 := scan_spec L h46 F ws t [] stops_nil sg m e hw ht
  rw [List.append_nil] at h2
  rw [parse_some, parse_some, h1, h2]

example : parse cLocale dbl (some (w "12abc")) = parse cLocale dbl (some (w "12")) ∧ parse cLocale dbl (some (w "12")) = .ok 0x4028000000000000 ∧
    parse cLocale dbl (some (w "1,000")) = parse cLocale dbl (some (w "1")) := by decide +kernel

/-- **C130 is false**: a null string is dereferenced, and for a text that is no number (here `abc`, the empty text, and `1E`, whose exponent has no digits) the returned variable was never written:
undefined behaviour where .NET throws ArgumentNullException and FormatException. Hexadecimal floating constants, which .NET rejects, are accepted. -/
theorem C130_refuted : parse cLocale dbl none = .ub ∧ parse cLocale dbl (some (w "abc")) = .ub ∧ parse cLocale dbl (some []) = .ub ∧ parse cLocale dbl (some (w "1E")) = .ub ∧
    parse cLocale sgl (some (w "abc")) = .ub ∧ parse cLocale dbl (some (w "0x1p4")) = .ok 0x4030000000000000 := by decide +kernel

/-- `Parse` never throws: for every argument it returns a number or has undefined behaviour. -/
theorem C130_never_throws_refuted (L : Locale) (F : Fmt) (s : Option WStr) : ∀ e, parse L F s ≠ .throw e := by
  intro e h
  unfold parse at h
  split at h
  · cases h
  · split at h <;> cases h

theorem skip_scan (L : Locale) (F : Fmt) (s : WStr) : scan L F (s.dropWhile L.isSpace ++ [0]) = scan L F s := by
  have h : ∀ s : WStr, (s.dropWhile L.isSpace ++ [0]).takeWhile (· != 0) = (s.takeWhile (· != 0)).dropWhile L.isSpace := by
    intro s
    induction s with
    | nil => rfl
    | cons c s ih =>
      by_cases hc : L.isSpace c = true
      · have : c ≠ 0 := by intro h; subst h; rw [L.nul_not_space] at hc; cases hc
        rw [List.dropWhile_cons, if_pos hc, ih, List.takeWhile_cons, if_pos (by simpa using this), List.dropWhile_cons, if_pos hc]
      · rw [List.dropWhile_cons, if_neg hc]
        have e : (c :: s ++ [0]).takeWhile (· != 0) = (c :: s).takeWhile (· != 0) := by
          clear ih hc
          generalize c :: s = l
          induction l with
          | nil => rfl
          | cons c l ih => simp only [List.cons_append, List.takeWhile_cons, ih]
        rw [e, List.takeWhile_cons]
        split
        · rw [List.dropWhile_cons, if_neg hc]
        · rfl
  have h2 : ∀ s : WStr, (s.dropWhile L.isSpace).dropWhile L.isSpace = s.dropWhile L.isSpace := by
    intro s
    induction s with
    | nil => rfl
    | cons c s ih =>
      rw [List.dropWhile_cons]
      split
      · exact ih
      · rename_i hc; rw [List.dropWhile_cons, if_neg hc]
  unfold scan
  rw [h, h2]

/-- **C131, agreement**: on every non-null string `TryParse` returns true with exactly the value `Parse` returns. Missing: `C131_refuted` (where `Parse` has no value `TryParse` has no defined result either). -/
theorem C131_agree_partial (L : Locale) (F : Fmt) (old : Nat) (s : WStr) (b : Nat) :
    (tryParse L F old (some s) = .ok (true, b) ↔ parse L F (some s) = .ok b) ∧ tryParseString L F (some s) = tryParse L F old (some s) ∧
    ∀ r, tryParse L F old (some s) = .ok r → r.1 = true := by
  have e : tryParse L F old (some s) = match scan L F s with
      | none => .ub
      | some b => .ok (true, b) := by
    show tryParseInternal L F (s ++ [0]) s.length = _
    unfold tryParseInternal
    rw [IntVal.skipSpace_eq L s []]
    show (match scan L F (s.dropWhile L.isSpace ++ [0]) with
      | none => Res.ub
      | some b => Res.ok (true, b)) = _
    rw [skip_scan]
  refine ⟨?_, rfl, ?_⟩
  · rw [e, parse_some]
    cases h : scan L F s with
    | none => constructor <;> (intro h; cases h)
    | some c =>
      constructor
      · intro h; injection h with h; injection h with _ h; rw [h]
      · intro h; injection h with h; rw [h]
  · intro r h
    rw [e] at h
    cases h2 : scan L F s with
    | none => rw [h2] at h; cases h
    | some c => rw [h2] at h; injection h with h; rw [← h]

example : tryParse cLocale dbl 0 (some (w " 0.1")) = .ok (true, 0x3FB999999999999A) ∧ parse cLocale dbl (some (w " 0.1")) = .ok 0x3FB999999999999A := by decide +kernel

/-- **C131 is false**: for a text that is no number `TryParse` copies an uninitialised variable to the result (undefined behaviour); the only argument for which it reports failure is null, and then the result
parameter is not set to 0. -/
theorem C131_refuted : tryParse cLocale dbl 7 (some (w "abc")) = .ub ∧ tryParse cLocale sgl 7 (some (w "")) = .ub ∧ tryParse cLocale dbl 7 none = .ok (false, 7) := by decide +kernel

end Verif.FloatText
