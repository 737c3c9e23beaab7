import Verif.FmtTextProps
import Verif.FmtLayoutProps
import Verif.TypesProps
/-!
# C190: exactly which strings, names, namespaces, nestings and tables come out right
-/
namespace Verif.TranslateExact
open Verif.Fmt Verif.CppLex Verif.FmtTextProps Verif.FmtLayoutProps Verif.Types Verif.TypesProps

/-- A character that C# programs can hold but no C++ `L"..."` literal written with universal character names can: half of a surrogate pair. -/
def Surrogate (c : Nat) : Prop := 0xD800 ≤ c ∧ c ≤ 0xDFFF

instance (c : Nat) : Decidable (Surrogate c) := by unfold Surrogate; infer_instance

theorem surrogate_iff (c : Nat) : isSurrogate c = true ↔ Surrogate c := by
  unfold isSurrogate Surrogate; simp

theorem literal_cut (s : WStr) : StrModel.newLiteral (s ++ [0]) = .ok (s.takeWhile (· ≠ 0)) := by
  have e : SBModel.wcslen (s ++ [0]) = some (s.takeWhile (· ≠ 0)).length := by
    induction s with
    | nil => rfl
    | cons c s ih =>
      rw [List.cons_append, SBModel.wcslen, List.takeWhile_cons]
      by_cases h : c = 0
      · simp [h]
      · simp [h, ih]
  unfold StrModel.newLiteral
  rw [e]
  show Res.ok _ = _
  congr 1
  have h2 : s.takeWhile (· ≠ 0) <+: s := List.takeWhile_prefix _
  rw [List.take_append_of_le_length h2.length_le]
  exact (List.prefix_iff_eq_take.1 h2).symm

theorem take_facts (s : WStr) : (∀ x ∈ s.takeWhile (· ≠ 0), x ≠ 0) ∧ ((∀ x ∈ s, x ≠ 0) → s.takeWhile (· ≠ 0) = s) := by
  induction s with
  | nil => simp
  | cons c s ih =>
    rw [List.takeWhile_cons]
    by_cases h : c = 0
    · simp [h]
    · simp only [h, decide_true, ne_eq, not_false_eq_true, if_true]
      refine ⟨?_, fun q => ?_⟩
      · intro x hx
        rcases List.mem_cons.1 hx with rfl | hx
        · exact h
        · exact ih.1 x hx
      · rw [ih.2 (fun x hx => q x (List.mem_cons_of_mem _ hx))]

/-- **C190**. The object a C# string literal becomes, for every string: no object at all (the C++ text is ill-formed) when the string holds a surrogate, otherwise the characters before the first NUL; so the same characters exactly for the strings
without surrogates and NULs. -/
theorem C190_string (s : WStr) (h : ∀ c ∈ s, c < 65536) :
    (if (∃ c ∈ s, Surrogate c) then translatedString s = none else translatedString s = some (.ok (s.takeWhile (· ≠ 0)))) ∧
    (translatedString s = some (.ok s) ↔ ∀ c ∈ s, ¬ Surrogate c ∧ c ≠ 0) := by
  have hs : s.any isSurrogate = true ↔ ∃ c ∈ s, Surrogate c := by
    rw [List.any_eq_true]
    exact ⟨fun ⟨c, a, b⟩ => ⟨c, a, (surrogate_iff c).1 b⟩, fun ⟨c, a, b⟩ => ⟨c, a, (surrogate_iff c).2 b⟩⟩
  by_cases c : ∃ c ∈ s, Surrogate c
  · have e : translatedString s = none := by unfold translatedString; rw [C54_literal s h, if_pos (hs.2 c)]; rfl
    rw [if_pos c]
    refine ⟨e, ?_⟩
    rw [e]
    obtain ⟨x, hx, hx'⟩ := c
    exact ⟨fun q => (by cases q), fun q => absurd hx' (q x hx).1⟩
  · have e : translatedString s = some (.ok (s.takeWhile (· ≠ 0))) := by
      unfold translatedString; rw [C54_literal s h, if_neg (fun q => c (hs.1 q))]
      show some (StrModel.newLiteral (s ++ [0])) = _
      rw [literal_cut]
    rw [if_neg c]
    refine ⟨e, ?_⟩
    rw [e, Option.some.injEq, Res.ok.injEq]
    constructor
    · intro q x hx
      refine ⟨fun hs => c ⟨x, hx, hs⟩, ?_⟩
      rw [← q] at hx
      exact (take_facts s).1 x hx
    · intro q
      exact (take_facts s).2 (fun x hx => (q x hx).2)

example : translatedString (w "hello") = some (.ok (w "hello")) ∧ translatedString [97, 0, 98] = some (.ok [97]) ∧ translatedString [0xD83D, 0xDE00] = none := by decide +kernel

/-- **C190**. A character literal keeps its value exactly when the character is no surrogate. -/
theorem C190_char (c : Nat) (h : c < 65536) : (charValue (charLiteral c) = some c ↔ ¬ Surrogate c) ∧ (charValue (charLiteral c) = none ↔ Surrogate c) := by
  rw [C55_literal c h, ← surrogate_iff]
  cases isSurrogate c <;> simp

example : charValue (charLiteral 39) = some 39 ∧ charValue (charLiteral 0xDFFF) = none ∧ charValue (charLiteral 0xE000) = some 0xE000 := by decide +kernel

/-- **C190**. A name is emitted as a C++ keyword exactly when it is `this` or `Void`. -/
theorem C190_keyword (ci : CharInfo) (n : WStr) : (∃ t, nameText ci n = .ok t ∧ isKeyword t) ↔ n = w "this" ∨ n = w "Void" := by
  constructor
  · rintro ⟨t, e, hk⟩; exact C53_keyword_partial ci n t e hk
  · obtain ⟨h1, h2, h3, h4⟩ := C53_keyword_refuted ci
    rintro (rfl | rfl)
    · exact ⟨_, h3, h4⟩
    · exact ⟨_, h1, h2⟩

/-- `class` is no exception: it becomes `x_class`. -/
example (ci : CharInfo) : nameText ci (w "class") = .ok (w "x_class") := by
  show nameText ci (99 :: w "lass") = _
  rw [nameText_cases, if_pos ⟨ci.ascii 99 (by omega), by decide⟩]; rfl

/-- **C190**. The C++ namespace of a C# namespace is a C++ identifier exactly when the C# namespace is the global one or one identifier, of ASCII letters, digits and underscores. -/
theorem C190_namespace (v : WStr) : isIdent (nsText v) = true ↔ v = [] ∨ isIdent v = true := by
  refine ⟨fun h => ?_, C80_identifier_partial v⟩
  cases v with
  | nil => exact .inl rfl
  | cons c r =>
    right
    rw [nsText_eq, nsName, if_neg (by simp)] at h
    simp only [isIdent, Bool.and_eq_true, List.all_append, List.cons_append] at h ⊢
    exact ⟨h.1, h.2.1⟩

example : isIdent (nsText (w "Company")) = true ∧ isIdent (nsText (w "Company.Product")) = false ∧ isIdent (nsText []) = true := by decide +kernel

/-- **C190**. Printing a document either succeeds, exactly as specified, or throws; it succeeds exactly when no line of it needs more than 22 tabs. -/
theorem C190_layout (nl : WStr) (s : Fmt.St) (d : Nat) (h : AtLine s d) (x : Doc) :
    if d + depth x ≤ 22 then ∃ s', emit nl s x = .ok s' ∧ s'.out = s.out ++ render nl d x ∧ AtLine s' d ∧ s'.ns = s.ns ∧ s'.disk = s.disk ∧ s'.file = s.file
    else emit nl s x = .throw .argumentOutOfRange := by
  by_cases c : d + depth x ≤ 22
  · rw [if_pos c]; exact C56_layout_partial nl s d h x c
  · rw [if_neg c]; exact C56_depth_refuted nl s d h x (by omega)

example : AtLine { initial with onNewline := true } 0 ∧ depth (.block false [.line (w "x;")]) = 1 := by
  refine ⟨⟨rfl, rfl, rfl⟩, rfl⟩

theorem load_prefix (rows : List WStr) : ∀ legal : List WStr, legal.Nodup →
    (∃ kept rest, rows = kept ++ rest ∧ load legal rows = (legal ++ kept, decide (rest ≠ [])) ∧ (legal ++ kept).Nodup ∧ ∀ r rs, rest = r :: rs → r ∈ legal ++ kept) := by
  induction rows with
  | nil => intro legal hn; exact ⟨[], [], rfl, by simp [load], by simpa using hn, fun _ _ h => nomatch h⟩
  | cons r rs ih =>
    intro legal hn
    by_cases c : r ∈ legal
    · refine ⟨[], r :: rs, rfl, ?_, by simpa using hn, ?_⟩
      · rw [load, if_pos c]; simp
      · intro a b e; injection e with e1 _; subst e1; simpa using c
    · have hn2 : (legal ++ [r]).Nodup := by
        rw [List.nodup_append]
        refine ⟨hn, by simp, ?_⟩
        intro a ha b hb e
        rw [List.mem_singleton] at hb
        subst hb; subst e
        exact c ha
      obtain ⟨kept, rest, h1, h2, h3, h4⟩ := ih (legal ++ [r]) hn2
      rw [List.append_assoc] at h2 h3 h4
      refine ⟨r :: kept, rest, by rw [h1]; rfl, ?_, h3, h4⟩
      rw [load, if_neg c, h2]; rfl

/-- **C190**. Loading a table of legal types keeps exactly the rows before the first repeated row, for every table; the failure is reported exactly when a row is repeated. -/
theorem C190_table (rows : List WStr) :
    ∃ kept rest, rows = kept ++ rest ∧ kept.Nodup ∧ (∀ r rs, rest = r :: rs → r ∈ kept) ∧ load [] rows = (kept, decide (¬ rows.Nodup)) := by
  obtain ⟨kept, rest, h1, h2, h3, h4⟩ := load_prefix rows [] (by simp)
  rw [List.nil_append] at h2 h3 h4
  refine ⟨kept, rest, h1, h3, h4, ?_⟩
  rw [h2]
  congr 1
  apply decide_eq_decide.2
  cases rest with
  | nil => rw [h1, List.append_nil]; exact ⟨fun h => absurd rfl h, fun h => absurd h3 h⟩
  | cons r rs =>
    refine ⟨fun _ hn => ?_, fun _ => by simp⟩
    rw [h1, List.nodup_append] at hn
    exact hn.2.2 r (h4 r rs rfl) r (by simp) rfl

example : load [] [w "System.A", w "System.B", w "System.A", w "System.C"] = ([w "System.A", w "System.B"], true) := by decide +kernel

end Verif.TranslateExact
