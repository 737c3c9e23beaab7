import Verif.FmtModel
import Verif.CppLexSpec
import Verif.StringModel
/-!
# C53, C54, C55: names and literals in the generated code
-/
namespace Verif.FmtTextProps
open Verif.Fmt Verif.CppLex

/-! ## Escapes -/

theorem hexValue_hexDigit (n : Nat) (h : n < 16) : hexValue (hexDigit n) = some n := by
  unfold hexValue hexDigit
  split <;> (repeat' split) <;> simp <;> omega

/-- The universal character name of a code unit names that code unit, unless it is a surrogate. -/
theorem ucn_hex (c : Nat) (h : c < 65536) : ucn (hexDigit (c / 4096)) (hexDigit (c / 256 % 16)) (hexDigit (c / 16 % 16)) (hexDigit (c % 16)) =
    if isSurrogate c then none else some c := by
  unfold ucn
  rw [hexValue_hexDigit _ (by omega), hexValue_hexDigit _ (by omega), hexValue_hexDigit _ (by omega), hexValue_hexDigit _ (by omega)]
  have : ((c / 4096 * 16 + c / 256 % 16) * 16 + c / 16 % 16) * 16 + c % 16 = c := by omega
  simp [this]

theorem pad_hex (c : Nat) (h : c < 65536) : List.replicate (4 - (hexText c).length) 48 ++ hexText c =
    [hexDigit (c / 4096), hexDigit (c / 256 % 16), hexDigit (c / 16 % 16), hexDigit (c % 16)] := by
  have z : hexDigit 0 = 48 := rfl
  unfold hexText
  split
  · have a : c / 4096 = 0 := by omega
    have b : c / 256 % 16 = 0 := by omega
    have d : c / 16 % 16 = 0 := by omega
    have e : c % 16 = c := by omega
    rw [a, b, d, e, z]; rfl
  split
  · have a : c / 4096 = 0 := by omega
    have b : c / 256 % 16 = 0 := by omega
    have d : c / 16 % 16 = c / 16 := by omega
    rw [a, b, d, z]; rfl
  split
  · have a : c / 4096 = 0 := by omega
    have b : c / 256 % 16 = c / 256 := by omega
    rw [a, b, z]; rfl
  · rfl

theorem unit_plain (q c : Nat) (r : WStr) (h1 : c ≠ q) (h2 : c ≠ 92) (h3 : 32 ≤ c) (h4 : c ≤ 126) : unit q (c :: r) = some (c, r) := by
  unfold unit
  split
  · rename_i e; cases e
  · rename_i e; injection e; omega
  · rename_i e; injection e; omega
  · rename_i c' r' e1 e2 e
    injection e with ha hb; subst ha; subst hb
    rw [if_neg (by omega)]

/-- Reading back one escaped character. `forString` is true for `"` literals and false for `'` literals. -/
theorem unit_escape (c : Nat) (h : c < 65536) (forString : Bool) (r : WStr) :
    unit (if forString then 34 else 39) (escape c forString ++ r) = if isSurrogate c then none else some (c, r) := by
  unfold escape
  by_cases h1 : c = 34
  · subst h1; cases forString <;> rfl
  rw [if_neg h1]
  by_cases h2 : c = 92
  · subst h2; rfl
  rw [if_neg h2]
  by_cases h3 : c = 7
  · subst h3; rfl
  rw [if_neg h3]
  by_cases h4 : c = 8
  · subst h4; rfl
  rw [if_neg h4]
  by_cases h5 : c = 9
  · subst h5; rfl
  rw [if_neg h5]
  by_cases h6 : c = 13
  · subst h6; rfl
  rw [if_neg h6]
  by_cases h7 : c = 11
  · subst h7; rfl
  rw [if_neg h7]
  by_cases h8 : c = 12
  · subst h8; rfl
  rw [if_neg h8]
  by_cases h9 : c = 10
  · subst h9; rfl
  rw [if_neg h9]
  by_cases h10 : c = 39
  · subst h10; cases forString <;> rfl
  rw [if_neg h10]
  by_cases h11 : 32 ≤ c ∧ c ≤ 126
  · rw [if_pos h11]
    have hs : isSurrogate c = false := by simp [isSurrogate]; omega
    rw [hs]
    have hq : c ≠ (if forString then 34 else 39) := by cases forString <;> simp <;> omega
    simp only [List.singleton_append, Bool.false_eq_true, if_false]
    exact unit_plain _ c r hq h2 h11.1 h11.2
  · rw [if_neg h11, pad_hex c h]
    show unit _ (92 :: 117 :: hexDigit (c / 4096) :: hexDigit (c / 256 % 16) :: hexDigit (c / 16 % 16) :: hexDigit (c % 16) :: r) = _
    simp only [unit]
    rw [ucn_hex c h]
    cases isSurrogate c <;> rfl

theorem pos_ite (p : Prop) [Decidable p] (a b : WStr) (ha : 0 < a.length) (hb : 0 < b.length) : 0 < (if p then a else b).length := by
  split <;> assumption

theorem escape_ne_nil (c : Nat) (b : Bool) : 0 < (escape c b).length := by
  unfold escape
  repeat' (first | apply pos_ite | exact Nat.succ_pos _)

theorem body_escape (q : Nat) (fs : Bool) (hq : q = if fs then 34 else 39) (s : WStr) (h : ∀ c ∈ s, c < 65536) (n : Nat)
    (hn : s.length < n) :
    body q n (s.flatMap (fun c => escape c fs) ++ [q]) = if s.any isSurrogate then none else some s := by
  induction s generalizing n with
  | nil =>
    obtain ⟨m, rfl⟩ : ∃ m, n = m + 1 := ⟨n - 1, by simp at hn; omega⟩
    simp [body]
  | cons c s ih =>
    obtain ⟨m, rfl⟩ : ∃ m, n = m + 1 := ⟨n - 1, by simp at hn; omega⟩
    have hc := h c (by simp)
    have hu := unit_escape c hc fs (s.flatMap (fun c => escape c fs) ++ [q])
    rw [← hq] at hu
    have e : (c :: s).flatMap (fun c => escape c fs) ++ [q] = escape c fs ++ (s.flatMap (fun c => escape c fs) ++ [q]) := by
      simp [List.flatMap_cons]
    rw [e]
    have hne : escape c fs ++ (s.flatMap (fun c => escape c fs) ++ [q]) ≠ [q] := by
      intro hh
      have := congrArg List.length hh
      have p := escape_ne_nil c fs
      simp at this; omega
    unfold body
    rw [if_neg hne, hu]
    cases hs : isSurrogate c with
    | true => simp [hs]
    | false =>
      simp only [Bool.false_eq_true, if_false]
      rw [ih (fun x hx => h x (by simp [hx])) m (by simp at hn; omega)]
      simp only [List.any_cons, hs, Bool.false_or]
      cases s.any isSurrogate <;> rfl

theorem flatMap_length (s : WStr) (fs : Bool) : s.length ≤ (s.flatMap (fun c => escape c fs)).length := by
  induction s with
  | nil => simp
  | cons c s ih => have := escape_ne_nil c fs; rw [List.flatMap_cons, List.length_append, List.length_cons]; omega

/-- **C54**: exactly which C# strings survive: the literal denotes the same code units unless the string contains a surrogate
code unit, in which case the emitted text is not a well-formed C++ literal at all. -/
theorem C54_literal (s : WStr) (h : ∀ c ∈ s, c < 65536) :
    stringValue (stringLiteral s) = if s.any isSurrogate then none else some s := by
  unfold stringLiteral
  show body 34 (s.flatMap (fun c => escape c true) ++ [34]).length (s.flatMap (fun c => escape c true) ++ [34]) = _
  apply body_escape 34 true rfl s h
  have := flatMap_length s true
  rw [List.length_append]; show _ < _ + 1; omega

/-- Text with every kind of escape. -/
example : stringValue (stringLiteral (w "a\"b\\c'\t\n?" ++ [7, 0, 0x1F, 0x7F, 0xE9, 0x20AC, 0xFFFF])) =
    some (w "a\"b\\c'\t\n?" ++ [7, 0, 0x1F, 0x7F, 0xE9, 0x20AC, 0xFFFF]) := by decide +kernel
example : stringLiteral (w "a\"b" ++ [0x20AC]) = w "L\"a\\\"b\\u20ac\"" := by decide +kernel

/-- **C54** for strings without surrogates: nothing else can go wrong, and different strings get different literals. -/
theorem C54_preserved_partial (s : WStr) (h : ∀ c ∈ s, c < 65536 ∧ isSurrogate c = false) :
    stringValue (stringLiteral s) = some s := by
  rw [C54_literal s (fun c hc => (h c hc).1), if_neg]
  intro hh
  rw [List.any_eq_true] at hh
  obtain ⟨c, hc, e⟩ := hh
  rw [(h c hc).2] at e; cases e

/-- **C54** refuted: a valid C# string (an emoji, U+1F600) becomes an ill-formed literal. -/
theorem C54_surrogate_refuted : stringLiteral [0xD83D, 0xDE00] = w "L\"\\ud83d\\ude00\"" ∧
    stringValue (stringLiteral [0xD83D, 0xDE00]) = none := by decide +kernel

/-- The String object built by `(new String(L"..."))` (MyIlInstructionVisitor.cs lines 956-962, CppVisitorBase.cs lines 645-647):
the compiler lays out the literal's code units and a terminating NUL, and the constructor reads up to the first NUL. -/
def translatedString (s : WStr) : Option (Res WStr) := (stringValue (stringLiteral s)).map fun v => StrModel.newLiteral (v ++ [0])

/-- **C54** for the String object: it has the same characters whenever the string has neither surrogates nor NULs. -/
theorem C54_object_partial (s : WStr) (h : ∀ c ∈ s, c < 65536 ∧ isSurrogate c = false ∧ c ≠ 0) : translatedString s = some (.ok s) := by
  unfold translatedString
  rw [C54_preserved_partial s (fun c hc => ⟨(h c hc).1, (h c hc).2.1⟩)]
  have e : SBModel.wcslen (s ++ [0]) = some s.length := by
    induction s with
    | nil => rfl
    | cons c s ih =>
      have := ih (fun x hx => h x (by simp [hx]))
      have h0 := (h c (by simp)).2.2
      simp [SBModel.wcslen, h0, this]
  simp [StrModel.newLiteral, e]

example : translatedString (w "hello") = some (.ok (w "hello")) := by decide +kernel

/-- **C54** refuted for NUL characters: C#'s "a\0b" has three characters, the translated object one. -/
theorem C54_nul_refuted : translatedString [97, 0, 98] = some (.ok [97]) := by decide +kernel

/-- **C54** refuted under a strict ISO C++11/14 compiler (trigraphs enabled): C#'s "??=" denotes "#". -/
theorem C54_trigraph_refuted : stringValue (trigraphs (stringLiteral (w "??="))) = some (w "#") := by decide +kernel

/-- A text without two consecutive question marks is not changed by trigraph replacement. -/
theorem trigraphs_id : ∀ (t : WStr), (∀ i, ¬ (t[i]? = some 63 ∧ t[i + 1]? = some 63)) → trigraphs t = t
  | [], _ => rfl
  | [c], _ => by unfold trigraphs; simp [trigraphs]
  | c :: d :: r, h => by
    have h0 := h 0
    have ih : trigraphs (d :: r) = d :: r := trigraphs_id (d :: r) (fun i => by simpa using h (i + 1))
    unfold trigraphs
    split
    · rename_i e
      injection e with e1 e; injection e with e2 e
      subst e1; subst e2
      simp at h0
    · rename_i e; injection e with e1 e2; subst e1; subst e2; rw [ih]
    · rename_i e; cases e

/-- **C55**: exactly which characters survive as character literals. -/
theorem C55_literal (c : Nat) (h : c < 65536) : charValue (charLiteral c) = if isSurrogate c then none else some c := by
  unfold charLiteral
  show (match body 39 (escape c false ++ [39]).length (escape c false ++ [39]) with | some [c] => some c | _ => none) = _
  have := body_escape 39 false rfl [c] (by simpa using h) (escape c false ++ [39]).length
    (by have := escape_ne_nil c false; simp; omega)
  simp only [List.flatMap_cons, List.flatMap_nil, List.append_nil, List.any_cons, List.any_nil, Bool.or_false] at this
  rw [this]
  cases isSurrogate c <;> rfl

theorem C55_preserved_partial (c : Nat) (h : c < 65536) (hs : ¬ (0xD800 ≤ c ∧ c ≤ 0xDFFF)) : charValue (charLiteral c) = some c := by
  rw [C55_literal c h, if_neg]
  simp only [isSurrogate, Bool.and_eq_true, decide_eq_true_eq]; exact hs

example : charValue (charLiteral 39) = some 39 ∧ charLiteral 39 = w "L'\\''" ∧ charLiteral 0 = w "L'\\u0000'" := by decide +kernel

/-- **C55** refuted: `(char)0xD800` becomes an ill-formed literal. -/
theorem C55_surrogate_refuted : charValue (charLiteral 0xD800) = none := by decide +kernel

/-! ## Names -/

/-- What `AppendName` does, in words: a name starting with a lower-case letter gets the prefix "x_" (except `this`), the name "Void"
becomes "void", every other name is unchanged; the empty name throws. -/
theorem nameText_cases (ci : CharInfo) (c : Nat) (r : WStr) :
    nameText ci (c :: r) = .ok (if ci.isLower c = true ∧ c :: r ≠ w "this" then w "x_" ++ (c :: r)
      else if c :: r = w "Void" then w "void" else c :: r) := by
  unfold nameText prefixName
  by_cases h : ci.isLower c = true ∧ c :: r ≠ w "this"
  · simp only [if_pos h, Res.bind_ok]
    rw [if_neg]
    intro e
    have := congrArg (fun l => l.head?) e
    simp [w] at this
  · simp only [if_neg h, Res.bind_ok]

/-- The first letter of a keyword is a lower-case ASCII letter, and no keyword starts with "x_". -/
theorem keyword_shape (n : WStr) (h : isKeyword n) : (∃ c r, n = c :: r ∧ 97 ≤ c ∧ c ≤ 122) ∧ ∀ t, n ≠ w "x_" ++ t := by
  have a : ∀ k ∈ keywords, (w k).head?.any (fun c => 97 ≤ c && c ≤ 122) = true := by decide +kernel
  have b : ∀ k ∈ keywords, (w k).take 2 ≠ w "x_" := by decide +kernel
  obtain ⟨k, hk, e⟩ := h
  constructor
  · have := a k hk
    rw [← e] at this
    cases n with
    | nil => exact absurd this (by simp)
    | cons c r => exact ⟨c, r, rfl, by simpa using this⟩
  · intro t ht
    apply b k hk
    rw [← e, ht]
    have : (w "x_").length = 2 := rfl
    rw [← this, List.take_left]

/-- **C53**: the only names emitted as a C++ keyword are `this` and `Void` (as `void`). -/
theorem C53_keyword_partial (ci : CharInfo) (n t : WStr) (e : nameText ci n = .ok t) (hk : isKeyword t) : n = w "this" ∨ n = w "Void" := by
  cases n with
  | nil => simp [nameText, prefixName] at e
  | cons c r =>
    rw [nameText_cases, Res.ok.injEq] at e
    obtain ⟨⟨d, r', hd, h1, h2⟩, hx⟩ := keyword_shape t hk
    by_cases h : ci.isLower c = true ∧ c :: r ≠ w "this"
    · rw [if_pos h] at e; exact absurd e.symm (hx _)
    · rw [if_neg h] at e
      by_cases hv : c :: r = w "Void"
      · exact .inr hv
      · rw [if_neg hv] at e
        left
        rw [← e] at hd
        injection hd with hd _
        subst hd
        have hl : ci.isLower c = true := by rw [ci.ascii c (by omega)]; simp; omega
        by_cases ht : c :: r = w "this"
        · exact ht
        · exact absurd ⟨hl, ht⟩ h

example (ci : CharInfo) : nameText ci (w "class") = .ok (w "x_class") := by
  show nameText ci (99 :: w "lass") = _
  rw [nameText_cases, if_pos ⟨ci.ascii 99 (by omega), by decide⟩]; rfl

/-- **C53** refuted for keywords: a type called `Void` is emitted as `void`, a parameter written `@this` in C# (metadata name
"this") as the keyword `this`. -/
theorem C53_keyword_refuted (ci : CharInfo) : nameText ci (w "Void") = .ok (w "void") ∧ isKeyword (w "void") ∧
    nameText ci (w "this") = .ok (w "this") ∧ isKeyword (w "this") := by
  have h86 : ci.isLower 86 = false := by rw [ci.ascii 86 (by omega)]; rfl
  refine ⟨?_, ⟨"void", by decide +kernel, rfl⟩, ?_, ⟨"this", by decide +kernel, rfl⟩⟩
  · show nameText ci (86 :: w "oid") = _
    rw [nameText_cases, if_neg (by rw [h86]; simp), if_pos (by decide)]
  · show nameText ci (116 :: w "his") = _
    rw [nameText_cases, if_neg (by intro h; exact h.2 (by decide)), if_neg (by decide)]
    rfl

/-- **C53**: distinct C# names are emitted as distinct C++ identifiers (a name such as `x_a` is itself prefixed, to `x_x_a`). -/
theorem C53_injective (ci : CharInfo) (m n t : WStr) (em : nameText ci m = .ok t) (en : nameText ci n = .ok t) : m = n := by
  have hx : ci.isLower 120 = true := by rw [ci.ascii 120 (by omega)]; rfl
  have hv : ci.isLower 118 = true := by rw [ci.ascii 118 (by omega)]; rfl
  -- an unprefixed name never looks like a prefixed one, nor like `void`
  have key : ∀ (d : Nat) (s : WStr), ¬ (ci.isLower d = true ∧ d :: s ≠ w "this") → ∀ (a : Nat) (b : WStr), ci.isLower a = true → a ≠ 116 →
      d :: s ≠ a :: b := by
    intro d s hn a b ha h116 e
    injection e with e1 e2
    apply hn
    refine ⟨by rw [e1]; exact ha, ?_⟩
    intro h
    have : d = 116 := by injection h
    omega
  cases m with
  | nil => simp [nameText, prefixName] at em
  | cons c r =>
    cases n with
    | nil => simp [nameText, prefixName] at en
    | cons d s =>
      rw [nameText_cases, Res.ok.injEq] at em en
      by_cases hm : ci.isLower c = true ∧ c :: r ≠ w "this" <;> by_cases hn : ci.isLower d = true ∧ d :: s ≠ w "this"
      · rw [if_pos hm] at em; rw [if_pos hn] at en
        exact List.append_cancel_left (em.trans en.symm)
      · exfalso
        rw [if_pos hm] at em; rw [if_neg hn] at en
        by_cases vn : d :: s = w "Void"
        · rw [if_pos vn, ← em] at en
          exact absurd (congrArg (fun l => l.head?) en) (by simp [w])
        · rw [if_neg vn, ← em] at en
          exact key d s hn 120 _ hx (by omega) en
      · exfalso
        rw [if_neg hm] at em; rw [if_pos hn] at en
        by_cases vm : c :: r = w "Void"
        · rw [if_pos vm, ← en] at em
          exact absurd (congrArg (fun l => l.head?) em) (by simp [w])
        · rw [if_neg vm, ← en] at em
          exact key c r hm 120 _ hx (by omega) em
      · rw [if_neg hm] at em; rw [if_neg hn] at en
        by_cases vm : c :: r = w "Void" <;> by_cases vn : d :: s = w "Void"
        · rw [vm, vn]
        · rw [if_pos vm] at em; rw [if_neg vn, ← em] at en
          exact absurd en (key d s hn 118 _ hv (by omega))
        · rw [if_pos vn] at en; rw [if_neg vm, ← en] at em
          exact absurd em (key c r hm 118 _ hv (by omega))
        · rw [if_neg vm] at em; rw [if_neg vn] at en
          exact em.trans en.symm

example : nameText asciiInfo (w "a") = .ok (w "x_a") ∧ nameText asciiInfo (w "x_a") = .ok (w "x_x_a") ∧
    nameText asciiInfo (w "Foo") = .ok (w "Foo") := by decide +kernel

/-- **C53**: an ASCII C# identifier is emitted as an ASCII C++ identifier. -/
theorem C53_identifier (ci : CharInfo) (n t : WStr) (h : isIdent n = true) (e : nameText ci n = .ok t) : isIdent t = true := by
  cases n with
  | nil => cases h
  | cons c r =>
    rw [nameText_cases, Res.ok.injEq] at e
    split at e
    · subst e
      have h' := h
      simp only [isIdent, Bool.and_eq_true] at h'
      show isIdent (120 :: 95 :: c :: r) = true
      simp only [isIdent, List.all_cons, Bool.and_eq_true]
      refine ⟨by decide, by decide, ?_, h'.2⟩
      have h1 := h'.1
      simp only [Bool.or_eq_true, Bool.and_eq_true, beq_iff_eq, decide_eq_true_eq] at h1 ⊢
      omega
    · split at e
      · subst e; decide +kernel
      · subst e; exact h

/-- **C53**: the empty name is the only one that fails. -/
theorem C53_total (ci : CharInfo) (n : WStr) : (∃ t, nameText ci n = .ok t) ↔ n ≠ [] := by
  cases n with
  | nil => simp [nameText, prefixName]
  | cons c r => simp [nameText_cases]

end Verif.FmtTextProps
