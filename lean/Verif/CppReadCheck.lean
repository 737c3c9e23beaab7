import Verif.CppStmtRead
/-!
# Checks of the specification of lexemes (CppRead, CppStmtRead)

Theorems about texts the translator never writes: comments, numbers with exponents, `->`.
-/
namespace Verif.Read

/-- The start of a comment is outside the fragment, wherever it stands, and only that: a `/` followed by anything but `/`, `*` and `=` is an operator. -/
theorem lex_comment (c : Nat) (r : WStr) : (c = 47 ∨ c = 42 → lexS (.punct [47]) (c :: r) = none) ∧
    (c ≠ 47 → c ≠ 42 → c ≠ 61 → lexS (.punct [47]) (c :: r) = (start c).bind fun st => (lexS st r).map (.punct [47] :: ·)) := by
  have hx : c ≠ 61 → (St.punct [47]).extends c = false := by
    intro h
    simp [St.extends, puncts, w, h]
  constructor
  · intro h
    rw [lexS, hx (by omega)]
    simp [h]
  · intro h1 h2 h3
    rw [lexS, hx h3]
    simp [h1, h2, St.flush]

/-- A sign belongs to a number exactly behind `e`, `E`, `p` or `P` ([lex.ppnumber]). -/
theorem lex_sign (s : WStr) (c : Nat) (h : c = 43 ∨ c = 45) : (St.num s).extends c = true ↔ ∃ d ∈ [69, 101, 80, 112], s.getLast? = some d := by
  rcases h with rfl | rfl <;> simp [St.extends, isPart, isStart, isDigit] <;> constructor <;> intro h <;> simpa [or_assoc] using h

/-- The lexemes that end an expression. -/
theorem isEnd_iff (x : Lexeme) : isEnd x = true ↔ x ∈ [pt ";", pt "{", pt "}"] := by
  simp [isEnd, or_assoc]

example : lex (w "a/*b") = none ∧ lex (w "a//b") = none ∧ lex (w "a/ *b") = some [.word (w "a"), pt "/", pt "*", .word (w "b")] ∧ lex (w "a/+b") = some [.word (w "a"), pt "/", pt "+", .word (w "b")] := by decide +kernel
example : lex (w "1e+5-2") = some [.num (w "1e+5"), pt "-", .num (w "2")] ∧ lex (w "1E-5") = some [.num (w "1E-5")] ∧ lex (w "1f+5") = some [.num (w "1f"), pt "+", .num (w "5")] := by decide +kernel
example : (punctTok (w "->")) = some .arrow ∧ lex (w "a->b") = some [.word (w "a"), pt "->", .word (w "b")] := by decide +kernel

end Verif.Read
