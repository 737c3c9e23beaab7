import Verif.TextModel
/-!
# Specification: what C++ identifiers and literals denote

Independent of the translator: a reading of ISO C++ [lex.key], [lex.ccon], [lex.string], [lex.charset], [lex.trigraph] for a
compiler whose wide characters hold one code point each (`wchar_t` is 32 bits on the Linux targets of /repo/CMakeLists.txt).
-/
namespace Verif.CppLex

/-- The keywords of C++11 through C++20 and the alternative tokens: none of them can be an identifier. -/
def keywords : List String :=
  ["alignas", "alignof", "and", "and_eq", "asm", "auto", "bitand", "bitor", "bool", "break", "case", "catch", "char", "char8_t",
   "char16_t", "char32_t", "class", "compl", "concept", "const", "consteval", "constexpr", "constinit", "const_cast", "continue",
   "co_await", "co_return", "co_yield", "decltype", "default", "delete", "do", "double", "dynamic_cast", "else", "enum", "explicit",
   "export", "extern", "false", "float", "for", "friend", "goto", "if", "inline", "int", "long", "mutable", "namespace", "new",
   "noexcept", "not", "not_eq", "nullptr", "operator", "or", "or_eq", "private", "protected", "public", "register",
   "reinterpret_cast", "requires", "return", "short", "signed", "sizeof", "static", "static_assert", "static_cast", "struct",
   "switch", "template", "this", "thread_local", "throw", "true", "try", "typedef", "typeid", "typename", "union", "unsigned",
   "using", "virtual", "void", "volatile", "wchar_t", "while", "xor", "xor_eq"]

/-- The text is a C++ keyword. -/
def isKeyword (n : WStr) : Prop := ∃ k ∈ keywords, n = w k

/-- Value of a hexadecimal digit. -/
def hexValue (c : Nat) : Option Nat :=
  if 48 ≤ c ∧ c ≤ 57 then some (c - 48)
  else if 97 ≤ c ∧ c ≤ 102 then some (c - 87)
  else if 65 ≤ c ∧ c ≤ 70 then some (c - 55)
  else none

/-- Surrogate code points cannot be named by a universal character name ([lex.charset]). -/
def isSurrogate (c : Nat) : Bool := 0xD800 ≤ c && c ≤ 0xDFFF

/-- A simple escape sequence: the character after the backslash. -/
def simpleEscape (c : Nat) : Option Nat :=
  if c = 39 ∨ c = 34 ∨ c = 63 ∨ c = 92 then some c
  else if c = 97 then some 7
  else if c = 98 then some 8
  else if c = 102 then some 12
  else if c = 110 then some 10
  else if c = 114 then some 13
  else if c = 116 then some 9
  else if c = 118 then some 11
  else none

/-- The value of the four hexadecimal digits of a universal character name, unless ill-formed. -/
def ucn (a b c d : Nat) : Option Nat := do
  let a ← hexValue a
  let b ← hexValue b
  let c ← hexValue c
  let d ← hexValue d
  let v := ((a * 16 + b) * 16 + c) * 16 + d
  if isSurrogate v then none else some v

/-- The first c-char or s-char of a literal delimited by `q`: its value and the rest of the text. -/
def unit (q : Nat) : WStr → Option (Nat × WStr)
  | [] => none
  | 92 :: 117 :: a :: b :: c :: d :: r => (ucn a b c d).map (·, r)
  | 92 :: e :: r => (simpleEscape e).map (·, r)
  | c :: r => if c = q ∨ c = 92 ∨ c < 32 ∨ 126 < c then none else some (c, r)

/-- The values of the characters up to the closing quote, which must end the text. -/
def body (q : Nat) : Nat → WStr → Option WStr
  | 0, _ => none
  | n + 1, t =>
    if t = [q] then some []
    else match unit q t with
      | none => none
      | some (v, r) => (body q n r).map (v :: ·)

/-- The code units a wide string literal denotes; `none` when the text is not a well-formed wide string literal. -/
def stringValue : WStr → Option WStr
  | 76 :: 34 :: t => body 34 t.length t
  | _ => none

/-- The code unit a wide character literal denotes. -/
def charValue : WStr → Option Nat
  | 76 :: 39 :: t =>
    match body 39 t.length t with
    | some [c] => some c
    | _ => none
  | _ => none

/-- Translation phase 1 of ISO C++11/14 ([lex.trigraph]; removed in C++17, off in GNU modes): `??x` sequences are replaced. -/
def trigraphs : WStr → WStr
  | 63 :: 63 :: c :: r =>
    if c = 61 then 35 :: trigraphs r
    else if c = 47 then 92 :: trigraphs r
    else if c = 39 then 94 :: trigraphs r
    else if c = 40 then 91 :: trigraphs r
    else if c = 41 then 93 :: trigraphs r
    else if c = 33 then 124 :: trigraphs r
    else if c = 60 then 123 :: trigraphs r
    else if c = 62 then 125 :: trigraphs r
    else if c = 45 then 126 :: trigraphs r
    else 63 :: trigraphs (63 :: c :: r)
  | c :: r => c :: trigraphs r
  | [] => []

/-- The text is lexically a C++ identifier in the basic character set. -/
def isIdent : WStr → Bool
  | [] => false
  | c :: r => (c == 95 || (65 ≤ c && c ≤ 90) || (97 ≤ c && c ≤ 122)) &&
      r.all fun c => c == 95 || (65 ≤ c && c ≤ 90) || (97 ≤ c && c ≤ 122) || (48 ≤ c && c ≤ 57)

end Verif.CppLex
