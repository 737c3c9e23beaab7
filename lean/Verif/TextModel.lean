import Verif.Prelude
/-!
# Characters, locale functions and decimal printing

`Char` is `wchar_t` (/repo/DotNetLibrary/include/DotnetTypes.h line 40), 32 bits on Linux. A string value is the
list of its code units as natural numbers.
-/
namespace Verif

/-- A .NET string value: its characters. -/
abbrev WStr := List Nat

/-- The code units of an ASCII literal (only used to write texts in statements readably). -/
def w (s : String) : WStr := s.toList.map Char.toNat

/-- The C library's wide-character classification, used by /repo/DotNetLibrary/src/CharValue.cpp lines 97-207.
It is an external parameter (the process locale); the proof fields are what ISO C guarantees and the code relies
on: `iswspace` is false on digits, on the graphic characters `+ - .  :` and on NUL. -/
structure Locale where
  isSpace : Nat → Bool
  isUpper : Nat → Bool
  isLower : Nat → Bool
  toUpper : Nat → Nat
  toLower : Nat → Nat
  digit_not_space : ∀ c, 48 ≤ c → c ≤ 57 → isSpace c = false
  plus_not_space : isSpace 43 = false
  minus_not_space : isSpace 45 = false
  nul_not_space : isSpace 0 = false

/-- The "C" locale, the one a program has when it never calls `setlocale` (no file of /repo does). -/
def cLocale : Locale where
  isSpace c := c == 32 || (9 ≤ c && c ≤ 13)
  isUpper c := 65 ≤ c && c ≤ 90
  isLower c := 97 ≤ c && c ≤ 122
  toUpper c := if 97 ≤ c ∧ c ≤ 122 then c - 32 else c
  toLower c := if 65 ≤ c ∧ c ≤ 90 then c + 32 else c
  digit_not_space c h1 h2 := by
    simp only [Bool.or_eq_false_iff, Bool.and_eq_false_iff, beq_eq_false_iff_ne, decide_eq_false_iff_not]; omega
  plus_not_space := by decide
  minus_not_space := by decide
  nul_not_space := by decide

/-- `iswdigit` (CharValue.cpp lines 107-109): ISO C fixes it to '0'..'9'. -/
def isDigit (c : Nat) : Bool := 48 ≤ c && c ≤ 57

/-- Decimal digits of `n`, most significant first (`%llu` of swprintf). `fuel` bounds the number of digits. -/
def decAux : Nat → Nat → WStr
  | 0, n => [48 + n % 10]
  | fuel + 1, n => if n < 10 then [48 + n] else decAux fuel (n / 10) ++ [48 + n % 10]

/-- `swprintf("%llu")`: the decimal numeral of a natural number. -/
def dec (n : Nat) : WStr := decAux n n

/-- `swprintf("%lld")`: the decimal numeral of an integer. -/
def decInt (x : Int) : WStr := if x < 0 then 45 :: dec x.natAbs else dec x.toNat

/-- `swprintf("%02d")` for a non-negative argument. -/
def dec2 (n : Nat) : WStr := if n < 10 then 48 :: dec n else dec n

end Verif
