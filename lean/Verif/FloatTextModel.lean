import Verif.RoundModel
import Verif.IntModel
/-!
# Model of the text of Doubles and Singles
(/repo/DotNetLibrary/src/DoubleValue.cpp lines 128-171, SingleValue.cpp lines 135-178, Object.cpp lines 37-42)

The conversions themselves are the C library's `swprintf("%G")` and `swscanf("%lG"/"%G")`; this file is what ISO C (7.29.2.1, 7.29.2.2, 7.29.4.1.1) says they do, with glibc's correctly rounded results, in the
"C" numeric locale (the decimal point is `.`; no file of /repo calls `setlocale`). A Single passed to `swprintf` is promoted to double: the same number, so the format of the pattern does not matter
for the text. On MinGW the format call has no size argument; that variant is not modelled.
-/
namespace Verif.FloatText
open Verif.FltModel Verif.Rnd

/-! ## `swprintf("%G")` -/

/-- The decimal exponent of a natural number. `fuel` bounds the number of digits. -/
def log10 : Nat → Nat → Nat
  | 0, _ => 0
  | fuel + 1, n => if n < 10 then 0 else log10 fuel (n / 10) + 1

/-- For a number `n / d` below 1, how often it has to be multiplied by ten. -/
def lead : Nat → Nat → Nat → Nat
  | 0, _, _ => 0
  | fuel + 1, n, d => if d ≤ n then 0 else lead fuel (n * 10) d + 1

/-- The decimal exponent of `n / d`: `10^x ≤ n / d < 10^(x+1)`. -/
def expo (n d : Nat) : Int := if d ≤ n then (log10 (n / d) (n / d) : Int) else -(lead d n d : Int)

/-- `%E` with precision 5: six significant digits, as an integer, and the exponent after rounding (to nearest, ties to even). -/
def digits6 (n d : Nat) : Nat × Int :=
  let x := expo n d
  let k := Arith.rne (n * 10 ^ (5 - x).toNat) (d * 10 ^ (x - 5).toNat)
  if k = 1000000 then (100000, x + 1) else (k, x)

/-- Exactly `k` digits. -/
def padDec : Nat → Nat → WStr
  | 0, _ => []
  | k + 1, n => padDec k (n / 10) ++ [48 + n % 10]

/-- `%G` removes trailing zeros of the fraction. -/
def stripZeros (s : WStr) : WStr := (s.reverse.dropWhile (· == 48)).reverse

/-- The decimal point is removed with the last zero. -/
def point (fr : WStr) : WStr := if fr = [] then [] else 46 :: fr

/-- `m / 10^k` with its `k` decimals, trailing zeros removed. -/
def body (m k : Nat) : WStr := dec (m / 10 ^ k) ++ point (stripZeros (padDec k (m % 10 ^ k)))

/-- `E`, a sign, at least two digits. -/
def expoText (x : Int) : WStr := 69 :: (if x < 0 then 45 else 43) :: dec2 x.natAbs

/-- `%G` of a number that is not negative: precision 6, so the style of `%f` when `-4 ≤ x < 6`, that of `%E` otherwise. -/
def gText (n d : Nat) : WStr :=
  if n = 0 then [48]
  else if -4 ≤ (digits6 n d).2 ∧ (digits6 n d).2 < 6 then body (digits6 n d).1 (5 - (digits6 n d).2).toNat
  else body (digits6 n d).1 5 ++ expoText (digits6 n d).2

/-- A minus sign for negative values (also for `-0` and, in glibc, for NaNs with the sign bit). -/
def signText (s : Bool) : WStr := if s = true then [45] else []

/-- `swprintf(where, whereSize, L"%G", value)`: the text. -/
def format (F : Fmt) (b : Nat) : WStr :=
  signText (neg F b) ++
    (if F.I < mag F b then w "NAN" else if mag F b = F.I then w "INF" else gText (magVal F (mag F b)) (2 ^ places F))

/-- Object.cpp lines 37-42 with DoubleValue.cpp lines 128-134 (SingleValue.cpp 135-141): the text is printed to a buffer of 128 characters; when it does not fit, `swprintf` returns -1 and `chars[-1]` is written. -/
def toString (F : Fmt) (b : Nat) : Res WStr := if (format F b).length < 128 then .ok (format F b) else .ub

/-! ## `swscanf("%lG")` -/

/-- What a number text says: `±m * 10^e`, `±m * 2^e`, infinity, NaN. -/
inductive Tok
  | dec (m : Nat) (e : Int)
  | hex (m : Nat) (e : Int)
  | inf
  | nan
  deriving DecidableEq, Repr

def lower (c : Nat) : Nat := if 65 ≤ c ∧ c ≤ 90 then c + 32 else c

/-- The value of a list of digits in base `B`; `v` gives the value of a digit. -/
def digitsVal (B : Nat) (v : Nat → Nat) (cs : WStr) : Nat := cs.foldl (fun acc c => B * acc + v c) 0

def isHex (c : Nat) : Bool := isDigit c || (97 ≤ lower c && lower c ≤ 102)
def hexVal (c : Nat) : Nat := if isDigit c = true then c - 48 else lower c - 87

/-- The fraction: a point and digits. -/
def fracPart (p : Nat → Bool) : WStr → WStr × WStr
  | 46 :: r => (r.takeWhile p, r.dropWhile p)
  | r => ([], r)

/-- The digits of an exponent; none is a matching failure. -/
def expDigits (sign : Int) (r : WStr) : Option Int :=
  if r.takeWhile isDigit = [] then none else some (sign * digitsVal 10 (· - 48) (r.takeWhile isDigit))

/-- The sign and digits of an exponent. -/
def signedExp : WStr → Option Int
  | 43 :: r => expDigits 1 r
  | 45 :: r => expDigits (-1) r
  | r => expDigits 1 r

/-- An exponent introduced by `mark` (`e` or `p`, either case), if there is one. A mark without digits is a matching failure: the input item is the longest prefix of a number, and must be one. -/
def exponent (mark : Nat) : WStr → Option Int
  | [] => some 0
  | c :: r => if lower c = mark then signedExp r else some 0

/-- A number in base 10. -/
def scanDec (s : WStr) : Option Tok :=
  let ip := s.takeWhile isDigit
  let fr := fracPart isDigit (s.dropWhile isDigit)
  if ip = [] ∧ fr.1 = [] then none
  else (exponent 101 fr.2).map fun x => .dec (digitsVal 10 (· - 48) (ip ++ fr.1)) (x - fr.1.length)

/-- A number in base 16 after `0x`; each hexadecimal decimal counts four binary ones. -/
def scanHex (s : WStr) : Option Tok :=
  let ip := s.takeWhile isHex
  let fr := fracPart isHex (s.dropWhile isHex)
  if ip = [] ∧ fr.1 = [] then none
  else (exponent 112 fr.2).map fun x => .hex (digitsVal 16 hexVal (ip ++ fr.1)) (x - 4 * fr.1.length)

/-- Does `s` begin with the word, in either case? -/
def startsWith : WStr → WStr → Bool
  | _, [] => true
  | [], _ :: _ => false
  | c :: s, p :: ps => lower c == p && startsWith s ps

/-- The subject sequence without its sign. After `inf` an `i` has to begin `inity`. -/
def scanBody (s : WStr) : Option Tok :=
  if startsWith s (w "nan") = true then some .nan
  else if startsWith s (w "infi") = true then (if startsWith s (w "infinity") = true then some .inf else none)
  else if startsWith s (w "inf") = true then some .inf
  else if startsWith s (w "0x") = true then scanHex (s.drop 2)
  else scanDec s

/-- An optional sign. -/
def scanSigned : WStr → Option (Bool × Tok)
  | 43 :: r => (scanBody r).map (fun t => (false, t))
  | 45 :: r => (scanBody r).map (fun t => (true, t))
  | r => (scanBody r).map (fun t => (false, t))

/-- The number, rounded to the format. -/
def place (F : Fmt) : Tok → Nat
  | .dec m e => roundMag F (m * 10 ^ e.toNat * 2 ^ places F) (10 ^ (-e).toNat)
  | .hex m e => roundMag F (m * 2 ^ e.toNat * 2 ^ places F) (2 ^ (-e).toNat)
  | .inf => F.I
  | .nan => F.I + F.M / 2

/-- `swscanf(source, L"%lG", &rtn)` (`%G` for Single): white space is skipped; `none` when the result is not 1, `rtn` is then not written. The string ends at its first NUL. -/
def scan (L : Locale) (F : Fmt) (s : WStr) : Option Nat :=
  (scanSigned ((s.takeWhile (· != 0)).dropWhile L.isSpace)).map fun p => pack F p.1 (place F p.2)

/-! ## DoubleValue / SingleValue -/

/-- `Parse`, DoubleValue.cpp lines 138-142, SingleValue.cpp 145-149: a null string is dereferenced; when nothing was read the uninitialised variable is returned (undefined behaviour). -/
def parse (L : Locale) (F : Fmt) : Option WStr → Res Nat
  | none => .ub
  | some s => match scan L F s with
    | none => .ub
    | some b => .ok b

/-- `TryParseInternal(Char*, Int32, T&)`, DoubleValue.cpp lines 157-170, SingleValue.cpp 164-177. When nothing was read `result` is copied from the uninitialised variable. -/
def tryParseInternal (L : Locale) (F : Fmt) (mem : List Nat) (len : Int) : Res (Bool × Nat) := do
  let (m1, _) ← IntVal.skipSpace L mem len
  match scan L F m1 with
  | none => .ub
  | some b => .ok (true, b)

/-- `TryParseInternal(String*, T&)`, DoubleValue.cpp lines 152-156, SingleValue.cpp 159-163. -/
def tryParseString (L : Locale) (F : Fmt) : Option WStr → Res (Bool × Nat)
  | none => .throw .argumentNull
  | some s => tryParseInternal L F (s ++ [0]) s.length

/-- `TryParse`, DoubleValue.cpp lines 143-151, SingleValue.cpp 150-158: for null the result parameter keeps its value (`old`). -/
def tryParse (L : Locale) (F : Fmt) (old : Nat) : Option WStr → Res (Bool × Nat)
  | none => .ok (false, old)
  | some s => tryParseInternal L F (s ++ [0]) s.length

/-! ## Modulus -/

/-- `Modulus`, DoubleValue.cpp lines 135-137, SingleValue.cpp 142-144: `fmod` (ISO C 7.12.10.1, F.10.7.1): the truncated remainder, rounded like every result (`C132_modulus` shows that nothing is lost); NaN for an infinite
dividend or a zero divisor; the dividend for an infinite divisor. For Singles `fmod` may work on the operands promoted to double; the numbers are the same. -/
def modulus (F : Fmt) (a b : Nat) : Nat :=
  if (FltModel.nan F a || FltModel.nan F b) = true then F.I + F.M / 2
  else if mag F a = F.I ∨ mag F b = 0 then F.I + F.M / 2
  else if mag F b = F.I then a
  else pack F (neg F a) (roundMag F (magVal F (mag F a) % magVal F (mag F b)) 1)

end Verif.FloatText
