import Verif.FloatSpec
import Verif.TextLemmas
import Mathlib.Data.Rat.Cast.Order
import Mathlib.Tactic.Linarith
import Mathlib.Tactic.Positivity
import Mathlib.Tactic.FieldSimp
import Mathlib.Tactic.Ring
import Mathlib.Tactic.NormNum
import Mathlib.Algebra.Order.Field.Power
/-!
# Specification of floating-point text: decimal numerals, and rounding to a format
-/
namespace Verif.FloatTextSpec
open FltModel

/-- The rational number a pattern stands for. The least positive number of a format is `2^(1 - bias - fraction bits)`; the bias is half of the largest exponent field (1023, 127). As in IEEE 754's definition
of rounding, an infinity counts as the power of two after the largest number. -/
def number (F : Fmt) (b : Nat) : ℚ := (val F b : ℚ) / 2 ^ (F.I / F.M / 2 - 1 + Nat.log2 F.M)

/-- `b` is `x` rounded to the format, to nearest, ties to even (IEEE 754 4.3.1): no NaN, and every other number is further away, or as far and the pattern of `b` is even. -/
def Rounded (F : Fmt) (x : ℚ) (b : Nat) : Prop :=
  b < 2 * F.S ∧ FltSpec.classOf F b ≠ .nan ∧
  ∀ c, c < 2 * F.S → FltSpec.classOf F c ≠ .nan → number F c ≠ number F b →
    |number F b - x| < |number F c - x| ∨ (|number F b - x| = |number F c - x| ∧ b % 2 = 0)

/-- `±m * 10^e` -/
def decimal (neg : Bool) (m : Nat) (e : Int) : ℚ := (if neg = true then -1 else 1) * (m : ℚ) * 10 ^ e

/-- An optional sign, `+` or `-`. -/
def SignText (sg : WStr) (neg : Bool) : Prop := (sg = [] ∧ neg = false) ∨ (sg = [43] ∧ neg = false) ∨ (sg = [45] ∧ neg = true)

/-- Nothing, or `e` or `E`, an optional sign and at least one digit. -/
def ExpText (t : WStr) (x : Int) : Prop :=
  (t = [] ∧ x = 0) ∨
  ∃ c sg ds neg, t = c :: (sg ++ ds) ∧ (c = 101 ∨ c = 69) ∧ SignText sg neg ∧ ds ≠ [] ∧ (∀ c ∈ ds, isDigit c = true) ∧ x = (if neg = true then -1 else 1) * (numeral ds : Int)

/-- `t` is a decimal numeral: an optional sign, digits with an optional decimal point (at least one digit), an optional exponent. Its digits form the natural number `m`, and it stands for `±m * 10^e`. -/
def DecimalText (t : WStr) (neg : Bool) (m : Nat) (e : Int) : Prop :=
  ∃ sg ip fp fd ep x, t = sg ++ (ip ++ (fp ++ ep)) ∧ SignText sg neg ∧ (∀ c ∈ ip, isDigit c = true) ∧ (∀ c ∈ fd, isDigit c = true) ∧
    ((fp = [] ∧ fd = []) ∨ fp = 46 :: fd) ∧ ip ++ fd ≠ [] ∧ ExpText ep x ∧ m = numeral (ip ++ fd) ∧ e = x - fd.length

end Verif.FloatTextSpec
