import Verif.FloatModel
/-!
# Specification vocabulary for floating-point numbers (IEEE 754 interchange formats)
-/
namespace Verif.FltSpec
open FltModel

/-- `F` is a binary interchange format with `f` fraction bits and `e ≥ 2` exponent bits. -/
structure IsFormat (F : Fmt) (f e : Nat) : Prop where
  exp2 : 2 ≤ e
  M : F.M = 2 ^ f
  S : F.S = 2 ^ (f + e)
  I : F.I = 2 ^ (f + e) - 2 ^ f

/-- Double: 52 fraction bits, 11 exponent bits; Single: 23 and 8. -/
theorem dbl_format : IsFormat dbl 52 11 := ⟨by omega, by decide, by decide, by decide⟩
theorem sgl_format : IsFormat sgl 23 8 := ⟨by omega, by decide, by decide, by decide⟩

/-- The two formats of the library. -/
def Lib (F : Fmt) : Prop := F = dbl ∨ F = sgl

/-- A bit pattern of the format's width (fraction, exponent and sign bits). -/
def Pattern (F : Fmt) (b : Nat) : Prop := b < 2 * F.S

/-- The five classes of floating-point data. -/
inductive Class
  | nan | infinite | zero | subnormal | normal
  deriving DecidableEq, Repr

/-- Exponent field and fraction field. -/
def expo (F : Fmt) (b : Nat) : Nat := b % F.S / F.M
def frac (F : Fmt) (b : Nat) : Nat := b % F.S % F.M
/-- The exponent field of infinities and NaNs (all ones). -/
def expoMax (F : Fmt) : Nat := F.S / F.M - 1

/-- IEEE 754 table: class from the exponent and fraction fields. -/
def classOf (F : Fmt) (b : Nat) : Class :=
  if expo F b = expoMax F then (if frac F b = 0 then .infinite else .nan)
  else if expo F b = 0 then (if frac F b = 0 then .zero else .subnormal)
  else .normal

/-- A number, finite or infinite. -/
def Number (F : Fmt) (b : Nat) : Prop := Pattern F b ∧ classOf F b ≠ .nan

/-- Order used by `CompareTo`: all NaNs are equal and below every number; numbers by value. -/
def Below (F : Fmt) (a b : Nat) : Prop :=
  (classOf F a = .nan ∧ classOf F b ≠ .nan) ∨ (classOf F a ≠ .nan ∧ classOf F b ≠ .nan ∧ val F a < val F b)
def Same (F : Fmt) (a b : Nat) : Prop :=
  (classOf F a = .nan ∧ classOf F b = .nan) ∨ (classOf F a ≠ .nan ∧ classOf F b ≠ .nan ∧ val F a = val F b)

instance (F : Fmt) (a b : Nat) : Decidable (Below F a b) := by unfold Below; infer_instance
instance (F : Fmt) (a b : Nat) : Decidable (Same F a b) := by unfold Same; infer_instance

end Verif.FltSpec
