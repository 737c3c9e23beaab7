/-!
# Shared prelude: outcomes of C++ calls and checked machine integers

`Res` models what a call into the C++ library can do: return a value, throw one of the managed
exceptions declared in /repo/DotNetLibrary/include/Exception.h (lines 24-203), or run into undefined
behaviour of ISO C++ (out-of-bounds access, signed overflow, null dereference, overlapping memcpy).
-/
namespace Verif

/-- The exception classes of /repo/DotNetLibrary/include/Exception.h, lines 24-203. Messages are not modelled.
`keyNotFound` and `nullReference` are .NET exceptions raised by the translator itself. -/
inductive Exc
  | indexOutOfRange | argumentNull | rank | argumentOutOfRange | argument | notImplemented
  | invalidCast | invalidOperation | format | overflow | minMax | arithmetic | divideByZero | keyNotFound | nullReference
  deriving DecidableEq, Repr

/-- Outcome of a C++ call. -/
inductive Res (α : Type) where
  | ok (a : α)
  | throw (e : Exc)
  | ub
  deriving DecidableEq, Repr

namespace Res

/-- Sequencing: an exception or undefined behaviour ends the computation. -/
def bind {α β : Type} : Res α → (α → Res β) → Res β
  | .ok a, f => f a
  | .throw e, _ => .throw e
  | .ub, _ => .ub

instance : Monad Res where
  pure := Res.ok
  bind := Res.bind

-- The proofs are written `Eq.trans rfl rfl` so that `simp` rewrites with these equations instead of
-- leaving them to definitional unfolding (which makes the kernel unfold large literals).
@[simp] theorem bind_ok {α β : Type} (a : α) (f : α → Res β) : (Res.ok a >>= f) = f a :=
  Eq.trans rfl rfl
@[simp] theorem bind_throw {α β : Type} (e : Exc) (f : α → Res β) :
    ((Res.throw e : Res α) >>= f) = .throw e :=
  Eq.trans rfl rfl
@[simp] theorem bind_ub {α β : Type} (f : α → Res β) : ((Res.ub : Res α) >>= f) = .ub :=
  Eq.trans rfl rfl
@[simp] theorem pure_eq {α : Type} (a : α) : (pure a : Res α) = .ok a :=
  Eq.trans rfl rfl
@[simp] theorem map_ok {α β : Type} (g : α → β) (a : α) : (g <$> (Res.ok a)) = .ok (g a) :=
  Eq.trans rfl rfl
@[simp] theorem map_throw {α β : Type} (g : α → β) (e : Exc) :
    (g <$> (Res.throw e : Res α)) = .throw e :=
  Eq.trans rfl rfl
@[simp] theorem map_ub {α β : Type} (g : α → β) : (g <$> (Res.ub : Res α)) = .ub :=
  Eq.trans rfl rfl

theorem bind_eq_ok {α β : Type} (x : Res α) (f : α → Res β) (b : β) :
    (x >>= f) = .ok b ↔ ∃ a, x = .ok a ∧ f a = .ok b := by
  cases x <;> simp

end Res

/-- Range of a C++ `int32_t`. -/
def I32 (x : Int) : Prop := -2147483648 ≤ x ∧ x ≤ 2147483647
/-- Range of a C++ `uint32_t`. -/
def U32 (x : Int) : Prop := 0 ≤ x ∧ x ≤ 4294967295
/-- Range of a C++ `int64_t`. -/
def I64 (x : Int) : Prop := -9223372036854775808 ≤ x ∧ x ≤ 9223372036854775807
/-- Range of a C++ `uint64_t`. -/
def U64 (x : Int) : Prop := 0 ≤ x ∧ x ≤ 18446744073709551615

instance (x : Int) : Decidable (I32 x) := by unfold I32; infer_instance
instance (x : Int) : Decidable (U32 x) := by unfold U32; infer_instance
instance (x : Int) : Decidable (I64 x) := by unfold I64; infer_instance
instance (x : Int) : Decidable (U64 x) := by unfold U64; infer_instance

/-- Result of a signed 32-bit operation whose mathematical value is `x`: overflow is undefined behaviour. -/
def i32 (x : Int) : Res Int := if I32 x then .ok x else .ub
/-- Result of a signed 64-bit operation whose mathematical value is `x`: overflow is undefined behaviour. -/
def i64 (x : Int) : Res Int := if I64 x then .ok x else .ub

theorem i32_ok {x : Int} (h : I32 x) : i32 x = .ok x := by simp [i32, h]
theorem i64_ok {x : Int} (h : I64 x) : i64 x = .ok x := by simp [i64, h]

/-- Conversion to `int8_t` (two's complement truncation). -/
def wrapI8 (x : Int) : Int := (x + 128) % 256 - 128
/-- Conversion to `uint8_t`. -/
def wrapU8 (x : Int) : Int := x % 256
/-- Conversion to `int16_t`. -/
def wrapI16 (x : Int) : Int := (x + 32768) % 65536 - 32768
/-- Conversion to `uint16_t`. -/
def wrapU16 (x : Int) : Int := x % 65536
/-- Conversion to `int32_t`. -/
def wrapI32 (x : Int) : Int := (x + 2147483648) % 4294967296 - 2147483648
/-- Conversion to `uint32_t`. -/
def wrapU32 (x : Int) : Int := x % 4294967296
/-- Conversion to `int64_t`. -/
def wrapI64 (x : Int) : Int := (x + 9223372036854775808) % 18446744073709551616 - 9223372036854775808
/-- Conversion to `uint64_t`. -/
def wrapU64 (x : Int) : Int := x % 18446744073709551616

theorem wrapI32_of {x : Int} (h : I32 x) : wrapI32 x = x := by unfold wrapI32 I32 at *; omega
theorem wrapI64_of {x : Int} (h : I64 x) : wrapI64 x = x := by unfold wrapI64 I64 at *; omega
theorem wrapU64_of {x : Int} (h : U64 x) : wrapU64 x = x := by unfold wrapU64 U64 at *; omega
theorem wrapU32_of {x : Int} (h : U32 x) : wrapU32 x = x := by unfold wrapU32 U32 at *; omega

/-- C++ `/` on signed integers truncates toward zero: `Int.tdiv`, unfolded for linear arithmetic. -/
theorem tdiv_split (a b : Int) : a.tdiv b = if 0 ≤ a then a / b else -((-a) / b) := by
  split
  · rename_i h; exact Int.tdiv_eq_ediv_of_nonneg h
  · rename_i h
    have h1 : 0 ≤ -a := by omega
    rw [← Int.tdiv_eq_ediv_of_nonneg h1, Int.neg_tdiv, Int.neg_neg]

/-- C++ `%` on signed integers has the sign of the dividend: `Int.tmod`, unfolded. -/
theorem tmod_split (a b : Int) : a.tmod b = if 0 ≤ a then a % b else -((-a) % b) := by
  split
  · rename_i h; exact Int.tmod_eq_emod_of_nonneg h
  · rename_i h
    have h1 : 0 ≤ -a := by omega
    rw [← Int.tmod_eq_emod_of_nonneg h1, Int.neg_tmod, Int.neg_neg]

end Verif
