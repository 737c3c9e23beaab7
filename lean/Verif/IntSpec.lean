import Verif.TextLemmas
import Verif.IntModel
/-!
# Specification of integer text
-/
namespace Verif.IntVal

/-- `v` is a value of the type. -/
def InTy (ty : Ty) (v : Int) : Prop := ty.min ≤ v ∧ v ≤ ty.max

/-- `s` is optional white space, an optional sign and at least one digit; `v` is the integer it denotes. -/
def NumeralText (L : Locale) (s : WStr) (v : Int) : Prop :=
  ∃ ws sg ds : WStr, s = ws ++ sg ++ ds ∧ (∀ c ∈ ws, L.isSpace c = true) ∧ ds ≠ [] ∧
    (∀ c ∈ ds, isDigit c = true) ∧
    ((sg = [] ∧ v = numeral ds) ∨ (sg = [43] ∧ v = numeral ds) ∨ (sg = [45] ∧ v = -(numeral ds : Int)))

/-- A well-formed integer text: a numeral followed by white space only. -/
def IntText (L : Locale) (s : WStr) (v : Int) : Prop :=
  ∃ p ws, s = p ++ ws ∧ NumeralText L p v ∧ ∀ c ∈ ws, L.isSpace c = true

/-- The texts the implementation accepts: a numeral that is followed by the end or by one white space character. -/
def PrefixText (L : Locale) (s : WStr) : Prop :=
  ∃ p r v, s = p ++ r ∧ NumeralText L p v ∧ (r = [] ∨ ∃ c r', r = c :: r' ∧ L.isSpace c = true)

/-- The two values whose text is not handled: the minimum of the 32- and 64-bit signed types. -/
def SignedMin (ty : Ty) (v : Int) : Prop := (ty = .int32 ∨ ty = .int64) ∧ v = ty.min

end Verif.IntVal
