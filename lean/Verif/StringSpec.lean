import Verif.StringBuilderSpec
/-!
# What String operations should return (specification, independent of the model)
-/
namespace Verif.StrSpec

/-- The `n` characters from position `i` on. -/
def slice (xs : WStr) (i n : Nat) : WStr := (xs.drop i).take n

/-- The text `pat` stands in `xs` at position `i`. -/
def OccursAt (pat xs : WStr) (i : Nat) : Prop := pat <+: xs.drop i

instance (pat xs : WStr) (i : Nat) : Decidable (OccursAt pat xs i) := by unfold OccursAt; infer_instance

/-- `r` is the least position of `[lo, hi)` with property `P`, or -1 when there is none. -/
def IsFirst (P : Nat → Prop) (lo hi : Nat) (r : Int) : Prop :=
  (r = -1 ∧ ∀ i, lo ≤ i → i < hi → ¬ P i) ∨
  (∃ i : Nat, r = i ∧ lo ≤ i ∧ i < hi ∧ P i ∧ ∀ j, lo ≤ j → j < i → ¬ P j)

/-- `r` is the greatest position of `[lo, hi)` with property `P`, or -1 when there is none. -/
def IsLast (P : Nat → Prop) (lo hi : Nat) (r : Int) : Prop :=
  (r = -1 ∧ ∀ i, lo ≤ i → i < hi → ¬ P i) ∨
  (∃ i : Nat, r = i ∧ lo ≤ i ∧ i < hi ∧ P i ∧ ∀ j, i < j → j < hi → ¬ P j)

/-- `mid` is what is left of `xs` when leading characters of `set` are cut off: the cut part consists of characters of
`set` and the rest does not begin with one. -/
def TrimmedStart (set xs mid : WStr) : Prop :=
  ∃ pre : WStr, xs = pre ++ mid ∧ (∀ c ∈ pre, c ∈ set) ∧ (∀ c, mid.head? = some c → c ∉ set)

/-- The same at the end of the text. -/
def TrimmedEnd (set xs mid : WStr) : Prop :=
  ∃ post : WStr, xs = mid ++ post ∧ (∀ c ∈ post, c ∈ set) ∧ (∀ c, mid.getLast? = some c → c ∉ set)

/-- Both: the longest inner segment that neither begins nor ends with a character of `set`. -/
def Trimmed (set xs mid : WStr) : Prop :=
  ∃ pre post : WStr, xs = pre ++ mid ++ post ∧ (∀ c ∈ pre, c ∈ set) ∧ (∀ c ∈ post, c ∈ set) ∧
    (∀ c, mid.head? = some c → c ∉ set) ∧ (∀ c, mid.getLast? = some c → c ∉ set)

/-- The parts with the separator between consecutive ones. -/
def joined (sep : WStr) : List WStr → WStr
  | [] => []
  | [p] => p
  | p :: q :: t => p ++ sep ++ joined sep (q :: t)

/-- Dictionary order on texts by code unit. -/
def lexLt : WStr → WStr → Prop
  | [], [] => False
  | [], _ :: _ => True
  | _ :: _, [] => False
  | a :: s, b :: t => a < b ∨ (a = b ∧ lexLt s t)

end Verif.StrSpec
