import Verif.TextModel
/-!
# What StringBuilder operations should do to the text (specification, independent of the model)
-/
namespace Verif.SBSpec

/-- The text `xs` with `ys` put in front of position `i`. -/
def insertAt (xs : WStr) (i : Nat) (ys : WStr) : WStr := xs.take i ++ ys ++ xs.drop i

/-- The text without its `n` characters from position `i` on. -/
def removeAt (xs : WStr) (i n : Nat) : WStr := xs.take i ++ xs.drop (i + n)

/-- The text with the segment `[i, i+n)` changed by `f`. -/
def onRange (f : WStr → WStr) (xs : WStr) (i n : Nat) : WStr :=
  xs.take i ++ f ((xs.drop i).take n) ++ xs.drop (i + n)

/-- `ys` is `xs` with every leftmost non-overlapping occurrence of `pat` replaced by `rep`: scanning from the left, an
occurrence at the current position is replaced and skipped as a whole, any other character is kept. -/
inductive Replaced (pat rep : WStr) : WStr → WStr → Prop
  | nil : Replaced pat rep [] []
  | hit {t t' : WStr} : Replaced pat rep t t' → Replaced pat rep (pat ++ t) (rep ++ t')
  | miss {x : Nat} {t t' : WStr} : ¬ pat <+: x :: t → Replaced pat rep t t' → Replaced pat rep (x :: t) (x :: t')

/-- The repeated text `ys ++ ys ++ ...`, `n` times. -/
def repeated (ys : WStr) : Nat → WStr
  | 0 => []
  | n + 1 => ys ++ repeated ys n

end Verif.SBSpec
