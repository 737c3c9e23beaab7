import Verif.OrderModel
/-!
# Model: compound assignment with an overloaded operator

CppTranslator/MyIlInstructionVisitor.cs lines 1400-1413, `VisitUserDefinedCompoundAssign`: `t op= e` becomes `t = Class::op(t,e)`; the target is written twice. String
concatenation `s += e` is the same with `String::Concat`.
-/
namespace Verif.Order

/-- The target: a local variable or static field, or the array element whose address is computed by an instruction. -/
inductive Target where
  | loc (x : Nat)
  | elem (i : Src)

/-- Lines 1403-1411. -/
def lowerUser (f : Nat) (t : Target) (e : Src) : E :=
  match t with
  | .loc x => .store x (.call f (.app (.load x) (.app (lower e) (.lit []))))
  | .elem i => .storeAt (.app (lower i) (.call f (.app (.loadAt (lower i)) (.app (lower e) (.lit [])))))

end Verif.Order
