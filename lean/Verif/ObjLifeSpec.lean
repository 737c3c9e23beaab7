import Verif.ObjProgModel
/-!
# Specification for C161: what becomes of objects and arrays during a call
-/
namespace Verif.ObjProg
open Verif.ArrModel (Arr)
open Verif.ArrProg (SArr)

/-- From state `s` to state `s'` (`D` says when an array is still the same one): every object is still there, of the same class, constructed as far as it was; every object that is new is completely constructed or its
construction has failed; every array is still there. -/
structure Lives {H : Type} (D : H → H → Prop) (s s' : St H) : Prop where
  objs : ∀ (i : Nat) o, s.objs[i]? = some o → ∃ o', s'.objs[i]? = some o' ∧ o'.cls = o.cls ∧ o'.now = o.now ∧ o'.live = o.live
  new : ∀ (i : Nat) o', s'.objs[i]? = some o' → i < s.objs.length ∨ o'.now = o'.cls ∨ o'.live = false
  arrs : ∀ (i : Nat) a, s.heap[i]? = some a → ∃ a', s'.heap[i]? = some a' ∧ D a a'

/-- The same array of the source: its element type and its dimensions. -/
def SameSource (a b : SArr) : Prop := b.ty = a.ty ∧ b.sh = a.sh
/-- The same array of the library: element type, dimensions and memory. -/
def SameCpp (a b : Arr) : Prop := b.ty = a.ty ∧ b.d1 = a.d1 ∧ b.d2 = a.d2 ∧ b.d3 = a.d3 ∧ b.dims = a.dims ∧ b.total = a.total ∧ b.data.length = a.data.length

/-- The state in which a call ends. -/
def final {H : Type} : Stmt.Ev (St H) Program.Fault (Option Int) → St H
  | .ok _ s => s
  | .raise _ s => s

end Verif.ObjProg
