import Verif.ArrProgProps
/-!
# C158 continued: what the steps of the programs of C158 mean

Both sides of C158 share the definitions that put expressions, reads and assignments together; these theorems say what these do.
-/
namespace Verif.ArrProg
open Verif.Stmt Verif.Sem
open Verif.IntVal (Ty)
open Verif.Method (Env)
open Verif.Program (Fault ExprSem set)
open Verif.ArrSpec (Idx Shape)

variable {H : Type}

theorem res_inv {α β : Type} {x : Res α} {f : α → Res β} {b : β} (h : (x >>= f) = .ok b) : ∃ a, x = .ok a ∧ f a = .ok b := by
  cases x with
  | ok a => exact ⟨a, rfl, h⟩
  | throw e => cases h
  | ub => cases h

/-- **C158**, arguments: a call passes one value for each parameter: an expression's value as the parameter's type holds it, the reference in a variable, or null. -/
theorem C158_arguments (L : Lang H) (s : Env) : ∀ (ps : List Param) (es : List Arg) (vs : List Int), ps.length = es.length →
    (∀ (i : Nat) e, es[i]? = some (.val e) → ∃ t, ps[i]? = some (.val t)) → L.args s ps es = .ok vs →
    vs.length = ps.length ∧ ∀ i : Nat, (∀ t e, ps[i]? = some (.val t) → es[i]? = some (.val e) → ∃ v, L.E.store s t e = .ok v ∧ vs[i]? = some v) ∧
      (∀ x, es[i]? = some (.ref x) → vs[i]? = some (s x)) ∧ (es[i]? = some .null → vs[i]? = some 0)
  | [], [], vs, _, _, h => by
    simp only [Lang.args] at h; cases h
    exact ⟨rfl, fun i => ⟨by simp, by simp, by simp⟩⟩
  | [], _ :: _, _, hl, _, _ => by simp at hl
  | _ :: _, [], _, hl, _, _ => by simp at hl
  | p :: ps, e :: es, vs, hl, hk, h => by
    have hl' : ps.length = es.length := by simpa using hl
    have hk' : ∀ (i : Nat) e, es[i]? = some (.val e) → ∃ t, ps[i]? = some (.val t) := fun i e he => hk (i + 1) e he
    cases e with
    | val e =>
      obtain ⟨t, ht⟩ := hk 0 e rfl
      cases ht
      simp only [Lang.args] at h
      obtain ⟨v, h1, h2⟩ := res_inv h
      obtain ⟨ws, h3, h4⟩ := res_inv h2
      cases h4
      obtain ⟨a, b⟩ := C158_arguments L s ps es ws hl' hk' h3
      refine ⟨by simp [a], fun i => ?_⟩
      cases i with
      | zero => exact ⟨fun t' e' ht he => by cases ht; cases he; exact ⟨v, h1, rfl⟩, by simp, by simp⟩
      | succ i => exact b i
    | ref x =>
      simp only [Lang.args] at h
      obtain ⟨ws, h3, h4⟩ := res_inv h
      cases h4
      obtain ⟨a, b⟩ := C158_arguments L s ps es ws hl' hk' h3
      refine ⟨by simp [a], fun i => ?_⟩
      cases i with
      | zero => exact ⟨by simp, fun y hy => by cases hy; rfl, by simp⟩
      | succ i => exact b i
    | null =>
      simp only [Lang.args] at h
      obtain ⟨ws, h3, h4⟩ := res_inv h
      cases h4
      obtain ⟨a, b⟩ := C158_arguments L s ps es ws hl' hk' h3
      refine ⟨by simp [a], fun i => ?_⟩
      cases i with
      | zero => exact ⟨by simp, by simp, by simp⟩
      | succ i => exact b i

example (L : Lang H) (s : Env) : L.args s [.ref, .ref, .ref] [.ref 3, .null, .ref 4] = .ok [s 3, 0, s 4] := rfl

theorem deref_some {L : Lang H} {heap : List H} {r : Int} {a : H} : L.deref heap r = .ok a ↔ 0 < r ∧ heap[(r - 1).toNat]? = some a := by
  unfold Lang.deref
  by_cases e : r = 0
  · rw [if_pos e]
    constructor
    · intro h; cases hn : L.M.null <;> rw [hn] at h <;> cases h
    · intro h; omega
  · rw [if_neg e]
    by_cases e1 : r < 0
    · rw [if_pos e1]
      exact ⟨fun h => (by cases h), fun h => by omega⟩
    · rw [if_neg e1]
      cases g : heap[(r - 1).toNat]? with
      | none => exact ⟨fun h => (by cases h), fun h => (by cases h.2)⟩
      | some p => exact ⟨fun h => by cases h; exact ⟨by omega, rfl⟩, fun h => by cases h.2; rfl⟩

/-- **C158**, elements: in the source, after `a[i] = v` the element `a[i]` is `v` as its type holds it; the other elements, the type and the dimensions of `a`, and all other arrays are as before. -/
theorem C158_elements (o : Order) (s : St SArr) (t : Ty) (arr : Nat) (i : Idx) (v : Int) (heap : List SArr) (h : Lang.write ⟨Program.source, sourceMem, o⟩ s t arr i v = .ok heap) :
    ∃ a a', (⟨Program.source, sourceMem, o⟩ : Lang SArr).deref s.heap (s.vars arr) = .ok a ∧ (⟨Program.source, sourceMem, o⟩ : Lang SArr).deref heap (s.vars arr) = .ok a' ∧
      a'.ty = a.ty ∧ a'.sh = a.sh ∧ sourceMem.get a' t i = .ok (t.wrap v) ∧ (∀ j, j ≠ i → a'.elem j = a.elem j) ∧
      ∀ q, q ≠ s.vars arr → (⟨Program.source, sourceMem, o⟩ : Lang SArr).deref heap q = (⟨Program.source, sourceMem, o⟩ : Lang SArr).deref s.heap q := by
  unfold Lang.write at h
  obtain ⟨a, h1, h2⟩ := res_inv h
  obtain ⟨a', h3, h4⟩ := res_inv h2
  obtain ⟨h5, h6⟩ := deref_some.1 h1
  obtain ⟨u, h7, h8⟩ := res_inv (show (a.check t i >>= fun _ => _) = _ from h3)
  cases h4
  cases h8
  refine ⟨a, _, h1, deref_some.2 ⟨h5, List.getElem?_set_self (List.getElem?_eq_some_iff.1 h6).1⟩, rfl, rfl, ?_, fun j hj => ?_, fun q hq => ?_⟩
  · have hc : SArr.check { a with elem := fun jx => if jx = i then t.wrap v else a.elem jx } t i = .ok u := h7
    show (SArr.check _ t i >>= fun _ => _) = _
    rw [hc]
    simp
  · simp [hj]
  · unfold Lang.deref
    by_cases e : q = 0
    · rw [if_pos e, if_pos e]
    · rw [if_neg e, if_neg e]
      by_cases e1 : q < 0
      · rw [if_pos e1, if_pos e1]
      · rw [if_neg e1, if_neg e1, List.getElem?_set_ne (by omega)]

/-- The second of two arrays is assigned to. -/
example : ∃ heap, Lang.write ⟨Program.source, sourceMem, .source⟩ ⟨fun _ => 2, [⟨.int32, .one 3, fun _ => 5⟩, ⟨.byte, .one 3, fun _ => 6⟩]⟩ .byte 0 (.one 1) 257 = .ok heap ∧
    heap.map (fun a => (a.elem (.one 0), a.elem (.one 1))) = [(5, 5), (6, 1)] := by
  refine ⟨_, rfl, by decide⟩

/-- **C158**, null: the null reference is none of the arrays; `x == null` says whether the reference in `x` is null; a new array's reference is not null. -/
theorem C158_null (P : Prog) (L : Lang H) (C : Calls H) (s : St H) :
    P.refPiece L C ⟨none, none⟩ s = .ok 0 s ∧ (∀ a, L.deref s.heap 0 ≠ .ok a) ∧
    (∀ m k x, (P.meth m).cond k = .isNull x → ∃ b, (P.interp L C m).cond k s = .ok b s ∧ (b = true ↔ s.vars x = 0)) ∧
    ∀ t reads sizes x env s', P.op L C s (some (.new t reads sizes x)) = .ok env s' → (s.heap.length : Int) < env x ∧ ∃ a, L.deref s'.heap (env x) = .ok a := by
  refine ⟨rfl, fun a h => by have := (deref_some.1 h).1; omega, fun m k x h => ⟨decide (s.vars x = 0), ?_, by simp⟩, fun t reads sizes x env s' h => ?_⟩
  · simp only [Prog.interp, h]
  · simp only [Prog.op] at h
    cases e : (L.reads s.heap s.vars reads >>= fun env => L.index env sizes >>= fun i => L.M.new t (shapeOf i)) with
    | throw y => rw [e] at h; cases h
    | ub => rw [e] at h; cases h
    | ok a =>
      rw [e] at h
      cases h
      have ev : Program.set s.vars x (s.heap.length + 1) x = s.heap.length + 1 := by simp [Program.set]
      rw [ev]
      refine ⟨by omega, a, deref_some.2 ⟨by omega, ?_⟩⟩
      rw [show ((s.heap.length : Int) + 1 - 1).toNat = s.heap.length by omega]
      simp

end Verif.ArrProg
