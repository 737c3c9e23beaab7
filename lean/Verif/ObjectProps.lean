import Verif.ObjectModel
import Verif.StringProps
import Verif.FloatOrderProps
/-!
# C154: `Object.Equals(a, b)`
-/
namespace Verif.Obj
open FltModel FltSpec

/-! ## Specification -/

/-- The two objects hold the same value: the same type and, for numbers, the same number (NaN counts as one), for strings the same characters (compared up to the first NUL, C33). -/
def SameValue : Ob → Ob → Prop
  | .int t x, .int u y => t = u ∧ x = y
  | .bool x, .bool y => x = y
  | .char x, .char y => x = y
  | .real F x, .real G y => F = G ∧ Same F x y
  | .date x, .date y => x = y
  | .span x, .span y => x = y
  | .str x, .str y => x.length = y.length ∧ x.takeWhile (· ≠ 0) = y.takeWhile (· ≠ 0)
  | _, _ => False

/-- Two references to objects in the memory `h` are equal: both null, the same object, or objects with the same value. -/
def Equal (h : Nat → Ob) : Option Nat → Option Nat → Prop
  | none, none => True
  | some p, some q => p = q ∨ SameValue (h p) (h q)
  | _, _ => False

/-- A reference into the memory. -/
def ref (h : Nat → Ob) (p : Option Nat) : Ref := p.map (fun q => (q, h q))

/-- The floating-point objects in memory are singles and doubles. -/
def RealOk (h : Nat → Ob) : Prop := ∀ p F v, h p = .real F v → Lib F

/-! ## Proofs -/

theorem equals_sound (p q : Nat) (hpq : p ≠ q) (x y : Ob) (hx : ∀ F v, x = .real F v → Lib F) : ∃ r, equals p x (some (q, y)) = .ok r ∧ (r = true ↔ SameValue x y) := by
  cases x with
  | int t v =>
    cases y with
    | int u y =>
      by_cases e : u = t
      · subst e
        exact ⟨v == y, by simp [equals, IntVal.equalsObj], by simp [SameValue]⟩
      · exact ⟨false, by simp [equals, e, IntVal.equalsObj], by simp [SameValue]; exact fun h => absurd h.symm e⟩
    | _ => exact ⟨false, rfl, by simp [SameValue]⟩
  | bool b =>
    cases y with
    | bool y => exact ⟨y == b, rfl, by simp [SameValue]; exact ⟨Eq.symm, Eq.symm⟩⟩
    | _ => exact ⟨false, rfl, by simp [SameValue]⟩
  | char c =>
    cases y with
    | char y => exact ⟨c == y, rfl, by simp [SameValue]⟩
    | _ => exact ⟨false, rfl, by simp [SameValue]⟩
  | real F v =>
    cases y with
    | real G y =>
      by_cases e : G = F
      · subst e
        exact ⟨FltModel.equals G v y, by simp [equals, FltModel.equalsObj], by rw [(FltProps.C51_equals (hx G v rfl) v y).2]; simp [SameValue]⟩
      · exact ⟨false, by simp [equals, e, FltModel.equalsObj], by simp [SameValue]; exact fun h => absurd h.symm e⟩
    | _ => exact ⟨false, rfl, by simp [SameValue]⟩
  | date v =>
    cases y with
    | date y => exact ⟨v == y, rfl, by simp [SameValue]⟩
    | _ => exact ⟨false, rfl, by simp [SameValue]⟩
  | span v =>
    cases y with
    | span y => exact ⟨v == y, rfl, by simp [SameValue]⟩
    | _ => exact ⟨false, rfl, by simp [SameValue]⟩
  | str v =>
    cases y with
    | str y => exact ⟨_, (StrProps.C33_exact v y).2.1, by simp [SameValue]⟩
    | _ => exact ⟨false, rfl, by simp [SameValue]⟩
  | plain => exact ⟨false, by simp [equals, hpq], by cases y <;> simp [SameValue]⟩

theorem Same.symm {F : Fmt} {a b : Nat} (h : Same F a b) : Same F b a := by
  rcases h with h | h
  · exact .inl ⟨h.2, h.1⟩
  · exact .inr ⟨h.2.1, h.1, h.2.2.symm⟩

theorem Same.trans {F : Fmt} {a b c : Nat} (h : Same F a b) (k : Same F b c) : Same F a c := by
  rcases h with h | h <;> rcases k with k | k
  · exact .inl ⟨h.1, k.2⟩
  · exact absurd h.2 k.1
  · exact absurd k.1 h.2.1
  · exact .inr ⟨h.1, k.2.1, h.2.2.trans k.2.2⟩

theorem SameValue.symm {a b : Ob} (h : SameValue a b) : SameValue b a := by
  cases a <;> cases b <;> simp only [SameValue] at h ⊢
  · exact ⟨h.1.symm, h.2.symm⟩
  · exact h.symm
  · exact h.symm
  · obtain ⟨rfl, h⟩ := h; exact ⟨rfl, Same.symm h⟩
  · exact h.symm
  · exact h.symm
  · exact ⟨h.1.symm, h.2.symm⟩

theorem SameValue.trans {a b c : Ob} (h : SameValue a b) (k : SameValue b c) : SameValue a c := by
  cases a <;> cases b <;> first | exact h.elim | skip
  all_goals cases c <;> first | exact k.elim | skip
  all_goals simp only [SameValue] at h k ⊢
  · exact ⟨h.1.trans k.1, h.2.trans k.2⟩
  · exact h.trans k
  · exact h.trans k
  · obtain ⟨rfl, h⟩ := h; obtain ⟨rfl, k⟩ := k; exact ⟨rfl, Same.trans h k⟩
  · exact h.trans k
  · exact h.trans k
  · exact ⟨h.1.trans k.1, h.2.trans k.2⟩

/-- **C154**: `Object.Equals(a, b)` always returns (null arguments and any mixture of types included), and it returns true exactly when both are null, both are the same object, or both are boxed values of the same type (or strings)
with the same value. -/
theorem C154_equals (h : Nat → Ob) (hr : RealOk h) (a b : Option Nat) : ∃ r, staticEquals (ref h a) (ref h b) = .ok r ∧ (r = true ↔ Equal h a b) := by
  cases a with
  | none => cases b with
    | none => exact ⟨true, rfl, by simp [Equal]⟩
    | some q => exact ⟨false, rfl, by simp [Equal]⟩
  | some p => cases b with
    | none => exact ⟨false, rfl, by simp [Equal]⟩
    | some q =>
      by_cases e : p = q
      · exact ⟨true, by simp [ref, staticEquals, e], by simp [Equal, e]⟩
      · obtain ⟨r, h1, h2⟩ := equals_sound p q e (h p) (h q) (hr p)
        refine ⟨r, ?_, ?_⟩
        · show (if p = q then _ else _) = _
          rw [if_neg e, h1]
        · rw [h2]; simp [Equal, e]

/-- **C154**: it is an equivalence relation on references. -/
theorem C154_equivalence (h : Nat → Ob) (hr : RealOk h) :
    (∀ a, staticEquals (ref h a) (ref h a) = .ok true) ∧
    (∀ a b, staticEquals (ref h a) (ref h b) = staticEquals (ref h b) (ref h a)) ∧
    (∀ a b c, staticEquals (ref h a) (ref h b) = .ok true → staticEquals (ref h b) (ref h c) = .ok true → staticEquals (ref h a) (ref h c) = .ok true) := by
  have key : ∀ a b, staticEquals (ref h a) (ref h b) = .ok true ↔ Equal h a b := by
    intro a b
    obtain ⟨r, h1, h2⟩ := C154_equals h hr a b
    rw [h1, ← h2, Res.ok.injEq]
  have symm : ∀ a b, Equal h a b → Equal h b a := by
    intro a b e
    cases a <;> cases b <;> simp only [Equal] at e ⊢
    rcases e with e | e
    · exact .inl e.symm
    · exact .inr e.symm
  refine ⟨?_, ?_, ?_⟩
  · intro a; rw [key]; cases a <;> simp [Equal]
  · intro a b
    obtain ⟨r, h1, h2⟩ := C154_equals h hr a b
    obtain ⟨s, k1, k2⟩ := C154_equals h hr b a
    rw [h1, k1]
    have : r = true ↔ s = true := by rw [h2, k2]; exact ⟨symm _ _, symm _ _⟩
    congr 1
    cases r <;> cases s <;> simp at this ⊢
  · intro a b c e f
    rw [key] at e f ⊢
    cases a <;> cases b <;> simp only [Equal] at e
    · exact f
    · cases c with
      | none => exact f.elim
      | some r =>
        simp only [Equal] at f ⊢
        rcases e with rfl | e
        · exact f
        · rcases f with rfl | f
          · exact .inr e
          · exact .inr (e.trans f)

/-- A memory for the example: two strings, two numbers of different types, two NaNs, a plain object. -/
def exHeap : Nat → Ob
  | 0 => .str (w "ab")
  | 1 => .str (w "ab")
  | 2 => .int .int32 1
  | 3 => .int .int64 1
  | 4 => .real dbl 0x7FF8000000000000
  | 5 => .real dbl 0xFFF8000000000000
  | _ => .plain

example : RealOk exHeap ∧ staticEquals (ref exHeap (some 0)) (ref exHeap (some 1)) = .ok true ∧ staticEquals (ref exHeap (some 2)) (ref exHeap (some 3)) = .ok false ∧
    staticEquals (ref exHeap (some 4)) (ref exHeap (some 5)) = .ok true ∧ staticEquals (ref exHeap (some 6)) (ref exHeap (some 7)) = .ok false ∧
    staticEquals (ref exHeap (some 2)) (ref exHeap none) = .ok false := by
  refine ⟨?_, by decide +kernel, by decide +kernel, by decide +kernel, by decide +kernel, by decide +kernel⟩
  intro p F v e
  unfold exHeap at e
  split at e <;> first | (cases e; done) | (injection e with e1 e2; exact .inl e1.symm)

end Verif.Obj
