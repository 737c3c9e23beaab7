import Verif.VisitModel
/-!
# C150: every instruction is written, or its absence is reported
-/
namespace Verif.Visit

/-! ## Specification -/

mutual
/-- All instructions of a tree, each before its operands. -/
def all : Inst → List Nat
  | .node _ id f => id :: allF f
def allF : Insts → List Nat
  | .nil => []
  | .cons i r => all i ++ allF r
end

mutual
/-- Some instruction of the tree has the property. -/
def Some' (p : Kind → Bool) : Inst → Prop
  | .node k _ f => p k = true ∨ SomeF p f
def SomeF (p : Kind → Bool) : Insts → Prop
  | .nil => False
  | .cons i r => Some' p i ∨ SomeF p r
end

mutual
/-- A block with a final instruction and a handler have operands. -/
def Sound : Inst → Prop
  | .node k _ f => ((k = .block true ∨ k = .tryCatchHandler) → f ≠ .nil) ∧ SoundF f
def SoundF : Insts → Prop
  | .nil => True
  | .cons i r => Sound i ∧ SoundF r
end

/-- The C# constructs of which something is left out: calls of a base constructor, blocks with a value (object initialisers and the like), handlers with a filter (an operand besides the body), function
pointers and lambdas, `is` and `as`, `??`, `?.`, `using`, `lock`, `try`/`finally`, `yield`, `await`, `dynamic`, decimal constants, `typeof`, `sizeof`, `stackalloc`, `fixed`. -/
def leftOut : Kind → Bool
  | .call ctor => ctor
  | .block final => final
  | .arglist | .await | .callIndirect | .ckfinite | .cpblk | .debugBreak | .dynamicBinaryOperator | .dynamicCompoundAssign | .dynamicConvert | .dynamicGetIndex | .dynamicGetMember
  | .dynamicInvokeConstructor | .dynamicInvoke | .dynamicInvokeMember | .dynamicIsEvent | .dynamicLogicOperator | .dynamicSetIndex | .dynamicSetMember | .dynamicUnaryOperator | .expressionTreeCast
  | .ilFunction | .initblk | .invalidBranch | .invalidExpression | .isInst | .ldcDecimal | .ldFtn | .ldMemberToken | .ldTypeToken | .ldVirtDelegate | .ldVirtFtn | .locAlloc | .locAllocSpan | .lock
  | .makeRefAny | .nullableRewrap | .nullableUnwrap | .nullCoalescing | .pinnedRegion | .refAnyType | .refAnyValue | .sizeOf | .stringToInt | .threeValuedBoolAnd | .threeValuedBoolOr | .tryFault
  | .tryFinally | .unbox | .userDefinedLogicOperator | .using | .yieldReturn => true
  | _ => false

mutual
/-- Some handler of the tree has an operand besides its body: a filter. -/
def Filtered : Inst → Prop
  | .node k _ f => (k = .tryCatchHandler ∧ ∃ a b r, f = .cons a (.cons b r)) ∨ FilteredF f
def FilteredF : Insts → Prop
  | .nil => False
  | .cons i r => Filtered i ∨ FilteredF r
end

/-! ## Proof -/

theorem how_leftOut (k : Kind) : leftOut k = true ↔ how k = .nothing ∨ how k = .butLast := by
  cases k with
  | call c => cases c <;> simp [leftOut, how]
  | block c => cases c <;> simp [leftOut, how]
  | _ => simp [leftOut, how]

theorem how_butLast (k : Kind) : how k = .butLast ↔ k = .block true := by
  cases k with
  | call c => cases c <;> simp [how]
  | block c => cases c <;> simp [how]
  | _ => simp [how]

theorem how_lastOnly (k : Kind) : how k = .lastOnly ↔ k = .tryCatchHandler := by
  cases k with
  | call c => cases c <;> simp [how]
  | block c => cases c <;> simp [how]
  | _ => simp [how]

theorem pick_sublist {α : Type} (h : How) (l : List α) : (pick h l).Sublist l := by
  cases h with
  | whole => exact List.Sublist.refl _
  | nothing => exact List.nil_sublist _
  | butLast => exact List.dropLast_sublist _
  | lastOnly =>
    show (l.getLast?.toList).Sublist l
    cases hl : l.getLast? with
    | none => exact List.nil_sublist _
    | some x => exact List.singleton_sublist.2 (List.mem_of_getLast? hl)

theorem flatten_sublist {α : Type} {a b : List (List α)} (h : a.Sublist b) : a.flatten.Sublist b.flatten := by
  induction h with
  | slnil => exact List.Sublist.refl _
  | cons x _ ih => exact ih.trans (List.sublist_append_right ..)
  | cons_cons x _ ih => exact (List.Sublist.refl x).append ih

mutual
theorem visit_sub : (t : Inst) → (visit t).Sublist (all t)
  | .node k id f => by
    rw [visit, all]
    have h := (flatten_sublist (pick_sublist (how k) (visits f))).trans (visits_sub f)
    cases ho : own (how k)
    · simp; exact h.trans (List.sublist_cons_self ..)
    · simp; exact h
theorem visits_sub : (f : Insts) → (visits f).flatten.Sublist (allF f)
  | .nil => List.Sublist.refl _
  | .cons i r => by
    rw [visits, allF, List.flatten_cons]
    exact (visit_sub i).append (visits_sub r)
end

/-- **C150**, order: what is written of a method's instructions is written once and in the order of the tree. -/
theorem C150_order (t : Inst) : (visit t).Sublist (all t) := visit_sub t

theorem all_pos (t : Inst) : 0 < (all t).length := by cases t; simp [all]

theorem visit_len (t : Inst) : (visit t).length ≤ (all t).length := (visit_sub t).length_le
theorem visits_len (f : Insts) : (visits f).flatten.length ≤ (allF f).length := (visits_sub f).length_le

theorem lt_len (k : Kind) (f : Insts) (h : how k ≠ .whole) (hs : (k = .block true ∨ k = .tryCatchHandler) → f ≠ .nil) (hl : how k = .lastOnly → ∃ a b r, f = .cons a (.cons b r)) :
    ((if own (how k) then [0] else []) ++ (pick (how k) (visits f)).flatten).length < 1 + (allF f).length := by
  have last : ∀ f : Insts, f ≠ .nil → (visits f).dropLast.flatten.length < (allF f).length := by
    intro f
    induction f using Insts.rec (motive_1 := fun _ => True) with
    | node _ _ _ _ => trivial
    | nil => intro h; exact absurd rfl h
    | cons i r _ ih =>
      intro _
      cases r with
      | nil => simp only [visits, List.dropLast_singleton, List.flatten_nil, List.length_nil, allF, List.append_nil]; exact all_pos i
      | cons j r =>
        have := ih (by simp)
        rw [visits, allF, List.length_append]
        rw [show (visit i :: visits (.cons j r)).dropLast = visit i :: (visits (.cons j r)).dropLast from rfl]
        rw [List.flatten_cons, List.length_append]
        have := visit_len i
        omega
  have lone : ∀ f : Insts, ((visits f).getLast?.toList).flatten.length ≤ (allF f).length := by
    intro f
    exact ((flatten_sublist (pick_sublist .lastOnly (visits f))).trans (visits_sub f)).length_le
  cases hh : how k with
  | whole => exact absurd hh h
  | nothing => show 0 < _; omega
  | butLast =>
    have := last f (hs (.inl ((how_butLast k).1 hh)))
    simp only [own, pick, if_true, List.length_append, List.length_singleton]
    omega
  | lastOnly =>
    obtain ⟨a, b, r, rfl⟩ := hl hh
    have h1 := lone (.cons b r)
    have h2 := all_pos a
    simp only [own, pick, if_true, List.length_append, List.length_singleton]
    rw [show (visits (.cons a (.cons b r))).getLast? = (visits (.cons b r)).getLast? by simp [visits], allF, List.length_append]
    omega

theorem all_written : (t : Inst) → ¬ Some' leftOut t → ¬ Filtered t → Sound t → visit t = all t := by
  intro t
  induction t using Inst.rec (motive_2 := fun f => ¬ SomeF leftOut f → ¬ FilteredF f → SoundF f → (visits f).flatten = allF f) with
  | nil => rfl
  | cons i r ih1 ih2 =>
    rename_i h1 h2 h3
    rw [SomeF] at h1
    rw [FilteredF] at h2
    rw [SoundF] at h3
    rw [visits, allF, List.flatten_cons, ih1 (fun h => h1 (.inl h)) (fun h => h2 (.inl h)) h3.1, ih2 (fun h => h1 (.inr h)) (fun h => h2 (.inr h)) h3.2]
  | node k id f ih =>
    intro h1 h2 h3
    rw [Some'] at h1
    rw [Filtered] at h2
    rw [Sound] at h3
    have ih := ih (fun h => h1 (.inr h)) (fun h => h2 (.inr h)) h3.2
    have hk : ¬ leftOut k = true := fun h => h1 (.inl h)
    rw [how_leftOut] at hk
    rw [visit, all]
    cases hh : how k with
    | whole => show [id] ++ (visits f).flatten = _; rw [ih]; rfl
    | nothing => exact absurd (.inl hh) hk
    | butLast => exact absurd (.inr hh) hk
    | lastOnly =>
      have hk2 := (how_lastOnly k).1 hh
      show [id] ++ ((visits f).getLast?.toList).flatten = _
      cases f with
      | nil => exact absurd rfl (h3.1 (.inr hk2))
      | cons i r =>
        cases r with
        | nil => rw [← ih]; simp [visits]
        | cons j r => exact absurd (.inl ⟨hk2, i, j, r, rfl⟩) h2

theorem less_written : (t : Inst) → (Some' leftOut t ∨ Filtered t) → Sound t → (visit t).length < (all t).length := by
  intro t
  induction t using Inst.rec (motive_2 := fun f => (SomeF leftOut f ∨ FilteredF f) → SoundF f → (visits f).flatten.length < (allF f).length) with
  | nil => rename_i h _; rcases h with h | h <;> exact h.elim
  | cons i r ih1 ih2 =>
    rename_i h h3
    rw [SomeF, FilteredF] at h
    rw [SoundF] at h3
    rw [visits, allF, List.flatten_cons, List.length_append, List.length_append]
    have a := visit_len i
    have b := visits_len r
    rcases h with (h | h) | (h | h)
    · have := ih1 (.inl h) h3.1; omega
    · have := ih2 (.inl h) h3.2; omega
    · have := ih1 (.inr h) h3.1; omega
    · have := ih2 (.inr h) h3.2; omega
  | node k id f ih =>
    intro h h3
    rw [Some', Filtered] at h
    rw [Sound] at h3
    rw [visit, all, List.length_cons]
    have e : ((if own (how k) = true then [id] else []) ++ (pick (how k) (visits f)).flatten).length = ((if own (how k) = true then [0] else []) ++ (pick (how k) (visits f)).flatten).length := by
      cases own (how k) <;> simp
    have gen : (SomeF leftOut f ∨ FilteredF f) → ((if own (how k) = true then [id] else []) ++ (pick (how k) (visits f)).flatten).length < (allF f).length + 1 := by
      intro h
      have := ih h h3.2
      have h5 := (flatten_sublist (pick_sublist (how k) (visits f))).length_le
      rw [List.length_append]
      have : (if own (how k) = true then [id] else []).length ≤ 1 := by cases own (how k) <;> simp
      omega
    rcases h with (h | h) | (h | h)
    · rw [how_leftOut] at h
      rw [e, Nat.add_comm]
      refine lt_len k f (by rcases h with h | h <;> rw [h] <;> simp) h3.1 (fun hl => ?_)
      rcases h with h | h <;> rw [h] at hl <;> cases hl
    · exact gen (.inl h)
    · have hk := (how_lastOnly k).2 h.1
      rw [e, Nat.add_comm]
      exact lt_len k f (by rw [hk]; simp) h3.1 (fun _ => h.2)
    · exact gen (.inr h)

/-- **C150** (exact condition): every instruction of a method is written exactly when none of them is of the constructs in `leftOut` and no handler has a filter. -/
theorem C150_complete_partial (t : Inst) (hs : Sound t) : visit t = all t ↔ ¬ Some' leftOut t ∧ ¬ Filtered t := by
  constructor
  · intro h
    refine ⟨fun c => ?_, fun c => ?_⟩
    · have := less_written t (.inl c) hs; rw [h] at this; omega
    · have := less_written t (.inr c) hs; rw [h] at this; omega
  · rintro ⟨h1, h2⟩
    exact all_written t h1 h2 hs

/-- `x = f(a + 1)`. -/
def exStore : Inst := .node .stLoc 1 (.cons (.node (.call false) 2 (.cons (.node .binaryNumeric 3 (.cons (.node .ldLoc 4 .nil) (.cons (.node .ldcI4 5 .nil) .nil))) .nil)) .nil)

example : visit exStore = [1, 2, 3, 4, 5] ∧ Sound exStore ∧ ¬ Some' leftOut exStore ∧ ¬ Filtered exStore := by
  refine ⟨by decide +kernel, ?_, ?_, ?_⟩ <;> simp [exStore, Sound, SoundF, Some', SomeF, Filtered, FilteredF, leftOut]

/-- **C150**, the rest refuted: whatever their operands do, nothing is written for `try`/`finally`, `lock`, `using`, `yield`, `await`, `is`/`as`, `??` and the other constructs without a visitor, and the translation
goes on as if they were not there. -/
theorem C150_refuted (k : Kind) (h : leftOut k = true) (hb : k ≠ .block true) (id : Nat) (operands : Insts) : visit (.node k id operands) = [] := by
  rw [how_leftOut, how_butLast] at h
  rcases h with h | h
  · rw [visit, h]; rfl
  · exact absurd h hb

/-- `lock (o) { counter = counter + 1; }`: the assignment is lost. -/
example : visit (.node .lock 1 (.cons (.node .ldLoc 2 .nil) (.cons exStore .nil))) = [] := C150_refuted _ rfl (by decide) _ _

end Verif.Visit
