import Verif.LabelProps
import Verif.SwitchProps
/-!
# C191: exactly which methods and switches are written correctly
-/
namespace Verif.Stmt

theorem defined_iff (main : Nat) (inj : Bool) (blocks : IL) (l : Nat) :
    l ∈ labels (emitMain main inj blocks) ↔ ∃ b, (l, b) ∈ visited blocks ∧ ¬ LoneLeave b ∧ ¬ StartsWith l b := by
  have e : labels (emitMain main inj blocks) = (visited blocks).filterMap written := labels_eq main inj (.container main blocks) [] ⟨0, main⟩
  rw [e, List.mem_filterMap]
  constructor
  · rintro ⟨⟨k, b⟩, hm, hw⟩
    have hk : k = l := by unfold written at hw; split at hw <;> simp at hw; exact hw
    subst hk
    have ho : ¬ Omitted (k, b) := fun h => by rw [written_none.2 h] at hw; cases hw
    exact ⟨b, hm, fun h => ho (.inl h), fun h => ho (.inr h)⟩
  · rintro ⟨b, hm, h1, h2⟩
    refine ⟨(l, b), hm, ?_⟩
    unfold written
    rw [if_neg (fun hh => ?_)]
    have := written_none.1 (show written (l, b) = none by unfold written; rw [if_pos hh])
    rcases this with h | h
    · exact h1 h
    · exact h2 h

/-- **C191**. Every jump of the text goes to a label the text defines exactly when every branch of the method goes to a block that is written, is not a single leave and does not begin with a container whose first block has the same label (that
block then has it). -/
theorem C191_targets (main : Nat) (inj : Bool) (blocks : IL) :
    (∀ l ∈ jumps (emitMain main inj blocks), l ∈ labels (emitMain main inj blocks)) ↔
    ∀ l ∈ branches blocks, ∃ b, (l, b) ∈ visited blocks ∧ ¬ LoneLeave b ∧ ¬ StartsWith l b := by
  have e : jumps (emitMain main inj blocks) = branches blocks := jumps_emit main inj (.container main blocks) [] ⟨0, main⟩
  rw [e]
  exact ⟨fun h l hl => (defined_iff main inj blocks l).1 (h l hl), fun h l hl => (defined_iff main inj blocks l).2 (h l hl)⟩

/-- A loop: block 5 branches to itself. -/
example : jumps (emitMain 9 false loopMethod) = [5] ∧ 5 ∈ labels (emitMain 9 false loopMethod) := by decide +kernel

/-- **C191**. For every method: its leaves go where they must exactly when each goes to the innermost container or try around it, or leaves the method and is recognised as return; its statements are written once and in order exactly when none is
where the visitor does not look; its labels are pairwise different exactly when no two blocks whose labels are written have the same label. -/
theorem C191_method (main : Nat) (inj : Bool) (blocks : IL) :
    (main ∉ ids blocks → (LeavesCorrect main (emitMain main false blocks) ↔ Innermost main [] blocks)) ∧
    (texts (emitMain main inj blocks) = acts blocks ↔ hidden blocks = []) ∧
    ((labels (emitMain main inj blocks)).Nodup ↔ (visited blocks).Pairwise fun p q => p.1 = q.1 → (LoneLeave p.2 ∨ StartsWith p.1 p.2) ∨ LoneLeave q.2 ∨ StartsWith q.1 q.2) :=
  ⟨C62_leaves_partial main blocks, C91_statements_partial main inj blocks, C95_labels_partial main inj blocks⟩

example : 9 ∉ ids loopMethod ∧ hidden loopMethod = [] ∧ texts (emitMain 9 false loopMethod) = [3] := by decide +kernel

/-- **C191**. A switch that covers all 64-bit integers, as the decompiler's do, selects the right section for every value exactly when each of its sections has a single label or is the one with the smallest 64-bit integer (which is written as
`default`). -/
theorem C191_switch {β : Type} (s : Sections β) (h : s.WF) (htot : ∀ v : Int, -2 ^ 63 ≤ v → v < 2 ^ 63 → ∃ p ∈ s, p.1.has v) :
    (∀ v : Int, -2 ^ 63 ≤ v → v < 2 ^ 63 → cppSelect (headsOf s) v = ilSelect s v) ↔ ∀ p ∈ s, p.1.has (-2 ^ 63) ∨ ∀ u v, p.1.has u → p.1.has v → u = v := by
  constructor
  · intro hall p hp
    by_cases hm : p.1.has (-2 ^ 63)
    · exact .inl hm
    right
    obtain ⟨i, hi, e⟩ := List.mem_iff_getElem.1 hp
    have key : ∀ v, p.1.has v → p.1.least v := by
      intro v hv
      have hr := has_range (h.1 p hp).1 hv
      have hv' : s[i].1.has v := by rw [e]; exact hv
      rcases (C61_selects_partial s h i hi v hv').2.1 (hall v hr.1 hr.2) with q | q
      · rw [e] at q; exact q
      · rw [e] at q; exact absurd q hm
    intro u v hu hv
    exact Int.le_antisymm ((key u hu).2 v hv) ((key v hv).2 u hu)
  · intro hs v h1 h2
    obtain ⟨p, hp, hv⟩ := htot v h1 h2
    obtain ⟨i, hi, e⟩ := List.mem_iff_getElem.1 hp
    have hv' : s[i].1.has v := by rw [e]; exact hv
    refine (C61_selects_partial s h i hi v hv').2.2 ?_
    rw [e]
    rcases hs p hp with q | q
    · exact .inr q
    · exact .inl ⟨hv, fun u hu => by rw [q v u hv hu]; exact Int.le_refl _⟩

/-- `switch (v) { case 1: ...; case 5: ...; default: ... }`. -/
example : simpleSwitch.WF ∧ (∀ v : Int, -2 ^ 63 ≤ v → v < 2 ^ 63 → ∃ p ∈ simpleSwitch, p.1.has v) ∧ ∀ p ∈ simpleSwitch, p.1.has (-2 ^ 63) ∨ ∀ u v, p.1.has u → p.1.has v → u = v := by
  refine ⟨simpleSwitch_wf, fun v h1 h2 => ?_, ?_⟩
  · simp only [simpleSwitch, LongSet.has, List.exists_mem_cons, List.mem_cons, List.not_mem_nil, or_false, exists_eq_left, exists_eq_or_imp]
    omega
  · intro p hp
    simp only [simpleSwitch, List.mem_cons, List.not_mem_nil, or_false] at hp
    rcases hp with rfl | rfl | rfl
    · exact .inr (fun u v hu hv => by simp [LongSet.has] at hu hv; omega)
    · exact .inr (fun u v hu hv => by simp [LongSet.has] at hu hv; omega)
    · exact .inl (by decide +kernel)

end Verif.Stmt
