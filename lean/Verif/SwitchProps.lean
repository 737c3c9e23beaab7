import Verif.StmtModel
/-!
# C61: the switch statement written reaches the section the C# switch reaches
-/
namespace Verif.Stmt

/-! ## Specification -/

/-- `v` is in the label set. -/
def LongSet.has (ls : LongSet) (v : Int) : Prop := ∃ p ∈ ls, p.1 ≤ v ∧ v ≤ p.2

instance (ls : LongSet) (v : Int) : Decidable (ls.has v) := by unfold LongSet.has; infer_instance

/-- The decompiler's representation of a label set: non-empty intervals of 64-bit integers, in ascending order, not overlapping. -/
def LongSet.WF : LongSet → Prop
  | [] => True
  | p :: r => p.1 ≤ p.2 ∧ -2 ^ 63 ≤ p.1 ∧ p.2 < 2 ^ 63 ∧ (∀ q ∈ r, p.2 < q.1) ∧ LongSet.WF r

/-- A switch: sections with their label sets, in order. -/
abbrev Sections (β : Type) := List (LongSet × β)

/-- The decompiler's switch instruction: each set is in normal form and not empty, no value is in two sections. -/
def Sections.WF {β : Type} (s : Sections β) : Prop :=
  (∀ p ∈ s, LongSet.WF p.1 ∧ p.1 ≠ []) ∧ s.Pairwise fun p q => ∀ v, ¬ (p.1.has v ∧ q.1.has v)

/-- The C# meaning: the section whose labels contain the value. -/
def ilSelect {β : Type} (s : Sections β) (v : Int) : Option Nat := s.findIdx? fun p => decide (p.1.has v)

/-- The C++ meaning of a list of labelled sections: the section labelled `case v`, else the one labelled `default`, else none. -/
def cppSelect (heads : List Item) (v : Int) : Option Nat :=
  (heads.findIdx? fun h => h = .caseHead v).or (heads.findIdx? fun h => h = .defaultHead)

/-- The section headings the translator writes. -/
def headsOf {β : Type} (s : Sections β) : List Item := s.map fun p => caseHead p.1

/-- `v` is the smallest label of the set. -/
def LongSet.least (ls : LongSet) (v : Int) : Prop := ls.has v ∧ ∀ u, ls.has u → v ≤ u

/-! ## Proofs -/

theorem head_has {p : Int × Int} {r : LongSet} (h : LongSet.WF (p :: r)) : LongSet.has (p :: r) p.1 :=
  ⟨p, List.mem_cons_self .., Int.le_refl _, h.1⟩

theorem head_least {p : Int × Int} {r : LongSet} (h : LongSet.WF (p :: r)) : LongSet.least (p :: r) p.1 := by
  refine ⟨head_has h, ?_⟩
  rintro u ⟨q, hq, h1, h2⟩
  rcases List.mem_cons.mp hq with e | hq
  · rw [e] at h1; exact h1
  · have := h.2.2.2.1 q hq
    have := h.1
    omega

theorem has_range {ls : LongSet} (h : LongSet.WF ls) {v : Int} (hv : ls.has v) : -2 ^ 63 ≤ v ∧ v < 2 ^ 63 := by
  induction ls with
  | nil => obtain ⟨p, hp, _⟩ := hv; cases hp
  | cons p r ih =>
    obtain ⟨q, hq, h1, h2⟩ := hv
    rcases List.mem_cons.mp hq with e | hq
    · subst e
      exact ⟨Int.le_trans h.2.1 h1, Int.lt_of_le_of_lt h2 h.2.2.1⟩
    · exact ih h.2.2.2.2 ⟨q, hq, h1, h2⟩

/-- What the translator writes for a section, in terms of the label set. -/
theorem caseHead_spec {ls : LongSet} (h : LongSet.WF ls) (hne : ls ≠ []) (v : Int) :
    (caseHead ls = .caseHead v ↔ ls.least v ∧ v ≠ -2 ^ 63) ∧ (caseHead ls = .defaultHead ↔ ls.has (-2 ^ 63)) := by
  cases ls with
  | nil => exact absurd rfl hne
  | cons p r =>
    have hl := head_least h
    have huniq : ∀ v, LongSet.least (p :: r) v → v = p.1 := fun v hv => Int.le_antisymm (hv.2 _ hl.1) (hl.2 _ hv.1)
    have hmin : LongSet.has (p :: r) (-2 ^ 63) ↔ p.1 = -2 ^ 63 := by
      constructor
      · intro hh
        have := hl.2 _ hh
        have := h.2.1
        omega
      · intro e; rw [← e]; exact hl.1
    rw [hmin]
    unfold caseHead
    simp only []
    by_cases e : p.1 = -2 ^ 63
    · rw [if_pos e]
      refine ⟨⟨fun h => (by cases h), fun ⟨h1, h2⟩ => absurd ((huniq v h1).trans e) h2⟩, ⟨fun _ => e, fun _ => rfl⟩⟩
    · rw [if_neg e]
      refine ⟨⟨fun h => ?_, fun ⟨h1, _⟩ => by rw [huniq v h1]⟩, ⟨fun h => (by cases h), fun h => absurd h e⟩⟩
      have : p.1 = v := by injection h
      rw [← this]
      exact ⟨hl, e⟩

/-- In a list of pairwise disjoint sets, the index of the set containing a value is unique. -/
theorem findIdx_unique {α : Type} {l : List α} {P : α → Bool} {i : Nat} (hi : i < l.length) (hp : P l[i] = true)
    (hu : ∀ j (hj : j < l.length), P l[j] = true → j = i) : l.findIdx? P = some i := by
  rw [List.findIdx?_eq_some_iff_getElem]
  refine ⟨hi, hp, ?_⟩
  intro j hj h
  have := hu j (by omega) (by simpa using h)
  omega

theorem disjoint_index {β : Type} {s : Sections β} (h : s.WF) {i j : Nat} (hi : i < s.length) (hj : j < s.length) {v : Int}
    (h1 : s[i].1.has v) (h2 : s[j].1.has v) : j = i := by
  have hp := List.pairwise_iff_getElem.mp h.2
  rcases Nat.lt_trichotomy i j with e | e | e
  · exact absurd ⟨h1, h2⟩ (hp i j hi hj e v)
  · exact e.symm
  · exact absurd ⟨h2, h1⟩ (hp j i hj hi e v)

theorem ilSelect_eq {β : Type} {s : Sections β} (h : s.WF) {i : Nat} (hi : i < s.length) {v : Int} (hv : s[i].1.has v) :
    ilSelect s v = some i := by
  unfold ilSelect
  refine findIdx_unique hi (by simpa using hv) ?_
  intro j hj hj'
  exact disjoint_index h hi hj hv (by simpa using hj')

/-- C61: for every switch and every value of a section `i`, the emitted switch goes to section `i` exactly when the value is the section's smallest
label or the section contains the smallest 64-bit integer (which is how the decompiler represents `default`).  All other labels are lost. -/
theorem C61_selects_partial {β : Type} (s : Sections β) (h : s.WF) (i : Nat) (hi : i < s.length) (v : Int) (hv : s[i].1.has v) :
    ilSelect s v = some i ∧
      (cppSelect (headsOf s) v = ilSelect s v ↔ s[i].1.least v ∨ s[i].1.has (-2 ^ 63)) := by
  have hsel := ilSelect_eq h hi hv
  refine ⟨hsel, ?_⟩
  rw [hsel]
  have hlen : (headsOf s).length = s.length := by simp [headsOf]
  have hget : ∀ j (hj : j < s.length), (headsOf s)[j]'(by rw [hlen]; exact hj) = caseHead s[j].1 := by intro j hj; simp [headsOf]
  have hwf : ∀ j (hj : j < s.length), LongSet.WF s[j].1 ∧ s[j].1 ≠ [] := fun j hj => h.1 _ (List.getElem_mem hj)
  have spec := fun j (hj : j < s.length) (u : Int) => caseHead_spec (hwf j hj).1 (hwf j hj).2 u
  unfold cppSelect
  constructor
  · intro e
    rw [Option.or_eq_some_iff] at e
    rcases e with e | ⟨_, e⟩
    · obtain ⟨hlt, hp, _⟩ := List.findIdx?_eq_some_iff_getElem.mp e
      rw [hget i hi] at hp
      exact .inl (((spec i hi v).1.mp (by simpa using hp)).1)
    · obtain ⟨hlt, hp, _⟩ := List.findIdx?_eq_some_iff_getElem.mp e
      rw [hget i hi] at hp
      exact .inr ((spec i hi v).2.mp (by simpa using hp))
  · intro hor
    by_cases hm : s[i].1.has (-2 ^ 63)
    · have h1 : (headsOf s).findIdx? (fun h => decide (h = .caseHead v)) = none := by
        rw [List.findIdx?_eq_none_iff]
        intro x hx
        obtain ⟨j, hj, e⟩ := List.getElem_of_mem hx
        rw [hget j (by rw [← hlen]; exact hj)] at e
        rw [← e]
        simp only [decide_eq_false_iff_not]
        intro hc
        have hl := (spec j (by rw [← hlen]; exact hj) v).1.mp hc
        have hji := disjoint_index h hi (by rw [← hlen]; exact hj) hv hl.1.1
        subst hji
        have a := hl.1.2 _ hm
        have b := (has_range (hwf j hi).1 hv).1
        exact hl.2 (by omega)
      rw [h1, Option.none_or]
      refine findIdx_unique (by rw [hlen]; exact hi) ?_ ?_
      · rw [hget i hi]; simpa using (spec i hi v).2.mpr hm
      · intro j hj hp
        rw [hget j (by rw [← hlen]; exact hj)] at hp
        exact disjoint_index h hi (by rw [← hlen]; exact hj) hm ((spec j (by rw [← hlen]; exact hj) v).2.mp (by simpa using hp))
    · have hl : s[i].1.least v := hor.resolve_right hm
      have hne : v ≠ -2 ^ 63 := fun e => hm (e ▸ hv)
      rw [findIdx_unique (i := i) (by rw [hlen]; exact hi)]
      · rfl
      · rw [hget i hi]; simpa using (spec i hi v).1.mpr ⟨hl, hne⟩
      · intro j hj hp
        rw [hget j (by rw [← hlen]; exact hj)] at hp
        exact disjoint_index h hi (by rw [← hlen]; exact hj) hv ((spec j (by rw [← hlen]; exact hj) v).1.mp (by simpa using hp)).1.1

/-- C61: the headings written are never ambiguous: no two sections have the same heading. -/
theorem C61_no_duplicate_label {β : Type} (s : Sections β) (h : s.WF) : (headsOf s).Nodup := by
  rw [List.Nodup, List.pairwise_iff_getElem]
  intro i j hi hj hij
  have hlen : (headsOf s).length = s.length := by simp [headsOf]
  rw [hlen] at hi hj
  have hget : ∀ j (hj : j < s.length), (headsOf s)[j]'(by rw [hlen]; exact hj) = caseHead s[j].1 := by intro j hj; simp [headsOf]
  rw [hget i hi, hget j hj]
  intro e
  obtain ⟨wi, ni⟩ := h.1 _ (List.getElem_mem hi)
  obtain ⟨wj, nj⟩ := h.1 _ (List.getElem_mem hj)
  have hp := List.pairwise_iff_getElem.mp h.2 i j hi hj hij
  cases hi' : s[i].1 with
  | nil => exact ni hi'
  | cons p r =>
    rw [hi'] at wi
    have hl := head_least wi
    by_cases e63 : p.1 = -2 ^ 63
    · have a : s[i].1.has (-2 ^ 63) := by rw [hi', ← e63]; exact hl.1
      have b : caseHead s[i].1 = .defaultHead := ((caseHead_spec (by rw [hi']; exact wi) ni 0).2.mpr a)
      rw [b] at e
      exact hp _ ⟨a, (caseHead_spec wj nj 0).2.mp e.symm⟩
    · have b : caseHead s[i].1 = .caseHead p.1 := (caseHead_spec (by rw [hi']; exact wi) ni p.1).1.mpr ⟨by rw [hi']; exact hl, e63⟩
      rw [b] at e
      exact hp p.1 ⟨by rw [hi']; exact hl.1, ((caseHead_spec wj nj p.1).1.mp e.symm).1.1⟩

/-- `switch (v) { case 1: ...; case 5: ...; default: ... }` as the decompiler represents it. -/
def simpleSwitch : Sections Nat := [([(1, 1)], 0), ([(5, 5)], 1), ([(-2 ^ 63, 0), (2, 4), (6, 2 ^ 63 - 1)], 2)]

/-- `switch (v) { case 1: case 2: ...; default: ... }`. -/
def groupedSwitch : Sections Nat := [([(1, 2)], 0), ([(-2 ^ 63, 0), (3, 2 ^ 63 - 1)], 1)]

theorem groupedSwitch_wf : groupedSwitch.WF := by
  refine ⟨?_, ?_⟩
  · intro p hp
    simp [groupedSwitch] at hp
    rcases hp with e | e <;> rw [e] <;> simp [LongSet.WF]
  · simp [groupedSwitch, LongSet.has]
    intro v
    omega

theorem simpleSwitch_wf : simpleSwitch.WF := by
  refine ⟨?_, ?_⟩
  · intro p hp
    simp [simpleSwitch] at hp
    rcases hp with e | e | e <;> rw [e] <;> simp [LongSet.WF]
  · simp [simpleSwitch, LongSet.has]
    refine ⟨⟨?_, ?_⟩, ?_⟩ <;> intro v <;> omega

example : cppSelect (headsOf simpleSwitch) 5 = some 1 ∧ cppSelect (headsOf simpleSwitch) 77 = some 2 ∧ ilSelect simpleSwitch 77 = some 2 := by
  decide +kernel

example : (cppSelect (headsOf simpleSwitch) 3 = ilSelect simpleSwitch 3) :=
  (C61_selects_partial simpleSwitch simpleSwitch_wf 2 (by decide) 3 (by decide +kernel)).2.mpr (.inr (by decide +kernel))

/-- C61 fails: in `case 1: case 2:` the second label is lost and the value 2 goes to `default`. -/
theorem C61_grouped_refuted : groupedSwitch.WF ∧ ilSelect groupedSwitch 2 = some 0 ∧ cppSelect (headsOf groupedSwitch) 2 = some 1 :=
  ⟨groupedSwitch_wf, by decide +kernel, by decide +kernel⟩

/-! ## Running the sections -/

/-- C#: run the selected section only.  A section body maps a state to a new state and whether its end is reached. -/
def ilRun {σ : Type} (s : Sections (σ → σ × Bool)) (v : Int) (st : σ) : σ × Bool :=
  match ilSelect s v with
  | some i => match s[i]? with
    | some p => p.2 st
    | none => (st, true)
  | none => (st, true)

/-- C++: run the bodies one after the other until one of them jumps away. -/
def runFrom {σ : Type} : List (σ → σ × Bool) → σ → σ × Bool
  | [], st => (st, true)
  | b :: r, st => if (b st).2 then runFrom r (b st).1 else b st

/-- C++: run from the selected section on; the translator writes no `break` (lines 1292-1294). -/
def cppRun {σ : Type} (s : Sections (σ → σ × Bool)) (v : Int) (st : σ) : σ × Bool :=
  match cppSelect (headsOf s) v with
  | some i => runFrom ((s.drop i).map (·.2)) st
  | none => (st, true)

/-- C61: where the right section is selected and that section's body ends with a jump (or it is the last section), the emitted switch does what the
C# switch does. -/
theorem C61_runs_partial {σ : Type} (s : Sections (σ → σ × Bool)) (h : s.WF) (i : Nat) (hi : i < s.length) (v : Int) (hv : s[i].1.has v)
    (hsel : s[i].1.least v ∨ s[i].1.has (-2 ^ 63)) (st : σ) (hend : (s[i].2 st).2 = false ∨ i + 1 = s.length) :
    cppRun s v st = ilRun s v st := by
  obtain ⟨h1, h2⟩ := C61_selects_partial s h i hi v hv
  have h3 := h2.mpr hsel
  unfold cppRun ilRun
  rw [h3, h1]
  simp only []
  rw [List.getElem?_eq_getElem hi, List.drop_eq_getElem_cons hi, List.map_cons]
  simp only []
  unfold runFrom
  rcases hend with e | e
  · rw [if_neg (by rw [e]; simp)]
  · rw [e, List.drop_length, List.map_nil]
    unfold runFrom
    cases hb : s[i].2 st with
    | mk a b => cases b <;> simp

/-- A switch whose section 0 adds one and ends. -/
def fallSwitch : Sections (Int → Int × Bool) :=
  [([(1, 1)], fun x => (x + 1, true)), ([(-2 ^ 63, 0), (2, 2 ^ 63 - 1)], fun x => (x + 100, true))]

/-- C61 fails: a section whose body reaches its end (the statements continue after the switch) runs on into the next section. -/
theorem C61_fall_through_refuted : ilRun fallSwitch 1 0 = (1, true) ∧ cppRun fallSwitch 1 0 = (101, true) := by decide +kernel

example : cppRun fallSwitch 7 0 = ilRun fallSwitch 7 0 := by decide +kernel

/-- The sections of a switch in the instruction tree. -/
def sectionsOf : IL → Sections IL
  | .scons ls b r => (ls, b) :: sectionsOf r
  | _ => []

/-- A chain of sections. -/
def IsSections : IL → Prop
  | .snil => True
  | .scons _ _ r => IsSections r
  | _ => False

/-- C61: what is written for the sections is their headings in order, each followed by the text of its own body and, unless that is a simple statement or a jump, which its own `;` ends, a `;`. -/
theorem C61_sections_in_order (main : Nat) (inj : Bool) (ss : IL) (hs : IsSections ss) : ∀ stk st, ∃ bodies : List (List Item),
    (emit main inj ss stk st).1 = ((headsOf (sectionsOf ss)).zip bodies).flatMap (fun p => p.1 :: p.2) ∧
      bodies.length = (sectionsOf ss).length ∧
      ∀ i (hi : i < (sectionsOf ss).length), ∃ st', bodies[i]? = some ((emit main inj (sectionsOf ss)[i].2 stk st').1 ++ semiSec (sectionsOf ss)[i].2) := by
  induction ss with
  | snil => intro stk st; exact ⟨[], rfl, rfl, by intro i hi; simp [sectionsOf] at hi⟩
  | scons ls b r _ ih =>
    intro stk st
    obtain ⟨bs, h1, h2, h3⟩ := ih hs stk (emit main inj b stk st).2
    refine ⟨((emit main inj b stk st).1 ++ semiSec b) :: bs, ?_, ?_, ?_⟩
    · rw [emit]
      simp only []
      rw [h1]
      simp [sectionsOf, headsOf]
    · simp [sectionsOf, h2]
    · intro i hi
      cases i with
      | zero => exact ⟨st, rfl⟩
      | succ j =>
        obtain ⟨st', h⟩ := h3 j (by simpa [sectionsOf] using hi)
        exact ⟨st', by simpa [sectionsOf] using h⟩
  | _ => exact hs.elim

end Verif.Stmt
