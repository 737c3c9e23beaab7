import Verif.StmtProps
/-!
# C95, C96: the labels of a translated method are legal C++

C++ requires that a label is defined once in a function, and (before C++23) that a label is followed by a statement, so not by `}`.
-/
namespace Verif.Stmt

/-! ## C95 -/

/-- A block whose label is left out. -/
def Omitted (p : Nat × IL) : Prop := LoneLeave p.2 ∨ StartsWith p.1 p.2

/-- The label is written. -/
def written (p : Nat × IL) : Option Nat := if blockLabel p.1 p.2 = [] then none else some p.1

theorem written_none {p : Nat × IL} : written p = none ↔ Omitted p := by
  unfold written Omitted
  rcases blockLabel_cases p.1 p.2 with ⟨e, h⟩ | ⟨e, h1, h2⟩
  · simp [e, h]
  · simp [e, h1, h2]

theorem labels_own (l : Nat) (b : IL) : labels (blockLabel l b) = (written (l, b)).toList := by
  unfold written
  rcases blockLabel_cases l b with ⟨e, _⟩ | ⟨e, _⟩
  · simp [e, labels]
  · simp [e, labels]

/-- The block labels of the text, in order. -/
theorem labels_eq (main : Nat) (inj : Bool) (il : IL) : ∀ stk st, labels (emit main inj il stk st).1 = (visited il).filterMap written := by
  induction il with
  | nop | branch l | nil | bnil | hnil | snil | act k => intro stk st; rfl
  | silent b _ => intro stk st; rfl
  | leave t e v => intro stk st; unfold emit visited; by_cases h : e = 0 <;> simp [h, labels]
  | ite c t f iht ihf =>
    intro stk st
    unfold emit visited
    simp only []
    by_cases hf : f = .nop
    · rw [if_pos hf, hf]
      simp [labels, labels_append, iht, visited]
    · rw [if_neg hf]
      simp [labels, labels_append, iht, ihf]
  | block b ih => intro stk st; exact ih stk st
  | container id bs ih =>
    intro stk st
    unfold emit visited
    simp only []
    rw [labels_append, ih]
    by_cases h : id ≠ main ∧ leaves id bs = true
    · rw [if_pos h]; simp [labels]
    · rw [if_neg h]; simp [labels]
  | tryCatch tid lbl f r hs ihf _ ihh =>
    intro stk st
    unfold emit visited
    simp only []
    cases hw : written (lbl, f) <;>
      simp [labels, labels_append, ihf, ihh, labels_own, hw]
  | switch v s ih => intro stk st; unfold emit visited; simp [labels, labels_append, ih]
  | cons a r iha ihr =>
    intro stk st
    unfold emit visited
    simp only []
    by_cases hd : dropped inj a r = true
    · obtain ⟨e1, e2⟩ := dropped_visited hd
      rw [if_pos hd, e1, e2]; rfl
    · rw [if_neg hd]
      simp [labels_append, iha, ihr]
  | bcons lbl b r ihb ihr =>
    intro stk st
    unfold emit visited
    simp only []
    by_cases hi : inj = true ∧ (emit main inj b stk st).2.cur = main
    · rw [if_pos hi]; cases hw : written (lbl, b) <;> simp [labels, labels_append, ihb, ihr, labels_own, hw]
    · rw [if_neg hi]; cases hw : written (lbl, b) <;> simp [labels, labels_append, ihb, ihr, labels_own, hw]
  | hcons hid lbl f r n ihf _ ihn =>
    intro stk st
    unfold emit visited
    simp only []
    cases hw : written (lbl, f) <;> simp [labels, labels_append, ihf, ihn, labels_own, hw]
  | scons ls b r ihb ihr =>
    intro stk st
    unfold emit visited
    simp only []
    rw [List.cons_append, labels_caseHead, labels_append, ihb]
    simp [labels_append, ihr]

/-- C95 (partial): the block labels of a method are pairwise different exactly when no two of its blocks have the same label, except that a
block that starts with a container may have the label of the container's first block, and a block that is a single leave any label.
Missing: a block that starts with a `try` (refuted below). -/
theorem C95_labels_partial (main : Nat) (inj : Bool) (blocks : IL) :
    (labels (emitMain main inj blocks)).Nodup ↔ (visited blocks).Pairwise fun p q => p.1 = q.1 → Omitted p ∨ Omitted q := by
  have e : labels (emitMain main inj blocks) = (visited blocks).filterMap written := labels_eq main inj (.container main blocks) [] ⟨0, main⟩
  rw [e, List.Nodup, List.pairwise_filterMap]
  constructor
  · intro h
    refine h.imp ?_
    intro p q hpq he
    by_cases hp : Omitted p
    · exact .inl hp
    by_cases hq : Omitted q
    · exact .inr hq
    exfalso
    have e1 : written p = some p.1 := by
      unfold written; rw [if_neg (fun hh => hp (written_none.mp (by unfold written; rw [if_pos hh])))]
    have e2 : written q = some q.1 := by
      unfold written; rw [if_neg (fun hh => hq (written_none.mp (by unfold written; rw [if_pos hh])))]
    exact hpq _ e1 _ e2 he
  · intro h
    refine h.imp ?_
    intro p q hpq x hx y hy he
    have e1 : p.1 = x := by unfold written at hx; split at hx <;> simp at hx; exact hx
    have e2 : q.1 = y := by unfold written at hy; split at hy <;> simp at hy; exact hy
    rcases hpq (by rw [e1, e2, he]) with ho | ho
    · rw [written_none.mpr ho] at hx; cases hx
    · rw [written_none.mpr ho] at hy; cases hy

example : (labels (emitMain 9 false loopMethod)).Nodup := (C95_labels_partial 9 false loopMethod).mpr (by simp [loopMethod, visited])

/-- C95 fails: in a method that begins with a `try`, the first block of the method and the first block of the `try` have the same label, and it
is defined twice. -/
theorem C95_try_refuted : ∃ blocks, labels (emitMain 9 false blocks) = [0, 0, 8] := by
  refine ⟨.bcons 0 (.cons (.tryCatch 1 0 (.cons (.act 1) (.cons (.leave 1 0 none) .nil)) .bnil
    (.hcons 2 8 (.cons (.act 2) (.cons (.leave 2 8 none) .nil)) .bnil .hnil)) (.cons (.leave 9 0 none) .nil)) .bnil, ?_⟩
  decide +kernel

/-! ## C96 -/

def Item.isLabel : Item → Bool
  | .blockLabel _ | .leaveLabel _ _ | .caseHead _ | .defaultHead => true
  | _ => false

/-- No label is followed by `}`. -/
def Followed : List Item → Prop
  | x :: y :: r => (x.isLabel = true → y ≠ .cls) ∧ Followed (y :: r)
  | _ => True

/-- The text ends with a label. -/
def endsLabel (o : List Item) : Bool := (o.getLast?.map Item.isLabel).getD false

/-- Something is written for the tree. -/
def writes (main : Nat) : IL → Bool
  | .nop | .silent _ | .nil | .bnil | .hnil | .snil => false
  | .block b => writes main b
  | .container id bs => writes main bs || (id ≠ main && leaves id bs)
  | .cons a r => writes main a || writes main r
  | _ => true

/-- The text of the tree ends with the label that ends a container (`main` is the method's own container, which has none). -/
def endsBare (main : Nat) : IL → Bool
  | .block b => endsBare main b
  | .container id bs => (id ≠ main && leaves id bs) || endsBare main bs
  | .bcons _ _ r | .hcons _ _ _ _ r | .scons _ _ r => endsBare main r
  | .cons a r => if writes main r then endsBare main r else endsBare main a
  | _ => false

/-- An `if` branch: a block that ends with a container's end label is not followed by anything. -/
def branchOk (main : Nat) : IL → Prop
  | .block b => endsBare main b = false
  | _ => True

/-- No brace closes right after a label: no block, branch or handler ends with a container that is left, and no labelled block is empty. -/
def NoneBare (main : Nat) : IL → Prop
  | .nop | .act _ | .leave _ _ _ | .branch _ | .nil | .bnil | .hnil | .snil | .silent _ => True
  | .ite _ t f => NoneBare main t ∧ NoneBare main f ∧ branchOk main t ∧ branchOk main f
  | .block b => NoneBare main b
  | .container _ b => NoneBare main b
  | .tryCatch _ lbl f _ h => NoneBare main f ∧ NoneBare main h ∧ endsBare main f = false ∧ (writes main f = false → Omitted (lbl, f))
  | .switch _ s => NoneBare main s ∧ endsBare main s = false
  | .cons a r => NoneBare main a ∧ NoneBare main r
  | .bcons lbl b r => NoneBare main b ∧ NoneBare main r ∧ endsBare main b = false ∧ (writes main b = false → Omitted (lbl, b))
  | .hcons _ lbl f _ n => NoneBare main f ∧ NoneBare main n ∧ endsBare main f = false ∧ (writes main f = false → Omitted (lbl, f))
  | .scons _ b r => NoneBare main b ∧ NoneBare main r

/-- The first piece is not `}`. -/
def noCls (o : List Item) : Prop := o.head? ≠ some .cls

theorem Followed.append {a b : List Item} : Followed (a ++ b) ↔ Followed a ∧ Followed b ∧ (endsLabel a = true → noCls b) := by
  induction a with
  | nil => simp [Followed, endsLabel]
  | cons x xs ih =>
    cases xs with
    | nil =>
      cases b with
      | nil => simp [Followed, endsLabel, noCls]
      | cons y r => simp [Followed, endsLabel, noCls]; exact and_comm
    | cons y ys =>
      have e : endsLabel (x :: y :: ys) = endsLabel (y :: ys) := by simp [endsLabel, List.getLast?_cons_cons]
      have e2 : (x :: y :: ys) ++ b = x :: y :: (ys ++ b) := rfl
      rw [e, e2]
      rw [List.cons_append] at ih
      simp only [Followed]
      rw [ih, and_assoc]

theorem Followed.cons {x : Item} {b : List Item} (hx : x.isLabel = false) : Followed (x :: b) ↔ Followed b := by
  cases b with
  | nil => simp [Followed]
  | cons y r => simp [Followed, hx]

theorem endsLabel_append {a b : List Item} : endsLabel (a ++ b) = if b = [] then endsLabel a else endsLabel b := by
  by_cases h : b = []
  · rw [if_pos h, h, List.append_nil]
  · rw [if_neg h]
    unfold endsLabel
    cases b with
    | nil => exact absurd rfl h
    | cons y r => simp [List.getLast?_append, List.getLast?_cons]

theorem endsLabel_after {a : List Item} {x : Item} {r : List Item} (hx : x.isLabel = false) : endsLabel (a ++ x :: r) = endsLabel r := by
  rw [endsLabel_append, if_neg (by simp)]
  cases r with
  | nil => simp [endsLabel, hx]
  | cons y ys => simp [endsLabel, List.getLast?_cons_cons]

theorem endsLabel_nil : endsLabel [] = false := rfl

theorem endsLabel_snoc {a : List Item} {x : Item} : endsLabel (a ++ [x]) = x.isLabel := by
  rw [endsLabel_append]; simp [endsLabel]

theorem caseHead_label (ls : LongSet) : caseHead ls ≠ .cls := by
  rcases caseHead_cases ls with h | h | ⟨v, h⟩ <;> rw [h] <;> simp


theorem caseHead_semi_followed {ls : LongSet} {o r : List Item} (h : noCls o) :
    Followed (caseHead ls :: o ++ .semi :: r) ↔ Followed o ∧ Followed r := by
  have e : caseHead ls :: o ++ .semi :: r = [caseHead ls] ++ (o ++ .semi :: r) := rfl
  rw [e, Followed.append, Followed.append, Followed.cons (x := .semi) rfl]
  have h1 : noCls (.semi :: r) := by simp [noCls]
  have h2 : noCls (o ++ .semi :: r) := by
    cases o with
    | nil => exact h1
    | cons x xs => simpa [noCls] using h
  simp [Followed, h1, h2]

theorem ended_writes (main : Nat) (b : IL) (h : ended b = true) : writes main b = true := by
  cases b <;> simp_all [ended, writes]

/-- A section. -/
theorem section_followed {ls : LongSet} {b : IL} {o r : List Item} (h : noCls o) (hr : noCls r) (hw : ended b = true → o ≠ []) :
    Followed (caseHead ls :: o ++ (semiSec b ++ r)) ↔ Followed o ∧ Followed r := by
  unfold semiSec
  by_cases hb : ended b = true
  · rw [if_pos hb]
    have e : caseHead ls :: o ++ ([] ++ r) = [caseHead ls] ++ (o ++ r) := rfl
    rw [e, Followed.append, Followed.append]
    have h2 : noCls (o ++ r) := by
      cases o with
      | nil => exact absurd rfl (hw hb)
      | cons x xs => simpa [noCls] using h
    simp [Followed, hr, h2]
  · rw [if_neg hb]
    exact caseHead_semi_followed h

/-- A brace group: its label, its text, and what follows. -/
theorem group_followed {l : Nat} {b : IL} {o r : List Item} (h : noCls o) :
    Followed (.opn :: blockLabel l b ++ o ++ .cls :: r) ↔ Followed o ∧ Followed r ∧ endsLabel o = false ∧ (o = [] → Omitted (l, b)) := by
  have hc : ¬ noCls (.cls :: r) := by simp [noCls]
  rw [List.append_assoc, List.cons_append, Followed.cons (x := .opn) rfl, Followed.append, Followed.append, Followed.cons (x := .cls) rfl]
  rcases blockLabel_cases l b with ⟨e, ho⟩ | ⟨e, h1, h2⟩
  · have hO : Omitted (l, b) := ho
    rw [e]
    simp [Followed, hc, hO, endsLabel]
  · have hO : ¬ Omitted (l, b) := fun h => h.elim h1 h2
    rw [e]
    have e1 : endsLabel [.blockLabel l] = true := rfl
    cases o with
    | nil => simp [Followed, hO, noCls, endsLabel, Item.isLabel]
    | cons x xs =>
      have : noCls (x :: xs ++ .cls :: r) := by simpa [noCls] using h
      simp [Followed, hc, e1, this]
      grind

theorem emit_followed (main : Nat) (il : IL) : ∀ stk st,
    ((emit main false il stk st).1 = [] ↔ writes main il = false) ∧ noCls (emit main false il stk st).1 ∧
    endsLabel (emit main false il stk st).1 = endsBare main il ∧ (Followed (emit main false il stk st).1 ↔ NoneBare main il) := by
  induction il with
  | nop | nil | bnil | hnil | snil => intro stk st; simp [emit, writes, noCls, endsLabel, endsBare, Followed, NoneBare]
  | act k | branch l => intro stk st; simp [emit, writes, noCls, endsLabel, endsBare, Followed, NoneBare, Item.isLabel]
  | silent b _ => intro stk st; simp [emit, writes, noCls, endsLabel, endsBare, Followed, NoneBare]
  | leave t e v =>
    intro stk st; unfold emit
    by_cases h : e = 0 <;> simp [h, writes, noCls, endsLabel, endsBare, Followed, NoneBare, Item.isLabel]
  | block b ih => intro stk st; exact ih stk st
  | ite c t f iht ihf =>
    intro stk st
    obtain ⟨t1, t2, t3, t4⟩ := iht stk st
    obtain ⟨f1, f2, f3, f4⟩ := ihf stk (emit main false t stk st).2
    have br : ∀ (x : IL) (o r : List Item), noCls o → endsLabel o = endsBare main x → (Followed o ↔ NoneBare main x) →
        (Followed (o ++ (semiIf x ++ .cls :: r)) ↔ NoneBare main x ∧ branchOk main x ∧ Followed r) := by
      intro x o r h1 h3 h4
      have hc : ¬ noCls (.cls :: r) := by simp [noCls]
      have hs : noCls (.semi :: .cls :: r) := by simp [noCls]
      rw [Followed.append, h4, h3]
      cases x <;> simp [semiIf, branchOk, endsBare, Followed.cons (x := .cls) rfl, Followed.cons (x := .semi) rfl, hc, hs] <;> grind
    unfold emit
    simp only []
    by_cases hf : f = .nop
    · rw [if_pos hf]
      refine ⟨by simp [writes], by simp [noCls], ?_, ?_⟩
      · rw [show Item.ifHead c :: Item.opn :: (emit main false t stk st).1 ++ semiIf t ++ [Item.cls] =
          (Item.ifHead c :: Item.opn :: (emit main false t stk st).1 ++ semiIf t) ++ [Item.cls] from rfl, endsLabel_snoc]; rfl
      · rw [List.append_assoc, List.cons_append, List.cons_append, Followed.cons (x := .ifHead c) rfl, Followed.cons (x := .opn) rfl, br t _ _ t2 t3 t4]
        simp [NoneBare, hf, branchOk, Followed]
    · rw [if_neg hf]
      refine ⟨by simp [writes], by simp [noCls], ?_, ?_⟩
      · simp only [← List.append_assoc, ← List.cons_append]
        rw [endsLabel_snoc]; rfl
      · rw [List.append_assoc, List.cons_append, List.cons_append, Followed.cons (x := .ifHead c) rfl, Followed.cons (x := .opn) rfl, br t _ _ t2 t3 t4]
        rw [List.append_assoc, List.cons_append, List.cons_append, Followed.cons (x := .elseHead) rfl, Followed.cons (x := .opn) rfl, br f _ _ f2 f3 f4]
        simp [NoneBare, Followed]; grind
  | container id bs ih =>
    intro stk st
    obtain ⟨b1, b2, b3, b4⟩ := ih ((st.n + 1) :: stk) ⟨st.n + 1, id⟩
    unfold emit
    simp only []
    by_cases h : id ≠ main ∧ leaves id bs = true
    · rw [if_pos h]
      refine ⟨by simp [writes, h], ?_, ?_, ?_⟩
      · cases ho : (emit main false bs ((st.n + 1) :: stk) ⟨st.n + 1, id⟩).1 with
        | nil => simp [noCls]
        | cons x xs => rw [ho] at b2; simpa [noCls] using b2
      · rw [endsLabel_snoc]; simp [Item.isLabel, endsBare, h]
      · rw [Followed.append, b4]; simp [Followed, noCls, NoneBare]
    · rw [if_neg h, List.append_nil]
      have hb : (id ≠ main && leaves id bs) = false := by
        cases hl : leaves id bs <;> simp [hl] at h ⊢; exact h
      refine ⟨?_, b2, ?_, by rw [b4, NoneBare]⟩
      · rw [b1, writes, hb, Bool.or_false]
      · rw [b3, endsBare, hb, Bool.false_or]
  | tryCatch tid lbl f r hs ihf _ ihh =>
    intro stk st
    obtain ⟨f1, f2, f3, f4⟩ := ihf ((st.n + 1) :: stk) ⟨st.n + 1, st.cur⟩
    obtain ⟨h1, h2, h3, h4⟩ := ihh ((st.n + 1) :: stk) (emit main false f ((st.n + 1) :: stk) ⟨st.n + 1, st.cur⟩).2
    unfold emit
    simp only []
    generalize (emit main false f ((st.n + 1) :: stk) ⟨st.n + 1, st.cur⟩) = ef at *
    generalize (emit main false hs ((st.n + 1) :: stk) ef.2) = eh at *
    refine ⟨by simp [writes], by simp [noCls], ?_, ?_⟩
    · rw [show ∀ (a : List Item) (x : Item), a ++ [x, .semi] = (a ++ [x]) ++ [.semi] from fun a x => by simp, endsLabel_snoc]; rfl
    · rw [List.append_assoc, List.cons_append, List.cons_append, List.cons_append, List.cons_append, Followed.cons (x := .tryHead) rfl,
        ← List.cons_append, ← List.cons_append, List.cons_append (as := eh.1), group_followed f2, Followed.append, f4, h4, f3, f1]
      simp [NoneBare, Followed, noCls]
  | switch v s ih =>
    intro stk st
    obtain ⟨b1, b2, b3, b4⟩ := ih stk st
    unfold emit
    simp only []
    refine ⟨by simp [writes], by simp [noCls], ?_, ?_⟩
    · rw [endsLabel_snoc]; rfl
    · rw [List.cons_append, List.cons_append, Followed.cons (x := .switchHead v) rfl, Followed.cons (x := .opn) rfl, Followed.append, b4, b3]
      simp [NoneBare, Followed, noCls]
  | cons a r iha ihr =>
    intro stk st
    obtain ⟨a1, a2, a3, a4⟩ := iha stk st
    obtain ⟨r1, r2, r3, r4⟩ := ihr stk (emit main false a stk st).2
    have hd : ¬ dropped false a r = true := by unfold dropped; split <;> simp
    unfold emit
    simp only []
    rw [if_neg hd]
    generalize (emit main false a stk st) = ea at *
    generalize (emit main false r stk ea.2) = er at *
    simp only []
    refine ⟨?_, ?_, ?_, ?_⟩
    · rw [List.append_eq_nil_iff, a1, r1, writes]; simp
    · cases h : ea.1 with
      | nil => exact r2
      | cons x xs => rw [h] at a2; simpa [noCls] using a2
    · rw [endsLabel_append, a3, r3, endsBare]
      by_cases h : er.1 = []
      · rw [if_pos h, r1.mp h]; rfl
      · rw [if_neg h]
        have : writes main r = true := by cases hw : writes main r with
          | false => exact absurd (r1.mpr hw) h
          | true => rfl
        rw [this]; rfl
    · rw [Followed.append, a4, r4, NoneBare]; exact ⟨fun h => ⟨h.1, h.2.1⟩, fun h => ⟨h.1, h.2, fun _ => r2⟩⟩
  | bcons lbl b r ihb ihr =>
    intro stk st
    obtain ⟨a1, a2, a3, a4⟩ := ihb stk st
    obtain ⟨r1, r2, r3, r4⟩ := ihr stk (emit main false b stk st).2
    unfold emit
    simp only []
    generalize (emit main false b stk st) = ea at *
    generalize (emit main false r stk ea.2) = er at *
    rw [if_neg (by simp), List.append_nil]
    refine ⟨by simp [writes], by simp [noCls], ?_, ?_⟩
    · rw [endsLabel_after rfl, r3]; rfl
    · rw [group_followed a2, a4, r4, a3, a1]
      simp [NoneBare]
  | hcons hid lbl f r n ihf _ ihn =>
    intro stk st
    obtain ⟨a1, a2, a3, a4⟩ := ihf stk st
    obtain ⟨r1, r2, r3, r4⟩ := ihn stk (emit main false f stk st).2
    unfold emit
    simp only []
    generalize (emit main false f stk st) = ea at *
    generalize (emit main false n stk ea.2) = er at *
    refine ⟨by simp [writes], by simp [noCls], ?_, ?_⟩
    · rw [endsLabel_after rfl, r3]; rfl
    · rw [List.cons_append, List.cons_append, List.cons_append, List.cons_append, Followed.cons (x := .catchHead hid) rfl,
        ← List.cons_append, ← List.cons_append, group_followed a2, a4, r4, a3, a1]
      simp [NoneBare]
  | scons ls b r ihb ihr =>
    intro stk st
    obtain ⟨a1, a2, a3, a4⟩ := ihb stk st
    obtain ⟨r1, r2, r3, r4⟩ := ihr stk (emit main false b stk st).2
    unfold emit
    simp only []
    generalize (emit main false b stk st) = ea at *
    generalize (emit main false r stk ea.2) = er at *
    have hw : ended b = true → ea.1 ≠ [] := by
      intro he h
      have := a1.mp h
      rw [ended_writes main b he] at this
      cases this
    refine ⟨by simp [writes], ?_, ?_, ?_⟩
    · have := caseHead_label ls; simpa [noCls] using this
    · unfold semiSec
      by_cases he : ended b = true
      · rw [if_pos he, List.nil_append]
        have hne := hw he
        have hbare : endsBare main b = false := by cases b <;> first | rfl | cases he
        rw [endsLabel_append]
        by_cases hr : er.1 = []
        · rw [if_pos hr]
          have e0 : endsLabel (caseHead ls :: ea.1) = endsLabel ea.1 := by
            rw [show caseHead ls :: ea.1 = [caseHead ls] ++ ea.1 from rfl, endsLabel_append, if_neg hne]
          rw [e0, a3, hbare, show endsBare main (.scons ls b r) = endsBare main r from rfl, ← r3, hr]; rfl
        · rw [if_neg hr, r3]; rfl
      · rw [if_neg he, show [Item.semi] ++ er.1 = Item.semi :: er.1 from rfl, endsLabel_after rfl, r3]; rfl
    · rw [section_followed a2 r2 hw, a4, r4, NoneBare]

/-- C96 (partial): in the body of a method without injected statement, no label is followed by `}` exactly when no block, branch of an `if`,
`try` or handler ends with a container that is left, and no labelled block is empty. -/
theorem C96_followed_partial (main : Nat) (blocks : IL) : Followed (emitMain main false blocks) ↔ NoneBare main blocks :=
  (emit_followed main (.container main blocks) [] ⟨0, main⟩).2.2.2

example : NoneBare 9 loopMethod := by simp [loopMethod, NoneBare, branchOk, endsBare, writes, leaves]

example : Followed (emitMain 9 false loopMethod) := (C96_followed_partial 9 loopMethod).mpr (by simp [loopMethod, NoneBare, branchOk, endsBare, writes, leaves])

/-- C96 fails: a loop that is the last statement of a branch leaves its end label directly before the closing brace. -/
theorem C96_loop_refuted : ∃ blocks, ¬ Followed (emitMain 9 false blocks) := by
  refine ⟨.bcons 0 (.cons (.ite 1 (.block (.cons (.container 1 (.bcons 4 (.cons (.act 1) (.cons (.ite 2 (.leave 1 4 none) .nop)
    (.cons (.branch 4) .nil))) .bnil)) .nil)) .nop) (.cons (.leave 9 0 none) .nil)) .bnil, ?_⟩
  rw [C96_followed_partial]
  simp [NoneBare, branchOk, endsBare, writes, leaves]

end Verif.Stmt
