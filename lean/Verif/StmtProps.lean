import Verif.StmtModel
/-!
# Statements: leave labels (C62), nothing is dropped (C91), injected return (C92)
-/
namespace Verif.Stmt

/-! ## Specification -/

/-- The numbers of the `leaveBlock` labels defined in a text. -/
def labelNums : List Item → List Nat
  | [] => []
  | .leaveLabel _ n :: r => n :: labelNums r
  | _ :: r => labelNums r

/-- Every jump written for a leave goes to a label of the same text at which the container it leaves ends, and a `return` is written only for
leaves of the method's own container. -/
def LeavesCorrect (main : Nat) (o : List Item) : Prop :=
  (∀ t n, Item.goto t n ∈ o → ∃ owners, Item.leaveLabel owners n ∈ o ∧ t ∈ owners) ∧ ∀ t v, Item.ret t v ∈ o → t = main

/-- The containers inside a tree. -/
def ids : IL → List Nat
  | .nop | .act _ | .leave _ _ _ | .branch _ | .nil | .bnil | .hnil | .snil => []
  | .silent b => ids b
  | .ite _ t f => ids t ++ ids f
  | .block b => ids b
  | .container id b => id :: ids b
  | .tryCatch tid _ f r h => tid :: ids f ++ ids r ++ ids h
  | .switch _ s => ids s
  | .cons a r => ids a ++ ids r
  | .bcons _ b r => ids b ++ ids r
  | .hcons hid _ f r n => hid :: ids f ++ ids r ++ ids n
  | .scons _ b r => ids b ++ ids r

/-- Every leave that is visited leaves the method itself, or else the innermost container around it (for a try: its try block or one of its
handlers); and only the method's own container has the entry label `IL_0000`.  `frame` is the innermost container. -/
def Innermost (main : Nat) : List Nat → IL → Prop
  | _, .nop | _, .act _ | _, .silent _ | _, .branch _ | _, .nil | _, .bnil | _, .hnil | _, .snil => True
  | fr, .leave t e _ => if e = 0 then t = main else t ∈ fr
  | fr, .ite _ t f => Innermost main fr t ∧ Innermost main fr f
  | fr, .block b => Innermost main fr b
  | _, .container id bs => Innermost main [id] bs
  | _, .tryCatch tid _ f _ hs => Innermost main (tid :: handlerIds hs) f ∧ Innermost main (tid :: handlerIds hs) hs
  | fr, .switch _ s => Innermost main fr s
  | fr, .cons a r => Innermost main fr a ∧ Innermost main fr r
  | fr, .bcons _ b r => Innermost main fr b ∧ Innermost main fr r
  | fr, .hcons _ _ f _ n => Innermost main fr f ∧ Innermost main fr n
  | fr, .scons _ b r => Innermost main fr b ∧ Innermost main fr r

theorem labelNums_append (a b : List Item) : labelNums (a ++ b) = labelNums a ++ labelNums b := by
  induction a with
  | nil => rfl
  | cons x xs ih => cases x <;> simp [labelNums, ih]

theorem mem_labelNums {o : List Item} {n : Nat} : n ∈ labelNums o ↔ ∃ ow, Item.leaveLabel ow n ∈ o := by
  induction o with
  | nil => simp [labelNums]
  | cons x xs ih => cases x <;> simp [labelNums, ih, exists_or]

@[simp] theorem mem_semiIf {x : Item} {t : IL} : x ∈ semiIf t ↔ x = .semi ∧ semiIf t = [.semi] := by
  unfold semiIf; split <;> simp

theorem semiIf_cases (t : IL) : semiIf t = [] ∨ semiIf t = [.semi] := by
  unfold semiIf; split <;> simp

@[simp] theorem mem_semiSec {x : Item} {t : IL} : x ∈ semiSec t ↔ x = .semi ∧ semiSec t = [.semi] := by
  unfold semiSec; split <;> simp

theorem semiSec_cases (t : IL) : semiSec t = [] ∨ semiSec t = [.semi] := by
  unfold semiSec; split <;> simp

@[simp] theorem labelNums_semiSec (t : IL) : labelNums (semiSec t) = [] := by
  rcases semiSec_cases t with h | h <;> rw [h] <;> rfl

@[simp] theorem labelNums_semiIf (t : IL) : labelNums (semiIf t) = [] := by
  rcases semiIf_cases t with h | h <;> rw [h] <;> rfl

theorem labelNums_blockLabel (l : Nat) (b : IL) : labelNums (blockLabel l b) = [] := by
  unfold blockLabel
  repeat' split
  all_goals rfl

theorem caseHead_cases (ls : LongSet) : caseHead ls = .bareColon ∨ caseHead ls = .defaultHead ∨ ∃ v, caseHead ls = .caseHead v := by
  cases ls with
  | nil => exact .inl rfl
  | cons p r =>
    unfold caseHead
    simp only []
    by_cases h : p.1 = -2 ^ 63
    · rw [if_pos h]; exact .inr (.inl rfl)
    · rw [if_neg h]; exact .inr (.inr ⟨_, rfl⟩)

theorem labelNums_caseHead (ls : LongSet) (r : List Item) : labelNums (caseHead ls :: r) = labelNums r := by
  rcases caseHead_cases ls with h | h | ⟨v, h⟩ <;> rw [h] <;> rfl

/-- The label numbers of a piece of text are new, distinct and below the counter afterwards. -/
def Fresh (st s' : St) (o : List Item) : Prop :=
  st.n ≤ s'.n ∧ (labelNums o).Nodup ∧ ∀ m ∈ labelNums o, st.n < m ∧ m ≤ s'.n

theorem Fresh.same (st : St) {o : List Item} (h : labelNums o = []) : Fresh st st o := by
  refine ⟨Nat.le_refl _, by rw [h]; exact List.nodup_nil, ?_⟩
  rw [h]; intro m hm; cases hm

theorem Fresh.append {a b c : St} {o1 o2 o : List Item} (h1 : Fresh a b o1) (h2 : Fresh b c o2)
    (ho : labelNums o = labelNums o1 ++ labelNums o2) : Fresh a c o := by
  obtain ⟨l1, d1, r1⟩ := h1
  obtain ⟨l2, d2, r2⟩ := h2
  refine ⟨Nat.le_trans l1 l2, ?_, ?_⟩
  · rw [ho, List.nodup_append]
    refine ⟨d1, d2, ?_⟩
    intro x hx y hy e
    have := r1 x hx
    have := r2 y hy
    omega
  · rw [ho]
    intro m hm
    rcases List.mem_append.mp hm with h | h
    · have := r1 m h; omega
    · have := r2 m h; omega

theorem Fresh.label {n cur cur' : Nat} {s' : St} {o o' : List Item} (h : Fresh ⟨n + 1, cur⟩ s' o)
    (ho : labelNums o' = labelNums o ++ [n + 1] ∨ labelNums o' = labelNums o) : Fresh ⟨n, cur'⟩ s' o' := by
  obtain ⟨l, d, r⟩ := h
  refine ⟨by simp at l ⊢; omega, ?_, ?_⟩
  · rcases ho with ho | ho <;> rw [ho]
    · rw [List.nodup_append]
      refine ⟨d, by simp, ?_⟩
      intro x hx y hy e
      have := (r x hx).1
      simp at hy this
      omega
    · exact d
  · intro m hm
    simp only at l r ⊢
    rcases ho with ho | ho <;> rw [ho] at hm
    · rcases List.mem_append.mp hm with h | h
      · have := r m h; omega
      · simp at h; omega
    · have := r m hm; omega

theorem Fresh.congr {a b : St} {o o' : List Item} (h : Fresh a b o) (e : labelNums o' = labelNums o) : Fresh a b o' := by
  unfold Fresh at *
  rw [e]; exact h

theorem emit_fresh (main : Nat) (inj : Bool) (il : IL) : ∀ stk st, Fresh st (emit main inj il stk st).2 (emit main inj il stk st).1 := by
  induction il with
  | nop | act k | silent b _ | branch l | nil | bnil | hnil | snil => intro stk st; exact Fresh.same st rfl
  | leave t e v =>
    intro stk st
    apply Fresh.same
    unfold emit
    by_cases h : e = 0
    · simp [h, labelNums]
    · simp [h, labelNums]
  | ite c t f iht ihf =>
    intro stk st
    unfold emit
    simp only []
    by_cases h : f = .nop
    · rw [if_pos h, if_pos h]
      refine (iht stk st).congr ?_
      simp [labelNums, labelNums_append]
    · rw [if_neg h, if_neg h]
      refine Fresh.append (iht stk st) (ihf stk _) ?_
      simp [labelNums, labelNums_append]
  | block b ih => intro stk st; exact ih stk st
  | container id bs ih =>
    intro stk st
    unfold emit
    simp only []
    refine Fresh.label (ih _ _) ?_
    rw [labelNums_append]
    by_cases h : id ≠ main ∧ leaves id bs = true
    · rw [if_pos h]; exact .inl rfl
    · rw [if_neg h]; exact .inr (by simp [labelNums])
  | tryCatch tid lbl f r hs ihf _ ihh =>
    intro stk st
    unfold emit
    simp only []
    refine Fresh.label (cur := st.cur) (o := (emit main inj f ((st.n + 1) :: stk) ⟨st.n + 1, st.cur⟩).1 ++
      (emit main inj hs ((st.n + 1) :: stk) (emit main inj f ((st.n + 1) :: stk) ⟨st.n + 1, st.cur⟩).2).1)
      (Fresh.append (ihf _ _) (ihh _ _) (labelNums_append _ _)) ?_
    left
    simp [labelNums, labelNums_append, labelNums_blockLabel]
  | switch v s ih =>
    intro stk st
    unfold emit
    simp only []
    refine (ih stk st).congr ?_
    simp [labelNums, labelNums_append]
  | cons a r iha ihr =>
    intro stk st
    unfold emit
    simp only []
    by_cases h : dropped inj a r = true
    · rw [if_pos h]; exact Fresh.same st rfl
    · rw [if_neg h]
      exact Fresh.append (iha stk st) (ihr stk _) (labelNums_append _ _)
  | bcons lbl b r ihb ihr =>
    intro stk st
    unfold emit
    simp only []
    refine Fresh.append (ihb stk st) (ihr stk _) ?_
    by_cases h : inj = true ∧ (emit main inj b stk st).2.cur = main
    · rw [if_pos h]; simp [labelNums, labelNums_append, labelNums_blockLabel]
    · rw [if_neg h]; simp [labelNums, labelNums_append, labelNums_blockLabel]
  | hcons hid lbl f r n ihf _ ihn =>
    intro stk st
    unfold emit
    simp only []
    refine Fresh.append (ihf stk st) (ihn stk _) ?_
    simp [labelNums, labelNums_append, labelNums_blockLabel]
  | scons ls b r ihb ihr =>
    intro stk st
    unfold emit
    simp only []
    refine Fresh.append (ihb stk st) (ihr stk _) ?_
    rw [List.cons_append, labelNums_caseHead, labelNums_append, labelNums_append, labelNums_semiSec]; rfl

/-- C62: the `leaveBlock` labels of a method are pairwise different, for every method body. -/
theorem C62_labels_unique (main : Nat) (inj : Bool) (blocks : IL) : (labelNums (emitMain main inj blocks)).Nodup :=
  (emit_fresh main inj (.container main blocks) [] ⟨0, main⟩).2.1

/-! ## Where the jumps go -/

/-- Goto numbers of a piece of text: the innermost frame at its start, or a label number allotted inside it. -/
def Range (hd : Nat) (st s' : St) (o : List Item) : Prop := ∀ t m, Item.goto t m ∈ o → m = hd ∨ (st.n < m ∧ m ≤ s'.n)

theorem goto_blockLabel {t m l : Nat} {b : IL} : ¬ Item.goto t m ∈ blockLabel l b := by
  unfold blockLabel
  repeat' split
  all_goals simp

theorem ret_blockLabel {t l : Nat} {v : Option Nat} {b : IL} : ¬ Item.ret t v ∈ blockLabel l b := by
  unfold blockLabel
  repeat' split
  all_goals simp

theorem label_blockLabel {ow : List Nat} {m l : Nat} {b : IL} : ¬ Item.leaveLabel ow m ∈ blockLabel l b := by
  unfold blockLabel
  repeat' split
  all_goals simp

theorem goto_caseHead {t m : Nat} {ls : LongSet} : ¬ Item.goto t m = caseHead ls := by
  rcases caseHead_cases ls with h | h | ⟨v, h⟩ <;> rw [h] <;> simp

theorem ret_caseHead {t : Nat} {v : Option Nat} {ls : LongSet} : ¬ Item.ret t v = caseHead ls := by
  rcases caseHead_cases ls with h | h | ⟨v, h⟩ <;> rw [h] <;> simp

theorem label_caseHead {ow : List Nat} {m : Nat} {ls : LongSet} : ¬ Item.leaveLabel ow m = caseHead ls := by
  rcases caseHead_cases ls with h | h | ⟨v, h⟩ <;> rw [h] <;> simp

/-- Two texts with the same jumps, returns and leave labels. -/
def SameJumps (o o' : List Item) : Prop :=
  (∀ t m, Item.goto t m ∈ o' ↔ Item.goto t m ∈ o) ∧ (∀ t v, Item.ret t v ∈ o' ↔ Item.ret t v ∈ o) ∧
    ∀ ow m, Item.leaveLabel ow m ∈ o' ↔ Item.leaveLabel ow m ∈ o

/-- Jumps of a piece of text are right, where a jump to the frame around it is right when it leaves a container of `fr`. -/
def Good (main : Nat) (fr : List Nat) (hd : Nat) (o : List Item) : Prop :=
  (∀ t m, Item.goto t m ∈ o → (m = hd ∧ t ∈ fr) ∨ ∃ ow, Item.leaveLabel ow m ∈ o ∧ t ∈ ow) ∧ ∀ t v, Item.ret t v ∈ o → t = main

theorem Good.congr {main hd : Nat} {fr : List Nat} {o o' : List Item} (e : SameJumps o o') : Good main fr hd o' ↔ Good main fr hd o := by
  obtain ⟨e1, e2, e3⟩ := e
  unfold Good
  simp only [e1, e2, e3]

theorem Range.congr' {hd : Nat} {st s' : St} {o o' : List Item} (e : ∀ t m, Item.goto t m ∈ o' ↔ Item.goto t m ∈ o) (h : Range hd st s' o) :
    Range hd st s' o' := by
  intro t m hm
  exact h t m ((e t m).mp hm)

theorem Range.congr {hd : Nat} {st s' : St} {o o' : List Item} (e : SameJumps o o') (h : Range hd st s' o) : Range hd st s' o' := by
  intro t m hm
  exact h t m ((e.1 t m).mp hm)

theorem Good.append {main hd : Nat} {fr : List Nat} {a b c : St} {o1 o2 : List Item} (f1 : Fresh a b o1) (f2 : Fresh b c o2)
    (r1 : Range hd a b o1) (r2 : Range hd b c o2) (hhd : hd ≤ a.n) :
    Good main fr hd (o1 ++ o2) ↔ Good main fr hd o1 ∧ Good main fr hd o2 := by
  constructor
  · rintro ⟨hg, hr⟩
    refine ⟨⟨?_, fun t v h => hr t v (List.mem_append_left _ h)⟩, ⟨?_, fun t v h => hr t v (List.mem_append_right _ h)⟩⟩
    · intro t m hm
      rcases hg t m (List.mem_append_left _ hm) with h | ⟨ow, h, ht⟩
      · exact .inl h
      · rcases r1 t m hm with e | hlt
        · rcases List.mem_append.mp h with h | h
          · exact .inr ⟨ow, h, ht⟩
          · have := (f2.2.2 m (mem_labelNums.mpr ⟨ow, h⟩)).1
            have := f1.1
            omega
        · rcases List.mem_append.mp h with h | h
          · exact .inr ⟨ow, h, ht⟩
          · have := (f2.2.2 m (mem_labelNums.mpr ⟨ow, h⟩)).1
            omega
    · intro t m hm
      rcases hg t m (List.mem_append_right _ hm) with h | ⟨ow, h, ht⟩
      · exact .inl h
      · rcases List.mem_append.mp h with h | h
        · have := f1.2.2 m (mem_labelNums.mpr ⟨ow, h⟩)
          rcases r2 t m hm with e | hlt
          · omega
          · omega
        · exact .inr ⟨ow, h, ht⟩
  · rintro ⟨⟨g1, q1⟩, ⟨g2, q2⟩⟩
    constructor
    · intro t m hm
      rcases List.mem_append.mp hm with h | h
      · rcases g1 t m h with h | ⟨ow, h, ht⟩
        · exact .inl h
        · exact .inr ⟨ow, List.mem_append_left _ h, ht⟩
      · rcases g2 t m h with h | ⟨ow, h, ht⟩
        · exact .inl h
        · exact .inr ⟨ow, List.mem_append_right _ h, ht⟩
    · intro t v hm
      rcases List.mem_append.mp hm with h | h
      · exact q1 t v h
      · exact q2 t v h

theorem Range.append {hd : Nat} {a b c : St} {o1 o2 : List Item} (f1 : a.n ≤ b.n) (f2 : b.n ≤ c.n)
    (r1 : Range hd a b o1) (r2 : Range hd b c o2) : Range hd a c (o1 ++ o2) := by
  intro t m hm
  rcases List.mem_append.mp hm with h | h
  · rcases r1 t m h with e | e
    · exact .inl e
    · exact .inr (by omega)
  · rcases r2 t m h with e | e
    · exact .inl e
    · exact .inr (by omega)

/-- The text of a frame with its end label: correct around it exactly when correct inside it. -/
theorem Good.frame {main hd n cur : Nat} {fr own : List Nat} {s' : St} {o : List Item} (f : Fresh ⟨n + 1, cur⟩ s' o)
    (r : Range (n + 1) ⟨n + 1, cur⟩ s' o) (hhd : hd ≤ n) :
    Good main fr hd (o ++ [.leaveLabel own (n + 1)]) ↔ Good main own (n + 1) o := by
  have fr1 : ∀ ow m, Item.leaveLabel ow m ∈ o → n + 1 < m := fun ow m h => (f.2.2 m (mem_labelNums.mpr ⟨ow, h⟩)).1
  have mg : ∀ t m, Item.goto t m ∈ o ++ [.leaveLabel own (n + 1)] ↔ Item.goto t m ∈ o := by intro t m; simp
  have mr : ∀ t v, Item.ret t v ∈ o ++ [.leaveLabel own (n + 1)] ↔ Item.ret t v ∈ o := by intro t m; simp
  unfold Good
  simp only [mg, mr]
  refine and_congr ⟨?_, ?_⟩ Iff.rfl
  · intro h t m hm
    have hge : n + 1 ≤ m := by
      rcases r t m hm with e | e
      · omega
      · simp at e; omega
    rcases h t m hm with ⟨e, _⟩ | ⟨ow, hl, ht⟩
    · omega
    · rcases List.mem_append.mp hl with hl | hl
      · exact .inr ⟨ow, hl, ht⟩
      · simp at hl
        exact .inl ⟨hl.2, hl.1 ▸ ht⟩
  · intro h t m hm
    rcases h t m hm with ⟨e, ht⟩ | ⟨ow, hl, ht⟩
    · exact .inr ⟨own, by simp [e], ht⟩
    · exact .inr ⟨ow, List.mem_append_left _ hl, ht⟩

/-- Without the end label nothing may jump to the frame. -/
theorem Good.noLabel {main hd n cur : Nat} {fr : List Nat} {s' : St} {o : List Item}
    (r : Range (n + 1) ⟨n + 1, cur⟩ s' o) (hhd : hd ≤ n) : Good main fr hd o ↔ Good main [] (n + 1) o := by
  unfold Good
  refine and_congr ⟨?_, ?_⟩ Iff.rfl
  · intro h t m hm
    have hge : n + 1 ≤ m := by
      rcases r t m hm with e | e
      · omega
      · simp at e; omega
    rcases h t m hm with ⟨e, _⟩ | h
    · omega
    · exact .inr h
  · intro h t m hm
    rcases h t m hm with ⟨_, h⟩ | h
    · cases h
    · exact .inr h

theorem emit_range (main : Nat) (inj : Bool) (il : IL) : ∀ stk st, Range (stk.headD 0) st (emit main inj il stk st).2 (emit main inj il stk st).1 := by
  have nolab : ∀ (hd : Nat) (a b : St) (o : List Item), (∀ t m, Item.goto t m ∉ o) → Range hd a b o := fun hd a b o h t m hm => absurd hm (h t m)
  have up : ∀ {stk : List Nat} {n cur : Nat} {s' : St} {o : List Item}, Fresh ⟨n + 1, cur⟩ s' o →
      Range (((n + 1) :: stk).headD 0) ⟨n + 1, cur⟩ s' o → ∀ (cur' hd : Nat), Range hd ⟨n, cur'⟩ s' o := by
    intro stk n cur s' o hf h cur' hd t m hm
    have hl := hf.1
    simp only [List.headD_cons] at h hl
    rcases h t m hm with e | e
    · right; simp; omega
    · right; simp at e ⊢; omega
  induction il with
  | nop | act k | silent b _ | branch l | nil | bnil | hnil | snil =>
    intro stk st; exact nolab _ _ _ _ (by simp [emit])
  | leave t e v =>
    intro stk st t' m hm
    unfold emit at hm
    by_cases h : e = 0
    · simp [h] at hm
    · simp [h] at hm
      exact .inl (by rw [List.headD_eq_head?_getD]; exact hm.2)
  | ite c t f iht ihf =>
    intro stk st
    unfold emit
    simp only []
    by_cases h : f = .nop
    · rw [if_pos h, if_pos h]
      refine (iht stk st).congr ⟨?_, ?_, ?_⟩ <;> simp
    · rw [if_neg h, if_neg h]
      refine (Range.append (emit_fresh main inj t stk st).1 (emit_fresh main inj f stk _).1 (iht stk st) (ihf stk _)).congr ⟨?_, ?_, ?_⟩ <;> simp
  | block b ih => intro stk st; exact ih stk st
  | container id bs ih =>
    intro stk st
    unfold emit
    simp only []
    refine (up (emit_fresh main inj bs _ _) (ih _ _) st.cur _).congr' ?_
    by_cases h : id ≠ main ∧ leaves id bs = true
    · rw [if_pos h]; simp
    · rw [if_neg h]; simp
  | tryCatch tid lbl f r hs ihf _ ihh =>
    intro stk st
    unfold emit
    simp only []
    refine (up (stk := stk) (n := st.n) (Fresh.append (emit_fresh main inj f _ _) (emit_fresh main inj hs _ _) (labelNums_append _ _))
      (Range.append (emit_fresh main inj f _ _).1 (emit_fresh main inj hs _ _).1 (ihf ((st.n + 1) :: stk) ⟨st.n + 1, st.cur⟩)
        (ihh ((st.n + 1) :: stk) _)) st.cur _).congr' ?_
    simp [goto_blockLabel]
  | switch v s ih =>
    intro stk st
    unfold emit
    simp only []
    refine (ih stk st).congr ⟨?_, ?_, ?_⟩ <;> simp
  | cons a r iha ihr =>
    intro stk st
    unfold emit
    simp only []
    by_cases h : dropped inj a r = true
    · rw [if_pos h]; exact nolab _ _ _ _ (by simp)
    · rw [if_neg h]
      exact Range.append (emit_fresh main inj a stk st).1 (emit_fresh main inj r stk _).1 (iha stk st) (ihr stk _)
  | bcons lbl b r ihb ihr =>
    intro stk st
    unfold emit
    simp only []
    refine (Range.append (emit_fresh main inj b stk st).1 (emit_fresh main inj r stk _).1 (ihb stk st) (ihr stk _)).congr ?_
    by_cases h : inj = true ∧ (emit main inj b stk st).2.cur = main
    · rw [if_pos h]; refine ⟨?_, ?_, ?_⟩ <;> simp [goto_blockLabel, ret_blockLabel, label_blockLabel]
    · rw [if_neg h]; refine ⟨?_, ?_, ?_⟩ <;> simp [goto_blockLabel, ret_blockLabel, label_blockLabel]
  | hcons hid lbl f r n ihf _ ihn =>
    intro stk st
    unfold emit
    simp only []
    refine (Range.append (emit_fresh main inj f stk st).1 (emit_fresh main inj n stk _).1 (ihf stk st) (ihn stk _)).congr ⟨?_, ?_, ?_⟩ <;>
      simp [goto_blockLabel, ret_blockLabel, label_blockLabel]
  | scons ls b r ihb ihr =>
    intro stk st
    unfold emit
    simp only []
    refine (Range.append (emit_fresh main inj b stk st).1 (emit_fresh main inj r stk _).1 (ihb stk st) (ihr stk _)).congr ⟨?_, ?_, ?_⟩ <;>
      simp [goto_caseHead, ret_caseHead, label_caseHead]

/-- A leave jump in the text comes from a leave in the tree. -/
theorem goto_leaves (main : Nat) (inj : Bool) (il : IL) : ∀ stk st t m, Item.goto t m ∈ (emit main inj il stk st).1 → leaves t il = true := by
  induction il with
  | nop | act k | silent b _ | branch l | nil | bnil | hnil | snil => intro stk st t m hm; simp [emit] at hm
  | leave t e v =>
    intro stk st t' m hm
    unfold emit at hm
    by_cases h : e = 0
    · simp [h] at hm
    · simp [h] at hm
      simp [leaves, hm.1]
  | ite c t f iht ihf =>
    intro stk st t' m hm
    unfold emit at hm
    simp only [] at hm
    unfold leaves
    rw [Bool.or_eq_true]
    by_cases h : f = .nop
    · rw [if_pos h] at hm
      simp at hm
      exact .inl (iht _ _ _ _ hm)
    · rw [if_neg h] at hm
      simp at hm
      rcases hm with hm | hm
      · exact .inl (iht _ _ _ _ hm)
      · exact .inr (ihf _ _ _ _ hm)
  | block b ih => intro stk st t m hm; exact ih stk st t m hm
  | container id bs ih =>
    intro stk st t m hm
    unfold emit at hm
    simp only [] at hm
    rcases List.mem_append.mp hm with h | h
    · exact ih _ _ _ _ h
    · by_cases h' : id ≠ main ∧ leaves id bs = true
      · rw [if_pos h'] at h; simp at h
      · rw [if_neg h'] at h; simp at h
  | tryCatch tid lbl f r hs ihf _ ihh =>
    intro stk st t m hm
    unfold emit at hm
    simp [goto_blockLabel] at hm
    unfold leaves
    rw [Bool.or_eq_true, Bool.or_eq_true]
    rcases hm with h | h
    · exact .inl (.inl (ihf _ _ _ _ h))
    · exact .inr (ihh _ _ _ _ h)
  | switch v s ih => intro stk st t m hm; unfold emit at hm; simp at hm; exact ih _ _ _ _ hm
  | cons a r iha ihr =>
    intro stk st t m hm
    unfold emit at hm
    simp only [] at hm
    unfold leaves
    rw [Bool.or_eq_true]
    by_cases h : dropped inj a r = true
    · rw [if_pos h] at hm; cases hm
    · rw [if_neg h] at hm
      rcases List.mem_append.mp hm with h | h
      · exact .inl (iha _ _ _ _ h)
      · exact .inr (ihr _ _ _ _ h)
  | bcons lbl b r ihb ihr =>
    intro stk st t m hm
    unfold emit at hm
    simp only [] at hm
    unfold leaves
    rw [Bool.or_eq_true]
    by_cases h : inj = true ∧ (emit main inj b stk st).2.cur = main
    · rw [if_pos h] at hm; simp [goto_blockLabel] at hm
      rcases hm with h | h
      · exact .inl (ihb _ _ _ _ h)
      · exact .inr (ihr _ _ _ _ h)
    · rw [if_neg h] at hm; simp [goto_blockLabel] at hm
      rcases hm with h | h
      · exact .inl (ihb _ _ _ _ h)
      · exact .inr (ihr _ _ _ _ h)
  | hcons hid lbl f r n ihf _ ihn =>
    intro stk st t m hm
    unfold emit at hm
    simp [goto_blockLabel] at hm
    unfold leaves
    rw [Bool.or_eq_true, Bool.or_eq_true]
    rcases hm with h | h
    · exact .inl (.inl (ihf _ _ _ _ h))
    · exact .inr (ihn _ _ _ _ h)
  | scons ls b r ihb ihr =>
    intro stk st t m hm
    unfold emit at hm
    simp [goto_caseHead] at hm
    unfold leaves
    rw [Bool.or_eq_true]
    rcases hm with h | h
    · exact .inl (ihb _ _ _ _ h)
    · exact .inr (ihr _ _ _ _ h)

theorem emit_good (main : Nat) (il : IL) : main ∉ ids il → ∀ fr stk st, stk.headD 0 ≤ st.n →
    (Good main fr (stk.headD 0) (emit main false il stk st).1 ↔ Innermost main fr il) := by
  have nojump : ∀ (fr : List Nat) (hd : Nat), Good main fr hd [] := fun fr hd => ⟨by simp, by simp⟩
  induction il with
  | nop | act k | silent b _ | branch l | nil | bnil | hnil | snil =>
    intro hid fr stk st hhd
    simp [Good, emit, Innermost]
  | leave t e v =>
    intro hid fr stk st hhd
    unfold emit Good Innermost
    by_cases h : e = 0
    · simp [h]
    · simp [h]
  | ite c t f iht ihf =>
    intro hid fr stk st hhd
    simp [ids] at hid
    unfold emit Innermost
    simp only []
    by_cases h : f = .nop
    · rw [if_pos h]
      rw [Good.congr (o := (emit main false t stk st).1) ⟨by simp, by simp, by simp⟩, iht hid.1 _ _ _ hhd, h]
      simp [Innermost]
    · rw [if_neg h]
      rw [Good.congr (o := (emit main false t stk st).1 ++ (emit main false f stk (emit main false t stk st).2).1) ⟨by simp, by simp, by simp⟩,
        Good.append (emit_fresh _ _ _ _ _) (emit_fresh _ _ _ _ _) (emit_range _ _ _ _ _) (emit_range _ _ _ _ _) hhd,
        iht hid.1 _ _ _ hhd, ihf hid.2 _ _ _ (Nat.le_trans hhd (emit_fresh _ _ _ _ _).1)]
  | block b ih => intro hid fr stk st hhd; exact ih hid fr stk st hhd
  | container id bs ih =>
    intro hid fr stk st hhd
    simp [ids] at hid
    unfold emit Innermost
    simp only []
    have base := ih hid.2 [id] ((st.n + 1) :: stk) ⟨st.n + 1, id⟩ (by simp)
    rw [← base]
    by_cases h : id ≠ main ∧ leaves id bs = true
    · rw [if_pos h]
      exact Good.frame (emit_fresh _ _ _ _ _) (emit_range _ _ _ ((st.n + 1) :: stk) ⟨st.n + 1, id⟩) hhd
    · rw [if_neg h, List.append_nil]
      rw [Good.noLabel (emit_range _ _ _ ((st.n + 1) :: stk) ⟨st.n + 1, id⟩) hhd]
      have hl : leaves id bs ≠ true := fun e => h ⟨fun e => hid.1 e.symm, e⟩
      unfold Good
      refine and_congr ⟨?_, ?_⟩ Iff.rfl
      · intro g t m hm
        rcases g t m hm with ⟨_, e⟩ | e
        · cases e
        · exact .inr e
      · intro g t m hm
        rcases g t m hm with ⟨_, e⟩ | e
        · rw [List.mem_singleton] at e
          exact absurd (e ▸ goto_leaves _ _ _ _ _ _ _ hm) hl
        · exact .inr e
  | tryCatch tid lbl f r hs ihf _ ihh =>
    intro hid fr stk st hhd
    simp [ids] at hid
    unfold emit Innermost
    simp only []
    have f1 := emit_fresh main false f ((st.n + 1) :: stk) ⟨st.n + 1, st.cur⟩
    have f2 := emit_fresh main false hs ((st.n + 1) :: stk) (emit main false f ((st.n + 1) :: stk) ⟨st.n + 1, st.cur⟩).2
    have r1 := emit_range main false f ((st.n + 1) :: stk) ⟨st.n + 1, st.cur⟩
    have r2 := emit_range main false hs ((st.n + 1) :: stk) (emit main false f ((st.n + 1) :: stk) ⟨st.n + 1, st.cur⟩).2
    rw [← ihf hid.2.1 (tid :: handlerIds hs) ((st.n + 1) :: stk) ⟨st.n + 1, st.cur⟩ (by simp),
      ← ihh hid.2.2.2 (tid :: handlerIds hs) ((st.n + 1) :: stk) (emit main false f ((st.n + 1) :: stk) ⟨st.n + 1, st.cur⟩).2 f1.1,
      ← Good.append f1 f2 r1 r2 (by simp)]
    refine Iff.trans ?_ (Good.frame (fr := fr) (Fresh.append f1 f2 (labelNums_append _ _)) (Range.append f1.1 f2.1 r1 r2) hhd)
    refine Good.congr ⟨?_, ?_, ?_⟩ <;> simp [goto_blockLabel, ret_blockLabel, label_blockLabel, or_assoc]
  | switch v s ih =>
    intro hid fr stk st hhd
    unfold emit Innermost
    simp only []
    rw [← ih hid fr stk st hhd]
    exact Good.congr ⟨by simp, by simp, by simp⟩
  | cons a r iha ihr =>
    intro hid fr stk st hhd
    simp [ids] at hid
    unfold emit Innermost
    simp only []
    have hd : dropped false a r ≠ true := by unfold dropped; split <;> simp
    rw [if_neg hd, Good.append (emit_fresh _ _ _ _ _) (emit_fresh _ _ _ _ _) (emit_range _ _ _ _ _) (emit_range _ _ _ _ _) hhd,
        iha hid.1 _ _ _ hhd, ihr hid.2 _ _ _ (Nat.le_trans hhd (emit_fresh _ _ _ _ _).1)]
  | bcons lbl b r ihb ihr =>
    intro hid fr stk st hhd
    simp [ids] at hid
    unfold emit Innermost
    simp only []
    rw [if_neg (by simp), ← ihb hid.1 fr stk st hhd, ← ihr hid.2 fr stk _ (Nat.le_trans hhd (emit_fresh _ _ _ _ _).1),
      ← Good.append (emit_fresh _ _ _ _ _) (emit_fresh _ _ _ _ _) (emit_range _ _ _ _ _) (emit_range _ _ _ _ _) hhd]
    refine Good.congr ⟨?_, ?_, ?_⟩ <;> simp [goto_blockLabel, ret_blockLabel, label_blockLabel]
  | hcons h lbl f r n ihf _ ihn =>
    intro hid fr stk st hhd
    simp [ids] at hid
    unfold emit Innermost
    simp only []
    rw [← ihf hid.2.1 fr stk st hhd, ← ihn hid.2.2.2 fr stk _ (Nat.le_trans hhd (emit_fresh _ _ _ _ _).1),
      ← Good.append (emit_fresh _ _ _ _ _) (emit_fresh _ _ _ _ _) (emit_range _ _ _ _ _) (emit_range _ _ _ _ _) hhd]
    refine Good.congr ⟨?_, ?_, ?_⟩ <;> simp [goto_blockLabel, ret_blockLabel, label_blockLabel]
  | scons ls b r ihb ihr =>
    intro hid fr stk st hhd
    simp [ids] at hid
    unfold emit Innermost
    simp only []
    rw [← ihb hid.1 fr stk st hhd, ← ihr hid.2 fr stk _ (Nat.le_trans hhd (emit_fresh _ _ _ _ _).1),
      ← Good.append (emit_fresh _ _ _ _ _) (emit_fresh _ _ _ _ _) (emit_range _ _ _ _ _) (emit_range _ _ _ _ _) hhd]
    refine Good.congr ⟨?_, ?_, ?_⟩ <;> simp [goto_caseHead, ret_caseHead, label_caseHead]

/-- C62: in a method (without injected statement) all leaves are translated correctly exactly when every leave that the visitor reaches either
leaves the method and is recognised by the entry label `IL_0000`, or leaves the innermost container or try around it. -/
theorem C62_leaves_partial (main : Nat) (blocks : IL) (hm : main ∉ ids blocks) :
    LeavesCorrect main (emitMain main false blocks) ↔ Innermost main [] blocks := by
  unfold emitMain emit
  simp only []
  rw [if_neg (by simp), List.append_nil, ← emit_good main blocks hm [] [1] ⟨1, main⟩ (by simp)]
  unfold LeavesCorrect Good
  simp

/-- C62: a concrete method the theorem covers: a loop (container 1, entry label 5) whose body acts, leaves the loop, or goes round again, followed
by a return. -/
def loopMethod : IL :=
  .bcons 0 (.cons (.container 1 (.bcons 5 (.cons (.ite 7 (.act 3) (.leave 1 5 none)) (.cons (.branch 5) .nil)) .bnil))
    (.cons (.leave 9 0 (some 1)) .nil)) .bnil

example : LeavesCorrect 9 (emitMain 9 false loopMethod) := (C62_leaves_partial 9 loopMethod (by decide)).mpr (by simp [loopMethod, Innermost])

example : emitMain 9 false loopMethod =
    [.opn, .blockLabel 0, .opn, .blockLabel 5, .ifHead 7, .opn, .text 3, .cls, .elseHead, .opn, .goto 1 2, .cls, .jump 5, .cls,
     .leaveLabel [1] 2, .ret 9 (some 1), .cls] := by decide +kernel

/-- C62 fails: `break` inside a `try` inside a loop jumps to the end of the `try`, not of the loop. -/
def breakInTry : IL :=
  .bcons 0 (.cons (.container 1 (.bcons 5 (.cons (.tryCatch 2 6 (.cons (.leave 1 5 none) .nil) .bnil
    (.hcons 3 7 (.cons (.leave 3 7 none) .nil) .bnil .hnil)) (.cons (.branch 5) .nil)) .bnil)) (.cons (.leave 9 0 none) .nil)) .bnil

theorem C62_break_in_try_refuted : ¬ LeavesCorrect 9 (emitMain 9 false breakInTry) := by
  rw [C62_leaves_partial 9 breakInTry (by decide)]
  simp [breakInTry, Innermost, handlerIds]

/-- C62 fails: leaving an outer container from an inner one (`goto` out of two loops) jumps to the end of the inner one. -/
theorem C62_nested_refuted : ∃ blocks, 9 ∉ ids blocks ∧ ¬ LeavesCorrect 9 (emitMain 9 false blocks) := by
  refine ⟨.bcons 0 (.cons (.container 1 (.bcons 5 (.cons (.container 2 (.bcons 6 (.cons (.leave 1 5 none) .nil) .bnil)) .nil) .bnil)) .nil) .bnil,
    by decide, ?_⟩
  rw [C62_leaves_partial 9 _ (by decide)]
  simp [Innermost]

/-- C62 fails: a loop that starts at the method's first instruction has the entry label `IL_0000` too, so leaving the loop returns from the
method. -/
theorem C62_first_loop_refuted : ∃ blocks, 9 ∉ ids blocks ∧ Item.ret 1 none ∈ emitMain 9 false blocks := by
  refine ⟨.bcons 0 (.cons (.container 1 (.bcons 0 (.cons (.act 4) (.cons (.leave 1 0 none) .nil)) .bnil)) (.cons (.act 5) .nil)) .bnil, by decide, ?_⟩
  decide +kernel

/-! ## C91: every statement is written once, in order -/

/-- The simple statements of a tree, in order. -/
def acts : IL → List Nat
  | .nop | .leave _ _ _ | .branch _ | .nil | .bnil | .hnil | .snil => []
  | .act k => [k]
  | .silent b => acts b
  | .ite _ t f => acts t ++ acts f
  | .block b => acts b
  | .container _ b => acts b
  | .tryCatch _ _ f r h => acts f ++ acts r ++ acts h
  | .switch _ s => acts s
  | .cons a r => acts a ++ acts r
  | .bcons _ b r => acts b ++ acts r
  | .hcons _ _ f r n => acts f ++ acts r ++ acts n
  | .scons _ b r => acts b ++ acts r

/-- The statements in places the visitor does not look at: inside `try`/`finally`, `lock`, `using` and the like, and in all but the first block of
a `try` or a handler. -/
def hidden : IL → List Nat
  | .nop | .leave _ _ _ | .branch _ | .nil | .bnil | .hnil | .snil | .act _ => []
  | .silent b => acts b
  | .ite _ t f => hidden t ++ hidden f
  | .block b => hidden b
  | .container _ b => hidden b
  | .tryCatch _ _ f r h => hidden f ++ acts r ++ hidden h
  | .switch _ s => hidden s
  | .cons a r => hidden a ++ hidden r
  | .bcons _ b r => hidden b ++ hidden r
  | .hcons _ _ f r n => hidden f ++ acts r ++ hidden n
  | .scons _ b r => hidden b ++ hidden r

/-- The statements written. -/
def texts : List Item → List Nat
  | [] => []
  | .text k :: r => k :: texts r
  | _ :: r => texts r

@[simp] theorem texts_semiSec (t : IL) : texts (semiSec t) = [] := by
  rcases semiSec_cases t with h | h <;> rw [h] <;> rfl

@[simp] theorem texts_semiIf (t : IL) : texts (semiIf t) = [] := by
  rcases semiIf_cases t with h | h <;> rw [h] <;> rfl

theorem texts_append (a b : List Item) : texts (a ++ b) = texts a ++ texts b := by
  induction a with
  | nil => rfl
  | cons x xs ih => cases x <;> simp [texts, ih]

theorem texts_blockLabel (l : Nat) (b : IL) : texts (blockLabel l b) = [] := by
  unfold blockLabel
  repeat' split
  all_goals rfl

theorem texts_caseHead (ls : LongSet) (r : List Item) : texts (caseHead ls :: r) = texts r := by
  rcases caseHead_cases ls with h | h | ⟨v, h⟩ <;> rw [h] <;> rfl

theorem dropped_acts {inj : Bool} {a r : IL} (h : dropped inj a r = true) : acts a = [] ∧ acts r = [] := by
  unfold dropped at h
  split at h
  · exact ⟨rfl, rfl⟩
  · cases h

theorem texts_emit (main : Nat) (inj : Bool) (il : IL) : ∀ stk st,
    (texts (emit main inj il stk st).1).Sublist (acts il) ∧ (texts (emit main inj il stk st).1).length + (hidden il).length = (acts il).length := by
  induction il with
  | nop | branch l | nil | bnil | hnil | snil | act k => intro stk st; simp [emit, texts, acts, hidden]
  | silent b _ => intro stk st; simp [emit, texts, acts, hidden]
  | leave t e v => intro stk st; unfold emit; by_cases h : e = 0 <;> simp [h, texts, acts, hidden]
  | ite c t f iht ihf =>
    intro stk st
    have a := iht stk st
    have b := ihf stk (emit main inj t stk st).2
    unfold emit acts hidden
    simp only []
    by_cases h : f = .nop
    · rw [if_pos h]
      subst h
      simp [texts, texts_append, acts, hidden]
      exact a
    · rw [if_neg h]
      simp [texts, texts_append]
      exact ⟨a.1.append b.1, by omega⟩
  | block b ih => intro stk st; exact ih stk st
  | container id bs ih =>
    intro stk st
    have a := ih ((st.n + 1) :: stk) ⟨st.n + 1, id⟩
    unfold emit acts hidden
    simp only []
    by_cases h : id ≠ main ∧ leaves id bs = true
    · rw [if_pos h]; simp [texts_append, texts]; exact a
    · rw [if_neg h]; simp [texts_append, texts]; exact a
  | tryCatch tid lbl f r hs ihf _ ihh =>
    intro stk st
    have a := ihf ((st.n + 1) :: stk) ⟨st.n + 1, st.cur⟩
    have b := ihh ((st.n + 1) :: stk) (emit main inj f ((st.n + 1) :: stk) ⟨st.n + 1, st.cur⟩).2
    unfold emit acts hidden
    simp [texts, texts_append, texts_blockLabel]
    exact ⟨a.1.append (b.1.trans (List.sublist_append_right _ _)), by omega⟩
  | switch v s ih => intro stk st; have a := ih stk st; unfold emit acts hidden; simp [texts, texts_append]; exact a
  | cons a r iha ihr =>
    intro stk st
    have x := iha stk st
    have y := ihr stk (emit main inj a stk st).2
    unfold emit acts hidden
    simp only []
    by_cases h : dropped inj a r = true
    · rw [if_pos h]
      obtain ⟨e1, e2⟩ := dropped_acts h
      rw [e1] at x ⊢
      rw [e2] at y ⊢
      simp [texts] at x y ⊢
      exact ⟨x.2, y.2⟩
    · rw [if_neg h]
      simp [texts_append]
      exact ⟨x.1.append y.1, by omega⟩
  | bcons lbl b r ihb ihr =>
    intro stk st
    have x := ihb stk st
    have y := ihr stk (emit main inj b stk st).2
    unfold emit acts hidden
    simp only []
    by_cases h : inj = true ∧ (emit main inj b stk st).2.cur = main
    · rw [if_pos h]; simp [texts, texts_append, texts_blockLabel]; exact ⟨x.1.append y.1, by omega⟩
    · rw [if_neg h]; simp [texts, texts_append, texts_blockLabel]; exact ⟨x.1.append y.1, by omega⟩
  | hcons hid lbl f r n ihf _ ihn =>
    intro stk st
    have x := ihf stk st
    have y := ihn stk (emit main inj f stk st).2
    unfold emit acts hidden
    simp [texts, texts_append, texts_blockLabel]
    exact ⟨x.1.append (y.1.trans (List.sublist_append_right _ _)), by omega⟩
  | scons ls b r ihb ihr =>
    intro stk st
    have x := ihb stk st
    have y := ihr stk (emit main inj b stk st).2
    unfold emit acts hidden
    simp [texts, texts_append, texts_caseHead]
    exact ⟨x.1.append y.1, by omega⟩

/-- C91: the statements written are exactly those of the method, each once and in order, exactly when no statement is in a place the visitor does
not look at. -/
theorem C91_statements_partial (main : Nat) (inj : Bool) (blocks : IL) : texts (emitMain main inj blocks) = acts blocks ↔ hidden blocks = [] := by
  have h := texts_emit main inj (.container main blocks) [] ⟨0, main⟩
  have e1 : acts (.container main blocks) = acts blocks := rfl
  have e2 : hidden (.container main blocks) = hidden blocks := rfl
  rw [e1, e2] at h
  unfold emitMain
  constructor
  · intro e
    rw [e] at h
    exact List.length_eq_zero_iff.mp (by omega)
  · intro e
    rw [e] at h
    exact h.1.eq_of_length (by simpa using h.2)

/-- C91: whatever is written is always part of the method, in order: nothing is duplicated, reordered or invented. -/
theorem C91_nothing_added (main : Nat) (inj : Bool) (blocks : IL) : (texts (emitMain main inj blocks)).Sublist (acts blocks) :=
  (texts_emit main inj (.container main blocks) [] ⟨0, main⟩).1

example : texts (emitMain 9 false loopMethod) = [3] := (C91_statements_partial 9 false loopMethod).mpr (by decide)

/-- C91 fails: everything inside a `try`/`finally` disappears. -/
theorem C91_finally_refuted : texts (emitMain 9 false (.bcons 0 (.cons (.silent (.cons (.act 1) (.cons (.act 2) .nil))) .nil) .bnil)) = [] := by
  decide +kernel

/-- C91 fails: a `try` whose body has more than one block loses all but the first. -/
theorem C91_try_refuted : texts (emitMain 9 false (.bcons 0 (.cons (.tryCatch 2 6 (.cons (.act 1) (.cons (.branch 8) .nil))
    (.bcons 8 (.cons (.act 2) (.cons (.leave 2 6 none) .nil)) .bnil) .hnil) .nil) .bnil)) = [1] := by
  decide +kernel

/-! ## C92: the statement injected into static constructors -/

/-- No container inside (no loop). -/
def flat : IL → Bool
  | .nop | .act _ | .leave _ _ _ | .branch _ | .nil | .bnil | .hnil | .snil | .silent _ => true
  | .ite _ t f => flat t && flat f
  | .block b => flat b
  | .container _ _ => false
  | .tryCatch _ _ f _ h => flat f && flat h
  | .switch _ s => flat s
  | .cons a r => flat a && flat r
  | .bcons _ b r => flat b && flat r
  | .hcons _ _ f _ n => flat f && flat n
  | .scons _ b r => flat b && flat r

theorem flat_cur (main : Nat) (inj : Bool) (il : IL) : flat il = true → ∀ stk st, (emit main inj il stk st).2.cur = st.cur := by
  induction il with
  | nop | branch l | nil | bnil | hnil | snil | act k => intro _ stk st; rfl
  | silent b _ => intro _ stk st; rfl
  | leave t e v => intro _ stk st; rfl
  | ite c t f iht ihf =>
    intro h stk st
    unfold flat at h
    rw [Bool.and_eq_true] at h
    unfold emit
    simp only []
    split
    · exact iht h.1 _ _
    · rw [ihf h.2, iht h.1]
  | block b ih => intro h stk st; exact ih h stk st
  | container id bs ih => intro h; cases h
  | tryCatch tid lbl f r hs ihf _ ihh =>
    intro h stk st
    unfold flat at h
    rw [Bool.and_eq_true] at h
    unfold emit
    simp only []
    rw [ihh h.2, ihf h.1]
  | switch v s ih => intro h stk st; exact ih h stk st
  | cons a r iha ihr =>
    intro h stk st
    unfold flat at h
    rw [Bool.and_eq_true] at h
    unfold emit
    simp only []
    split
    · rfl
    · rw [ihr h.2, iha h.1]
  | bcons lbl b r ihb ihr =>
    intro h stk st
    unfold flat at h
    rw [Bool.and_eq_true] at h
    unfold emit
    simp only []
    rw [ihr h.2, ihb h.1]
  | hcons hid lbl f r n ihf _ ihn =>
    intro h stk st
    unfold flat at h
    rw [Bool.and_eq_true] at h
    unfold emit
    simp only []
    rw [ihn h.2, ihf h.1]
  | scons ls b r ihb ihr =>
    intro h stk st
    unfold flat at h
    rw [Bool.and_eq_true] at h
    unfold emit
    simp only []
    rw [ihr h.2, ihb h.1]

/-- C92: the text of a static constructor without loops ends with the injected return, right after the text of its statements. -/
theorem C92_inject_partial (main lbl : Nat) (body : IL) (h : flat body = true) :
    ∃ pre, emitMain main true (.bcons lbl body .bnil) = pre ++ [.inject, .cls] ∧ texts pre = texts (emit main true body [1] ⟨1, main⟩).1 := by
  refine ⟨.opn :: blockLabel lbl body ++ (emit main true body [1] ⟨1, main⟩).1, ?_, ?_⟩
  · have hc := flat_cur main true body h [1] ⟨1, main⟩
    simp [emitMain, emit, hc]
  · simp [texts, texts_append, texts_blockLabel]

example : emitMain 9 true (.bcons 0 (.cons (.act 1) (.cons (.leave 9 0 none) .nil)) .bnil) =
    [.opn, .blockLabel 0, .text 1, .inject, .cls] := by decide +kernel

/-- C92 fails: a static constructor with a loop has no return of its value at all (the function is declared to return `bool`). -/
theorem C92_loop_refuted : Item.inject ∉ emitMain 9 true loopMethod := by decide +kernel

/-- C92 fails: an early `return` in a static constructor is dropped when it ends the block of an `if`, so that the statements after it run
although they must not. -/
theorem C92_early_return_refuted :
    emitMain 9 true (.bcons 0 (.cons (.ite 1 (.block (.cons (.leave 9 0 none) .nil)) .nop) (.cons (.act 2) (.cons (.leave 9 0 none) .nil))) .bnil) =
      [.opn, .blockLabel 0, .ifHead 1, .opn, .cls, .text 2, .inject, .cls] := by decide +kernel

/-! ## C93: the targets of branches are defined -/

/-- The blocks whose text is written with a label position: those of containers and the first blocks of try and handlers. -/
def visited : IL → List (Nat × IL)
  | .nop | .act _ | .leave _ _ _ | .branch _ | .nil | .bnil | .hnil | .snil | .silent _ => []
  | .ite _ t f => visited t ++ visited f
  | .block b => visited b
  | .container _ b => visited b
  | .tryCatch _ lbl f _ h => (lbl, f) :: visited f ++ visited h
  | .switch _ s => visited s
  | .cons a r => visited a ++ visited r
  | .bcons lbl b r => (lbl, b) :: visited b ++ visited r
  | .hcons _ lbl f _ n => (lbl, f) :: visited f ++ visited n
  | .scons _ b r => visited b ++ visited r

/-- The block labels defined in a text. -/
def labels : List Item → List Nat
  | [] => []
  | .blockLabel l :: r => l :: labels r
  | _ :: r => labels r

/-- A block that consists of a single leave. -/
def LoneLeave (b : IL) : Prop := ∃ t e v, b = .cons (.leave t e v) .nil

/-- A block that starts with a container whose entry block has the label `l`. -/
def StartsWith (l : Nat) (b : IL) : Prop := ∃ id b' r' r, b = .cons (.container id (.bcons l b' r')) r

@[simp] theorem labels_semiSec (t : IL) : labels (semiSec t) = [] := by
  rcases semiSec_cases t with h | h <;> rw [h] <;> rfl

@[simp] theorem labels_semiIf (t : IL) : labels (semiIf t) = [] := by
  rcases semiIf_cases t with h | h <;> rw [h] <;> rfl

theorem labels_append (a b : List Item) : labels (a ++ b) = labels a ++ labels b := by
  induction a with
  | nil => rfl
  | cons x xs ih => cases x <;> simp [labels, ih]

theorem labels_caseHead (ls : LongSet) (r : List Item) : labels (caseHead ls :: r) = labels r := by
  rcases caseHead_cases ls with h | h | ⟨v, h⟩ <;> rw [h] <;> rfl

theorem blockLabel_cases (l : Nat) (b : IL) :
    (blockLabel l b = [] ∧ (LoneLeave b ∨ StartsWith l b)) ∨ (blockLabel l b = [.blockLabel l] ∧ ¬ LoneLeave b ∧ ¬ StartsWith l b) := by
  unfold blockLabel
  split
  · exact .inl ⟨rfl, .inl ⟨_, _, _, rfl⟩⟩
  · rename_i id l' b' r' r
    by_cases h : l' = l
    · rw [if_pos h]
      exact .inl ⟨rfl, .inr ⟨id, b', r', r, by rw [h]⟩⟩
    · rw [if_neg h]
      refine .inr ⟨rfl, ?_, ?_⟩
      · rintro ⟨_, _, _, e⟩; simp at e
      · rintro ⟨_, _, _, _, e⟩; simp at e; exact h e.1.2.1
  · rename_i h1 h2
    refine .inr ⟨rfl, ?_, ?_⟩
    · rintro ⟨_, _, _, e⟩; exact h1 _ _ _ e
    · rintro ⟨_, _, _, _, e⟩; exact h2 _ _ _ _ _ e

theorem labels_blockLabel_sub (l : Nat) (b : IL) : labels (blockLabel l b) = [] ∨ labels (blockLabel l b) = [l] := by
  rcases blockLabel_cases l b with ⟨e, _⟩ | ⟨e, _⟩ <;> rw [e]
  · exact .inl rfl
  · exact .inr rfl

theorem dropped_visited {inj : Bool} {a r : IL} (h : dropped inj a r = true) : visited a = [] ∧ visited r = [] := by
  unfold dropped at h
  split at h
  · exact ⟨rfl, rfl⟩
  · cases h

/-- The label of one block is defined in its own text. -/
theorem own_label {l : Nat} {b : IL} {o : List Item} (hb : ¬ LoneLeave b) (hin : ∀ p ∈ visited b, p.1 = l → p.1 ∈ labels o) :
    l ∈ labels (blockLabel l b ++ o) := by
  rw [labels_append]
  rcases blockLabel_cases l b with ⟨e, h | ⟨id, b', r', r, h⟩⟩ | ⟨e, _⟩
  · exact absurd h hb
  · refine List.mem_append_right _ (hin (l, b') ?_ rfl)
    rw [h]
    simp [visited]
  · rw [e]; simp [labels]

theorem labels_emit (main : Nat) (inj : Bool) (L : Nat) (il : IL) : (∀ p ∈ visited il, p.1 = L → ¬ LoneLeave p.2) → ∀ stk st, ∀ p ∈ visited il,
    p.1 = L → p.1 ∈ labels (emit main inj il stk st).1 := by
  induction il with
  | nop | branch l | nil | bnil | hnil | snil | act k => intro _ stk st p hp hL; simp [visited] at hp
  | silent b _ => intro _ stk st p hp hL; simp [visited] at hp
  | leave t e v => intro _ stk st p hp hL; simp [visited] at hp
  | ite c t f iht ihf =>
    intro h stk st p hp hL
    simp only [visited, List.mem_append] at h hp
    unfold emit
    simp only []
    by_cases hf : f = .nop
    · rw [if_pos hf]
      simp [labels, labels_append]
      rcases hp with hp | hp
      · exact iht (fun p hp => h p (.inl hp)) _ _ p hp hL
      · rw [hf] at hp; simp [visited] at hp
    · rw [if_neg hf]
      simp [labels, labels_append]
      rcases hp with hp | hp
      · exact .inl (iht (fun p hp => h p (.inl hp)) _ _ p hp hL)
      · exact .inr (ihf (fun p hp => h p (.inr hp)) _ _ p hp hL)
  | block b ih => intro h stk st p hp hL; exact ih h stk st p hp hL
  | container id bs ih =>
    intro h stk st p hp hL
    unfold emit
    simp only []
    rw [labels_append]
    exact List.mem_append_left _ (ih h _ _ p hp hL)
  | tryCatch tid lbl f r hs ihf _ ihh =>
    intro h stk st p hp hL
    simp only [visited, List.mem_append, List.mem_cons, List.cons_append] at h hp
    unfold emit
    simp [labels, labels_append]
    rcases hp with hp | hp | hp
    · have := own_label (l := lbl) (h (lbl, f) (.inl rfl) (by rw [hp] at hL; exact hL)) (by rw [hp] at hL; simp only [] at hL; rw [hL]; exact ihf (fun p hp => h p (.inr (.inl hp))) ((st.n + 1) :: stk) ⟨st.n + 1, st.cur⟩)
      rw [labels_append] at this
      rw [hp]
      rcases List.mem_append.mp this with g | g
      · exact .inl g
      · exact .inr (.inl g)
    · exact .inr (.inl (ihf (fun p hp => h p (.inr (.inl hp))) _ _ p hp hL))
    · exact .inr (.inr (ihh (fun p hp => h p (.inr (.inr hp))) _ _ p hp hL))
  | switch v s ih => intro h stk st p hp hL; unfold emit; simp [labels, labels_append]; exact ih h stk st p hp hL
  | cons a r iha ihr =>
    intro h stk st p hp hL
    simp only [visited, List.mem_append] at h hp
    unfold emit
    simp only []
    by_cases hd : dropped inj a r = true
    · obtain ⟨e1, e2⟩ := dropped_visited hd
      rw [e1, e2] at hp
      rcases hp with hp | hp <;> cases hp
    · rw [if_neg hd]
      simp [labels_append]
      rcases hp with hp | hp
      · exact .inl (iha (fun p hp => h p (.inl hp)) _ _ p hp hL)
      · exact .inr (ihr (fun p hp => h p (.inr hp)) _ _ p hp hL)
  | bcons lbl b r ihb ihr =>
    intro h stk st p hp hL
    simp only [visited, List.mem_append, List.mem_cons, List.cons_append] at h hp
    unfold emit
    simp [labels, labels_append]
    rcases hp with hp | hp | hp
    · have := own_label (l := lbl) (h (lbl, b) (.inl rfl) (by rw [hp] at hL; exact hL)) (by rw [hp] at hL; simp only [] at hL; rw [hL]; exact ihb (fun p hp => h p (.inr (.inl hp))) stk st)
      rw [labels_append] at this
      rw [hp]
      rcases List.mem_append.mp this with g | g
      · exact .inl g
      · exact .inr (.inl g)
    · exact .inr (.inl (ihb (fun p hp => h p (.inr (.inl hp))) _ _ p hp hL))
    · exact .inr (.inr (.inr (ihr (fun p hp => h p (.inr (.inr hp))) _ _ p hp hL)))
  | hcons hid lbl f r n ihf _ ihn =>
    intro h stk st p hp hL
    simp only [visited, List.mem_append, List.mem_cons, List.cons_append] at h hp
    unfold emit
    simp [labels, labels_append]
    rcases hp with hp | hp | hp
    · have := own_label (l := lbl) (h (lbl, f) (.inl rfl) (by rw [hp] at hL; exact hL)) (by rw [hp] at hL; simp only [] at hL; rw [hL]; exact ihf (fun p hp => h p (.inr (.inl hp))) stk st)
      rw [labels_append] at this
      rw [hp]
      rcases List.mem_append.mp this with g | g
      · exact .inl g
      · exact .inr (.inl g)
    · exact .inr (.inl (ihf (fun p hp => h p (.inr (.inl hp))) _ _ p hp hL))
    · exact .inr (.inr (ihn (fun p hp => h p (.inr (.inr hp))) _ _ p hp hL))
  | scons ls b r ihb ihr =>
    intro h stk st p hp hL
    simp only [visited, List.mem_append] at h hp
    unfold emit
    simp only []
    rw [List.cons_append, labels_caseHead, labels_append, labels_append, labels_semiSec, List.nil_append, List.mem_append]
    rcases hp with hp | hp
    · exact .inl (ihb (fun p hp => h p (.inl hp)) _ _ p hp hL)
    · exact .inr (ihr (fun p hp => h p (.inr hp)) _ _ p hp hL)

/-- The targets of the branches the visitor reaches. -/
def branches : IL → List Nat
  | .nop | .act _ | .leave _ _ _ | .nil | .bnil | .hnil | .snil | .silent _ => []
  | .branch l => [l]
  | .ite _ t f => branches t ++ branches f
  | .block b => branches b
  | .container _ b => branches b
  | .tryCatch _ _ f _ h => branches f ++ branches h
  | .switch _ s => branches s
  | .cons a r => branches a ++ branches r
  | .bcons _ b r => branches b ++ branches r
  | .hcons _ _ f _ n => branches f ++ branches n
  | .scons _ b r => branches b ++ branches r

/-- The `goto IL_xxxx` of a text. -/
def jumps : List Item → List Nat
  | [] => []
  | .jump l :: r => l :: jumps r
  | _ :: r => jumps r

@[simp] theorem jumps_semiSec (t : IL) : jumps (semiSec t) = [] := by
  rcases semiSec_cases t with h | h <;> rw [h] <;> rfl

@[simp] theorem jumps_semiIf (t : IL) : jumps (semiIf t) = [] := by
  rcases semiIf_cases t with h | h <;> rw [h] <;> rfl

theorem jumps_append (a b : List Item) : jumps (a ++ b) = jumps a ++ jumps b := by
  induction a with
  | nil => rfl
  | cons x xs ih => cases x <;> simp [jumps, ih]

theorem jumps_caseHead (ls : LongSet) (r : List Item) : jumps (caseHead ls :: r) = jumps r := by
  rcases caseHead_cases ls with h | h | ⟨v, h⟩ <;> rw [h] <;> rfl

theorem jumps_blockLabel (l : Nat) (b : IL) : jumps (blockLabel l b) = [] := by
  unfold blockLabel
  repeat' split
  all_goals rfl

theorem dropped_branches {inj : Bool} {a r : IL} (h : dropped inj a r = true) : branches a = [] ∧ branches r = [] := by
  unfold dropped at h
  split at h
  · exact ⟨rfl, rfl⟩
  · cases h

theorem jumps_emit (main : Nat) (inj : Bool) (il : IL) : ∀ stk st, jumps (emit main inj il stk st).1 = branches il := by
  induction il with
  | nop | branch l | nil | bnil | hnil | snil | act k => intro stk st; rfl
  | silent b _ => intro stk st; rfl
  | leave t e v => intro stk st; unfold emit; by_cases h : e = 0 <;> simp [h, jumps, branches]
  | ite c t f iht ihf =>
    intro stk st
    unfold emit branches
    simp only []
    by_cases h : f = .nop
    · rw [if_pos h]; simp [jumps, jumps_append, iht, h, branches]
    · rw [if_neg h]; simp [jumps, jumps_append, iht, ihf]
  | block b ih => intro stk st; exact ih stk st
  | container id bs ih =>
    intro stk st
    unfold emit branches
    simp only []
    rw [jumps_append, ih]
    by_cases h : id ≠ main ∧ leaves id bs = true
    · rw [if_pos h]; simp [jumps]
    · rw [if_neg h]; simp [jumps]
  | tryCatch tid lbl f r hs ihf _ ihh => intro stk st; unfold emit branches; simp [jumps, jumps_append, jumps_blockLabel, ihf, ihh]
  | switch v s ih => intro stk st; unfold emit branches; simp [jumps, jumps_append, ih]
  | cons a r iha ihr =>
    intro stk st
    unfold emit branches
    simp only []
    by_cases h : dropped inj a r = true
    · rw [if_pos h, (dropped_branches h).1, (dropped_branches h).2]; rfl
    · rw [if_neg h, jumps_append, iha, ihr]
  | bcons lbl b r ihb ihr =>
    intro stk st
    unfold emit branches
    simp only []
    by_cases h : inj = true ∧ (emit main inj b stk st).2.cur = main
    · rw [if_pos h]; simp [jumps, jumps_append, jumps_blockLabel, ihb, ihr]
    · rw [if_neg h]; simp [jumps, jumps_append, jumps_blockLabel, ihb, ihr]
  | hcons hid lbl f r n ihf _ ihn => intro stk st; unfold emit branches; simp [jumps, jumps_append, jumps_blockLabel, ihf, ihn]
  | scons ls b r ihb ihr => intro stk st; unfold emit branches; simp only []; rw [List.cons_append, jumps_caseHead, jumps_append, jumps_append, jumps_semiSec, ihb, ← ihr stk (emit main inj b stk st).2]; rfl

/-- C93: the text jumps exactly where the instructions branch, in order, and every label it jumps to is defined in it, in a method whose
branches go to blocks that are written and are not a single leave. -/
theorem C93_targets_partial (main : Nat) (inj : Bool) (blocks : IL)
    (hb : ∀ l ∈ branches blocks, (∃ b, (l, b) ∈ visited blocks) ∧ ∀ b, (l, b) ∈ visited blocks → ¬ LoneLeave b) :
    jumps (emitMain main inj blocks) = branches blocks ∧ ∀ l ∈ jumps (emitMain main inj blocks), l ∈ labels (emitMain main inj blocks) := by
  have e : jumps (emitMain main inj blocks) = branches blocks := jumps_emit main inj (.container main blocks) [] ⟨0, main⟩
  refine ⟨e, ?_⟩
  rw [e]
  intro l h
  obtain ⟨⟨b, hv⟩, hl⟩ := hb l h
  exact labels_emit main inj l (.container main blocks) (fun p hp e => hl p.2 (by rw [← e]; exact hp)) [] ⟨0, main⟩ (l, b) hv rfl

example : jumps (emitMain 9 false loopMethod) = [5] ∧ ∀ l ∈ jumps (emitMain 9 false loopMethod), l ∈ labels (emitMain 9 false loopMethod) :=
  C93_targets_partial 9 false loopMethod (by
    intro l h
    simp [loopMethod, branches] at h
    subst h
    refine ⟨⟨_, by simp [loopMethod, visited]; rfl⟩, ?_⟩
    intro b hb
    simp [loopMethod, visited] at hb
    rw [hb]
    rintro ⟨_, _, _, e⟩
    simp at e)

/-- C93 fails: a branch to a block that consists of a single `return` jumps to a label that is never defined. -/
theorem C93_lone_return_refuted : ∃ blocks, (∀ l ∈ branches blocks, ∃ b, (l, b) ∈ visited blocks) ∧
    7 ∈ jumps (emitMain 9 false blocks) ∧ 7 ∉ labels (emitMain 9 false blocks) := by
  refine ⟨.bcons 0 (.cons (.ite 1 (.branch 7) .nop) (.cons (.act 2) (.cons (.branch 7) .nil)))
    (.bcons 7 (.cons (.leave 9 0 none) .nil) .bnil), ?_, by decide +kernel, by decide +kernel⟩
  intro l h
  simp [branches] at h
  exact ⟨.cons (.leave 9 0 none) .nil, by rw [h]; simp [visited]⟩

end Verif.Stmt
