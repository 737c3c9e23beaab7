import Verif.FlowSpec
/-!
# C101: the statements written for a method do what the method's instructions do
-/
namespace Verif.Stmt

variable {σ ε : Type}

/-! ## The text as a tree -/

def semiC : IL → CS
  | .block _ | .act _ | .leave _ _ _ | .branch _ => .nil
  | _ => .semi .nil

def secC (b : IL) (K : CS) : CS := if ended b then K else .semi K

theorem secC_flat (b : IL) (K : CS) : (secC b K).flat = semiSec b ++ K.flat := by
  unfold secC semiSec
  split <;> rfl

theorem semiC_flat (t : IL) : (semiC t).flat = semiIf t := by
  cases t <;> rfl

def lblC (lbl : Nat) (b : IL) (K : CS) : CS := if blockLabel lbl b = [] then K else .label (.blockLabel lbl) K

theorem lblC_flat (lbl : Nat) (b : IL) (K : CS) : (lblC lbl b K).flat = blockLabel lbl b ++ K.flat := by
  unfold lblC
  rcases blockLabel_cases lbl b with h | h
  · rw [if_pos h.1, h.1]; rfl
  · rw [if_neg (by rw [h.1]; simp), h.1]; rfl

/-- The statements written for an instruction, followed by `K`. -/
def tr (main : Nat) : IL → List Nat → St → CS → CS
  | .nop, _, _, K => K
  | .act k, _, _, K => .text k K
  | .silent _, _, _, K => K
  | .leave t e v, stk, _, K => if e = 0 then .ret t v K else .jump (.goto t (stk.headD 0)) K
  | .branch l, _, _, K => .jump (.jump l) K
  | .ite c t f, stk, st, K =>
    if f = .nop then .ite c (tr main t stk st (semiC t)) K
    else .iteElse c (tr main t stk st (semiC t)) (tr main f stk (emit main false t stk st).2 (semiC f)) K
  | .block b, stk, st, K => tr main b stk st K
  | .container id bs, stk, st, K =>
    tr main bs ((st.n + 1) :: stk) ⟨st.n + 1, id⟩ (if id ≠ main ∧ leaves id bs = true then .label (.leaveLabel [id] (st.n + 1)) K else K)
  | .tryCatch tid lbl f _ hs, stk, st, K =>
    .tryc (lblC lbl f (tr main f ((st.n + 1) :: stk) ⟨st.n + 1, st.cur⟩ .nil))
      (tr main hs ((st.n + 1) :: stk) (emit main false f ((st.n + 1) :: stk) ⟨st.n + 1, st.cur⟩).2 .nil)
      (.label (.leaveLabel (tid :: handlerIds hs) (st.n + 1)) (.semi K))
  | .switch v ss, stk, st, K => .switch v (tr main ss stk st .nil) K
  | .nil, _, _, K => K
  | .cons a r, stk, st, K => tr main a stk st (tr main r stk (emit main false a stk st).2 K)
  | .bnil, _, _, K => K
  | .bcons lbl b r, stk, st, K => .group (lblC lbl b (tr main b stk st .nil)) (tr main r stk (emit main false b stk st).2 K)
  | .hnil, _, _, K => K
  | .hcons hid lbl f _ n, stk, st, K => .catch hid (lblC lbl f (tr main f stk st .nil)) (tr main n stk (emit main false f stk st).2 K)
  | .snil, _, _, K => K
  | .scons ls b r, stk, st, K => .case (caseHead ls) (tr main b stk st (secC b (tr main r stk (emit main false b stk st).2 K)))

theorem dropped_false (a r : IL) : ¬ dropped false a r = true := by
  unfold dropped
  split <;> simp

theorem tr_flat (main : Nat) (il : IL) : ∀ stk st K, (tr main il stk st K).flat = (emit main false il stk st).1 ++ K.flat := by
  induction il with
  | nop | silent b _ | nil | bnil | hnil | snil | act k | branch l => intro stk st K; rfl
  | leave t e v =>
    intro stk st K
    unfold tr
    conv => rhs; unfold emit
    by_cases h : e = 0
    · rw [if_pos h]; simp only [h, if_true]; rfl
    · rw [if_neg h]; simp only [h, if_false]; rfl
  | ite c t f iht ihf =>
    intro stk st K
    unfold tr
    conv => rhs; unfold emit
    simp only []
    by_cases h : f = .nop
    · rw [if_pos h, if_pos h]
      simp [CS.flat, iht, semiC_flat]
    · rw [if_neg h, if_neg h]
      simp [CS.flat, iht, ihf, semiC_flat]
  | block b ih => intro stk st K; exact ih stk st K
  | container id bs ih =>
    intro stk st K
    unfold tr
    conv => rhs; unfold emit
    simp only []
    rw [ih]
    by_cases h : id ≠ main ∧ leaves id bs = true
    · rw [if_pos h, if_pos h]; simp [CS.flat]
    · rw [if_neg h, if_neg h]; simp
  | tryCatch tid lbl f r hs ihf _ ihh =>
    intro stk st K
    unfold tr
    conv => rhs; unfold emit
    simp [CS.flat, lblC_flat, ihf, ihh]
  | switch v ss ih =>
    intro stk st K
    unfold tr
    conv => rhs; unfold emit
    simp [CS.flat, ih]
  | cons a r iha ihr =>
    intro stk st K
    unfold tr
    conv => rhs; unfold emit
    rw [if_neg (dropped_false a r), iha, ihr]
    simp
  | bcons lbl b r ihb ihr =>
    intro stk st K
    unfold tr
    conv => rhs; unfold emit
    simp [CS.flat, lblC_flat, ihb, ihr]
  | hcons hid lbl f r n ihf _ ihn =>
    intro stk st K
    unfold tr
    conv => rhs; unfold emit
    simp [CS.flat, lblC_flat, ihf, ihn]
  | scons ls b r ihb ihr =>
    intro stk st K
    unfold tr
    conv => rhs; unfold emit
    simp [CS.flat, ihb, ihr, secC_flat]

/-! ## Refinement -/

/-- The second run is the first one, unless the first is stuck. -/
def Le (a b : Out σ ε) : Prop := a = .stuck ∨ a = b
def KLe (k k' : Cont σ ε) : Prop := ∀ s, Le (k s) (k' s)
def HLe (h h' : HCont σ ε) : Prop := ∀ x s, Le (h x s) (h' x s)
def OLe : Option (Cont σ ε) → Option (Cont σ ε) → Prop
  | none, none => True
  | some k, some k' => KLe k k'
  | _, _ => False

theorem Le.refl (a : Out σ ε) : Le a a := .inr rfl
theorem KLe.stuck (k : Cont σ ε) : KLe stuckK k := fun _ => .inl rfl
theorem OLe.none : OLe (σ := σ) (ε := ε) none none := trivial

theorem leave_le (I : Interp σ ε) (v : Option Nat) {h h' : HCont σ ε} (hh : HLe h h') : KLe (I.leave v h) (I.leave v h') := by
  intro s
  unfold Interp.leave
  cases v with
  | none => exact Le.refl _
  | some v =>
    cases e : I.ret v s with
    | ok x s => simp only [e]; exact Le.refl _
    | raise x s => simp only [e]; exact hh x s

theorem exec_secC (I : Interp σ ε) (J : Item → Cont σ ε) (b : IL) (K : CS) (h : HCont σ ε) (k : Cont σ ε) : execC I J (secC b K) h k = execC I J K h k := by
  unfold secC
  split
  · rfl
  · funext s; rw [execC]

theorem case_secC (I : Interp σ ε) (J : Item → Cont σ ε) (i : Item) (b : IL) (K : CS) (h : HCont σ ε) (k : Cont σ ε) : atCase I J i (secC b K) h k = atCase I J i K h k := by
  unfold secC
  split
  · rfl
  · rw [atCase]

theorem enter_secC (I : Interp σ ε) (J : Item → Cont σ ε) (p : Item → Bool) (b : IL) (K : CS) (h : HCont σ ε) (k : Cont σ ε) : enterC I J p (secC b K) h k = enterC I J p K h k := by
  unfold secC
  split
  · rfl
  · rw [enterC]

theorem wf_secC {b : IL} {K : CS} (h : K.WF) : (secC b K).WF := by
  unfold secC
  split
  · exact h
  · exact h

theorem OLe.or {a b a' b' : Option (Cont σ ε)} (h : OLe a a') (h' : OLe b b') : OLe (a.or b) (a'.or b') := by
  cases a <;> cases a' <;> first | exact h' | exact h | exact h.elim

/-- Jumps of the text do what the jumps of the instructions do. -/
def JLe (JI : Tgt → Cont σ ε) (JC : Item → Cont σ ε) (o : List Item) : Prop :=
  (∀ t n, Item.goto t n ∈ o → KLe (JI (.after t)) (JC (.goto t n))) ∧ ∀ l, Item.jump l ∈ o → KLe (JI (.block l)) (JC (.jump l))

theorem JLe.mono {JI : Tgt → Cont σ ε} {JC : Item → Cont σ ε} {o o' : List Item} (h : JLe JI JC o) (hs : ∀ i ∈ o', i ∈ o) : JLe JI JC o' :=
  ⟨fun t n hi => h.1 t n (hs _ hi), fun l hi => h.2 l (hs _ hi)⟩

/-! ## Instructions that do not come to their end -/

theorem exec_indep (I : Interp σ ε) (main : Nat) (J : Tgt → Cont σ ε) (il : IL) : falls il = false → ∀ h k k',
    (exec I main J il h k = exec I main J il h k') ∧ ∀ x, select I main J il x h k = select I main J il x h k' := by
  induction il with
  | nop | act _ | nil | tryCatch _ _ _ _ _ _ _ _ => intro h; cases h
  | silent b _ | leave t e v | branch l | bnil | hnil | snil => intro _ h k k'; exact ⟨rfl, fun _ => rfl⟩
  | container id bs _ | bcons _ _ _ _ _ | hcons _ _ _ _ _ _ _ _ => intro _ h k k'; exact ⟨rfl, fun _ => rfl⟩
  | ite c t f iht ihf =>
    intro hf h k k'
    simp only [falls, Bool.or_eq_false_iff] at hf
    refine ⟨?_, fun _ => rfl⟩
    funext s
    simp only [exec]
    rw [(iht hf.1 h k k').1, (ihf hf.2 h k k').1]
  | block b ih =>
    intro hf h k k'
    exact ⟨by funext s; simp only [exec]; rw [(ih hf h k k').1], fun _ => rfl⟩
  | switch v ss ih =>
    intro hf h k k'
    refine ⟨?_, fun _ => rfl⟩
    funext s
    simp only [exec]
    cases I.val v s with
    | ok x s => simp only []; rw [(ih hf h k k').2 x]
    | raise x s => rfl
  | cons a r iha ihr =>
    intro hf h k k'
    refine ⟨?_, fun _ => rfl⟩
    unfold falls at hf
    funext s
    simp only [exec]
    by_cases hr : r = .nil
    · subst hr
      rw [if_pos rfl] at hf
      rw [(iha hf h _ (fun s => exec I main J .nil h k' s)).1]
    · rw [if_neg hr] at hf
      rw [(ihr hf h k k').1]
  | scons ls b r ihb ihr =>
    intro hf h k k'
    simp only [falls, Bool.or_eq_false_iff] at hf
    refine ⟨rfl, fun x => ?_⟩
    funext s
    simp only [select]
    rw [(ihb hf.1 h k k').1, (ihr hf.2 h k k').2 x]

/-- Every container `t` is left by some instruction. -/
def Live (t : Nat) : IL → Prop
  | .nop | .act _ | .leave _ _ _ | .branch _ | .nil | .bnil | .hnil | .snil | .silent _ => True
  | .ite _ a b => Live t a ∧ Live t b
  | .block b => Live t b
  | .container id b => (id = t → leaves t b = true) ∧ Live t b
  | .tryCatch _ _ f _ h => Live t f ∧ Live t h
  | .switch _ s => Live t s
  | .cons a r => Live t a ∧ Live t r
  | .bcons _ b r => Live t b ∧ Live t r
  | .hcons _ _ f _ n => Live t f ∧ Live t n
  | .scons _ b r => Live t b ∧ Live t r

def LiveG (g : Tgt) (il : IL) : Prop := ∀ t, g = .after t → Live t il

theorem enter_indep (I : Interp σ ε) (main : Nat) (J : Tgt → Cont σ ε) (g : Tgt) (il : IL) : falls il = false → LiveG g il → ∀ h k k',
    enter I main J g il h k = enter I main J g il h k' := by
  induction il with
  | nop | act _ | nil | tryCatch _ _ _ _ _ _ _ _ => intro h; cases h
  | silent b _ | leave t e v | branch l | bnil | hnil | snil => intro _ _ h k k'; rfl
  | container id bs _ =>
    intro hf hl h k k'
    unfold enter
    rw [if_neg, if_neg]
    · rintro rfl
      have := (hl _ rfl).1 rfl
      simp only [falls] at hf
      rw [hf] at this; cases this
    · rintro rfl
      have := (hl _ rfl).1 rfl
      simp only [falls] at hf
      rw [hf] at this; cases this
  | ite c t f iht ihf =>
    intro hf hl h k k'
    simp only [falls, Bool.or_eq_false_iff] at hf
    unfold enter
    rw [iht hf.1 (fun t e => (hl t e).1) h k k', ihf hf.2 (fun t e => (hl t e).2) h k k']
  | block b ih => intro hf hl h k k'; exact ih hf hl h k k'
  | switch v ss ih => intro hf hl h k k'; exact ih hf hl h k k'
  | cons a r iha ihr =>
    intro hf hl h k k'
    unfold falls at hf
    unfold enter
    by_cases hr : r = .nil
    · subst hr
      rw [if_pos rfl] at hf
      rw [iha hf (fun t e => (hl t e).1) h _ (exec I main J .nil h k')]
      rfl
    · rw [if_neg hr] at hf
      rw [ihr hf (fun t e => (hl t e).2) h k k', (exec_indep I main J r hf h k k').1]
  | bcons lbl b r _ ihr =>
    intro hf hl h k k'
    unfold enter
    rw [ihr hf (fun t e => (hl t e).2) h k k']
  | hcons hid lbl f r n _ _ ihn =>
    intro hf hl h k k'
    unfold enter
    rw [ihn hf (fun t e => (hl t e).2) h k k']
  | scons ls b r ihb ihr =>
    intro hf hl h k k'
    simp only [falls, Bool.or_eq_false_iff] at hf
    unfold enter
    rw [ihb hf.1 (fun t e => (hl t e).1) h k k', ihr hf.2 (fun t e => (hl t e).2) h k k']

/-! ## Sections of a switch -/

/-- No part of a statement belongs to an enclosing switch. -/
theorem atCase_tr (I : Interp σ ε) (JC : Item → Cont σ ε) (i : Item) (main : Nat) (il : IL) : ∀ kd, Shape kd il → (match kd with | .handlers | .sections => False | _ => True) →
    ∀ stk st K h k, atCase I JC i (tr main il stk st K) h k = atCase I JC i K h k := by
  have hsemi : ∀ t h k, atCase I JC i (semiC t) h k = none := by intro t h k; cases t <;> rfl
  have hlbl : ∀ lbl b K h k, atCase I JC i (lblC lbl b K) h k = atCase I JC i K h k := by
    intro lbl b K h k; unfold lblC; split <;> rfl
  induction il with
  | nop | silent b _ | nil | bnil | hnil | snil | act k | branch l => intro kd _ _ stk st K h k; rfl
  | leave t e v =>
    intro kd _ _ stk st K h k
    unfold tr
    by_cases h : e = 0
    · rw [if_pos h]; rfl
    · rw [if_neg h]; rfl
  | ite c t f iht ihf =>
    intro kd hs hk stk st K h k
    cases kd <;> try exact hs.elim
    unfold tr
    by_cases hf : f = .nop
    · rw [if_pos hf, atCase, iht _ hs.1 trivial, hsemi]; rfl
    · rw [if_neg hf, atCase, iht _ hs.1 trivial, hsemi, ihf _ hs.2 trivial, hsemi]; rfl
  | block b ih =>
    intro kd hs hk stk st K h k
    cases kd <;> try exact hs.elim
    exact ih _ hs trivial stk st K h k
  | container id bs ih =>
    intro kd hs hk stk st K h k
    cases kd <;> try exact hs.elim
    unfold tr
    rw [ih _ hs trivial]
    split <;> rfl
  | tryCatch tid lbl f r hs ihf _ ihh =>
    intro kd hs' hk stk st K h k
    cases kd <;> try exact hs'.elim
    unfold tr
    rw [atCase, hlbl, ihf _ hs'.1 trivial]
    rfl
  | switch v ss ih => intro kd _ _ stk st K h k; rfl
  | cons a r iha ihr =>
    intro kd hs hk stk st K h k
    cases kd <;> try exact hs.elim
    unfold tr
    rw [iha _ hs.1 trivial, ihr _ hs.2 trivial]
  | bcons lbl b r ihb ihr =>
    intro kd hs hk stk st K h k
    cases kd <;> try exact hs.elim
    unfold tr
    rw [atCase, hlbl, ihb _ hs.1 trivial, ihr _ hs.2 trivial]
    rfl
  | hcons hid lbl f r n ihf _ ihn =>
    intro kd hs hk stk st K h k
    cases kd <;> first | exact hs.elim | exact hk.elim
  | scons ls b r ihb ihr =>
    intro kd hs hk stk st K h k
    cases kd <;> first | exact hs.elim | exact hk.elim

/-- The first section with a property of its labels. -/
def selBy (I : Interp σ ε) (main : Nat) (J : Tgt → Cont σ ε) (q : LongSet → Bool) : IL → HCont σ ε → Cont σ ε → Option (Cont σ ε)
  | .scons ls b r, h, k => if q ls = true then some (exec I main J b h k) else selBy I main J q r h k
  | _, _, _ => none

theorem selBy_eq (I : Interp σ ε) (main : Nat) (J : Tgt → Cont σ ε) (q : LongSet → Bool) (h : HCont σ ε) (k : Cont σ ε) (il : IL) :
    selBy I main J q il h k = ((sectionsOf il).findIdx? fun p => q p.1).bind fun i => (sectionsOf il)[i]?.map fun p => exec I main J p.2 h k := by
  induction il with
  | scons ls b r _ ihr =>
    unfold selBy sectionsOf
    by_cases hq : q ls = true
    · simp [hq, List.findIdx?_cons]
    · simp only [hq]
      rw [ihr, List.findIdx?_cons]
      simp only [hq]
      cases hfi : (sectionsOf r).findIdx? fun p => q p.1 with
      | none => simp
      | some i => simp
  | _ => rfl

theorem select_eq (I : Interp σ ε) (main : Nat) (J : Tgt → Cont σ ε) (x : Int) (h : HCont σ ε) (k : Cont σ ε) (s : σ) (il : IL) :
    select I main J il x h k s = match selBy I main J (fun ls => decide (ls.has x)) il h k with
      | some k' => k' s
      | none => .stuck := by
  induction il with
  | scons ls b r _ ihr =>
    unfold select selBy
    by_cases hq : ls.has x
    · simp [hq]
    · simp only [hq, if_false, decide_false]
      rw [ihr]; rfl
  | _ => rfl

/-- With one label per section, the section that C++ selects is the right one. -/
theorem select_cpp {ss : IL} (hwf : (sectionsOf ss).WF) (h1 : ∀ p ∈ sectionsOf ss, p.1.has (-2 ^ 63) ∨ ∃ v, p.1 = [(v, v)]) (x : Int) (i : Nat)
    (hi : ilSelect (sectionsOf ss) x = some i) : cppSelect (headsOf (sectionsOf ss)) x = some i := by
  obtain ⟨hlt, hp, _⟩ := List.findIdx?_eq_some_iff_getElem.mp hi
  have hp : (sectionsOf ss)[i].1.has x := by simpa using hp
  obtain ⟨_, h2⟩ := C61_selects_partial (sectionsOf ss) hwf i hlt x hp
  rw [h2.mpr, hi]
  rcases h1 _ (List.getElem_mem hlt) with h | ⟨v, hv⟩
  · exact .inr h
  · left
    rw [hv] at hp ⊢
    obtain ⟨q, hq, hq1, hq2⟩ := hp
    simp only [List.mem_singleton] at hq
    subst hq
    have : x = v := Int.le_antisymm hq2 hq1
    subst this
    refine ⟨⟨_, List.mem_singleton.mpr rfl, Int.le_refl _, Int.le_refl _⟩, ?_⟩
    rintro u ⟨q, hq, hq1, _⟩
    simp only [List.mem_singleton] at hq
    subst hq
    exact hq1

/-! ## The simulation -/

theorem handlerIds_ids (il : IL) : ∀ t ∈ handlerIds il, t ∈ ids il := by
  induction il with
  | hcons hid lbl f r n _ _ ihn =>
    intro t ht
    simp only [handlerIds, List.mem_cons] at ht
    simp only [ids, List.mem_cons, List.mem_append]
    rcases ht with h | h
    · exact .inl (.inl (.inl h))
    · exact .inr (ihn t h)
  | _ => intro t ht; simp [handlerIds] at ht

theorem mem_lbl {lbl : Nat} {b : IL} {l : Nat} : (Item.jump l ∉ blockLabel lbl b) := by
  rcases blockLabel_cases lbl b with h | h <;> rw [h.1] <;> simp

theorem exec_sim (I : Interp σ ε) (main : Nat) (JI : Tgt → Cont σ ε) (JC : Item → Cont σ ε) (il : IL) : ∀ kd, Shape kd il → ∀ fr stk st,
    Innermost main fr il → main ∉ fr → main ∉ ids il → JLe JI JC (emit main false il stk st).1 → ∀ hI hC, HLe hI hC →
    ((match kd with | .handlers | .sections => False | _ => True) → ∀ K kI kC, KLe kI (execC I JC K hC kC) →
      KLe (exec I main JI il hI kI) (execC I JC (tr main il stk st K) hC kC)) ∧
    (kd = .handlers → ∀ kC, HLe (handle I main JI il hI) (handleC I JC (tr main il stk st .nil) hC kC)) ∧
    (kd = .sections → ∀ i kI kC, KLe kI kC →
      OLe (selBy I main JI (fun ls => caseHead ls = i) il hI kI) (atCase I JC i (tr main il stk st .nil) hC kC)) := by
  have hsemi : ∀ t h k s, execC I JC (semiC t) h k s = k s := by intro t h k s; cases t <;> rfl
  have hlbl : ∀ lbl b K h k s, execC I JC (lblC lbl b K) h k s = execC I JC K h k s := by
    intro lbl b K h k; unfold lblC; split <;> exact fun _ => rfl
  induction il with
  | nop | nil =>
    intro kd hs fr stk st hin hfr hid hj hI hC hh
    refine ⟨fun _ K kI kC hk s => hk s, ?_, ?_⟩ <;> rintro rfl <;> exact hs.elim
  | silent b _ | bnil =>
    intro kd hs fr stk st hin hfr hid hj hI hC hh
    refine ⟨fun _ K kI kC hk s => .inl rfl, ?_, ?_⟩ <;> rintro rfl <;> exact hs.elim
  | hnil =>
    intro kd hs fr stk st hin hfr hid hj hI hC hh
    refine ⟨fun _ K kI kC hk s => .inl rfl, ?_, ?_⟩
    · rintro rfl kC x s; exact hh x s
    · rintro rfl; exact hs.elim
  | snil =>
    intro kd hs fr stk st hin hfr hid hj hI hC hh
    refine ⟨fun _ K kI kC hk s => .inl rfl, ?_, ?_⟩
    · rintro rfl; exact hs.elim
    · rintro rfl i kI kC hk; trivial
  | act a =>
    intro kd hs fr stk st hin hfr hid hj hI hC hh
    refine ⟨fun _ K kI kC hk s => ?_, ?_, ?_⟩
    · unfold tr
      rw [exec, execC]
      cases I.act a s with
      | ok _ s => exact hk s
      | raise x s => exact hh x s
    all_goals (rintro rfl; exact hs.elim)
  | branch l =>
    intro kd hs fr stk st hin hfr hid hj hI hC hh
    refine ⟨fun _ K kI kC hk s => ?_, ?_, ?_⟩
    · exact hj.2 l (by simp [emit]) s
    all_goals (rintro rfl; exact hs.elim)
  | leave t e v =>
    intro kd hs fr stk st hin hfr hid hj hI hC hh
    refine ⟨fun _ K kI kC hk s => ?_, ?_, ?_⟩
    · unfold tr
      unfold Innermost at hin
      rw [exec]
      by_cases h : e = 0
      · rw [if_pos h] at hin ⊢
        rw [if_pos hin, execC]; exact leave_le I v hh s
      · rw [if_neg h] at hin ⊢
        rw [if_neg (fun hm => hfr (by rw [← hm]; exact hin)), execC]
        exact hj.1 t _ (by simp [emit, h]) s
    all_goals (rintro rfl; exact hs.elim)
  | ite c t f iht ihf =>
    intro kd hs fr stk st hin hfr hid hj hI hC hh
    refine ⟨fun _ K kI kC hk s => ?_, ?_, ?_⟩
    · cases kd <;> try exact hs.elim
      simp only [ids, List.mem_append, not_or] at hid
      unfold emit at hj
      simp only [] at hj
      unfold tr
      have it : KLe (exec I main JI t hI kI) (execC I JC (tr main t stk st (semiC t)) hC fun s => execC I JC K hC kC s) :=
        (iht _ hs.1 fr stk st hin.1 hfr hid.1 (hj.mono (by intro i hi; simp [hi])) hI hC hh).1 trivial _ _ _ (fun s => by rw [hsemi]; exact hk s)
      by_cases hf : f = .nop
      · rw [if_pos hf]
        rw [exec, execC]
        cases I.cond c s with
        | raise x s => exact hh x s
        | ok b s =>
          cases b with
          | true => exact it s
          | false => subst hf; exact hk s
      · rw [if_neg hf]
        rw [if_neg hf] at hj
        have if' : KLe (exec I main JI f hI kI) (execC I JC (tr main f stk (emit main false t stk st).2 (semiC f)) hC fun s => execC I JC K hC kC s) :=
          (ihf _ hs.2 fr stk _ hin.2 hfr hid.2 (hj.mono (by intro i hi; simp [hi])) hI hC hh).1 trivial _ _ _ (fun s => by rw [hsemi]; exact hk s)
        rw [exec, execC]
        cases I.cond c s with
        | raise x s => exact hh x s
        | ok b s =>
          cases b with
          | true => exact it s
          | false => exact if' s
    all_goals (rintro rfl; exact hs.elim)
  | block b ih =>
    intro kd hs fr stk st hin hfr hid hj hI hC hh
    refine ⟨fun _ K kI kC hk s => ?_, ?_, ?_⟩
    · cases kd <;> try exact hs.elim
      exact (ih _ hs fr stk st hin hfr hid hj hI hC hh).1 trivial K kI kC hk s
    all_goals (rintro rfl; exact hs.elim)
  | container id bs ih =>
    intro kd hs fr stk st hin hfr hid hj hI hC hh
    refine ⟨fun _ K kI kC hk s => ?_, ?_, ?_⟩
    · cases kd <;> try exact hs.elim
      simp only [ids, List.mem_cons, not_or] at hid
      unfold emit at hj
      simp only [] at hj
      exact (ih _ hs [id] _ _ hin (by simpa using hid.1) hid.2 (hj.mono (by intro i hi; simp [hi])) hI hC hh).1 trivial _ _ kC (KLe.stuck _) s
    all_goals (rintro rfl; exact hs.elim)
  | tryCatch tid lbl f r hs ihf _ ihh =>
    intro kd hs' fr stk st hin hfr hid hj hI hC hh
    refine ⟨fun _ K kI kC hk s => ?_, ?_, ?_⟩
    · cases kd <;> try exact hs'.elim
      simp only [ids, List.mem_cons, List.mem_append, not_or] at hid
      unfold emit at hj
      simp only [] at hj
      have hfr' : main ∉ tid :: handlerIds hs := by
        simp only [List.mem_cons, not_or]
        exact ⟨hid.1.1.1, fun h => hid.2 (handlerIds_ids hs _ h)⟩
      unfold tr
      rw [exec, execC, hlbl]
      refine (ihf _ hs'.1 _ _ _ hin.1 hfr' hid.1.1.2 (hj.mono (by intro i hi; simp [hi])) _ _ ?_).1 trivial _ _ _ (KLe.stuck _) s
      intro x s
      exact (ihh _ hs'.2.2 _ _ _ hin.2 hfr' hid.2 (hj.mono (by intro i hi; simp [hi])) hI hC hh).2.1 rfl _ x s
    all_goals (rintro rfl; exact hs'.elim)
  | switch v ss ih =>
    intro kd hs fr stk st hin hfr hid hj hI hC hh
    refine ⟨fun _ K kI kC hk s => ?_, ?_, ?_⟩
    · cases kd <;> try exact hs.elim
      unfold emit at hj
      simp only [] at hj
      have ih' := fun i => (ih _ hs.1 fr stk st hin hfr hid (hj.mono (by intro i hi; simp [hi])) hI hC hh).2.2 rfl i kI _ hk
      unfold tr
      rw [exec, execC]
      cases I.val v s with
      | raise x s => exact hh x s
      | ok x s =>
        simp only []
        rw [select_eq]
        have hor := OLe.or (ih' (.caseHead x)) (ih' .defaultHead)
        cases hi : ilSelect (sectionsOf ss) x with
        | none =>
          left
          unfold ilSelect at hi
          rw [selBy_eq, hi]
          rfl
        | some i =>
          have hc := select_cpp hs.2.1 hs.2.2 x i hi
          have e : selBy I main JI (fun ls => decide (ls.has x)) ss hI kI =
              (selBy I main JI (fun ls => decide (caseHead ls = .caseHead x)) ss hI kI).or (selBy I main JI (fun ls => decide (caseHead ls = .defaultHead)) ss hI kI) := by
            rw [selBy_eq, selBy_eq, selBy_eq]
            unfold ilSelect at hi
            rw [hi]
            unfold cppSelect headsOf at hc
            rw [List.findIdx?_map, List.findIdx?_map] at hc
            simp only [Function.comp_def] at hc
            obtain ⟨hlt, _, _⟩ := List.findIdx?_eq_some_iff_getElem.mp hi
            cases h1 : List.findIdx? (fun p => decide (caseHead p.1 = Item.caseHead x)) (sectionsOf ss) with
            | none =>
              rw [h1, Option.none_or] at hc
              rw [hc]; rfl
            | some j =>
              rw [h1, Option.some_or] at hc
              rw [hc]
              simp [List.getElem?_eq_getElem hlt]
          rw [e]
          revert hor
          cases (selBy I main JI (fun ls => decide (caseHead ls = .caseHead x)) ss hI kI).or (selBy I main JI (fun ls => decide (caseHead ls = .defaultHead)) ss hI kI) <;>
          cases (atCase I JC (Item.caseHead x) (tr main ss stk st CS.nil) hC fun s => execC I JC K hC kC s).or
                (atCase I JC Item.defaultHead (tr main ss stk st CS.nil) hC fun s => execC I JC K hC kC s)
          · intro _; exact .inl rfl
          · intro h; exact h.elim
          · intro h; exact h.elim
          · intro h; exact h s
    all_goals (rintro rfl; exact hs.elim)
  | cons a r iha ihr =>
    intro kd hs fr stk st hin hfr hid hj hI hC hh
    refine ⟨fun _ K kI kC hk s => ?_, ?_, ?_⟩
    · cases kd <;> try exact hs.elim
      simp only [ids, List.mem_append, not_or] at hid
      unfold emit at hj
      rw [if_neg (dropped_false a r)] at hj
      simp only [] at hj
      unfold tr
      rw [exec]
      refine (iha _ hs.1 fr stk st hin.1 hfr hid.1 (hj.mono (by intro i hi; simp [hi])) hI hC hh).1 trivial _ _ _ ?_ s
      exact (ihr _ hs.2 fr stk _ hin.2 hfr hid.2 (hj.mono (by intro i hi; simp [hi])) hI hC hh).1 trivial _ _ _ hk
    all_goals (rintro rfl; exact hs.elim)
  | bcons lbl b r ihb ihr =>
    intro kd hs fr stk st hin hfr hid hj hI hC hh
    refine ⟨fun _ K kI kC hk s => ?_, ?_, ?_⟩
    · cases kd <;> try exact hs.elim
      simp only [ids, List.mem_append, not_or] at hid
      unfold emit at hj
      simp only [] at hj
      unfold tr
      rw [exec, execC, hlbl]
      exact (ihb _ hs.1 fr stk st hin.1 hfr hid.1 (hj.mono (by intro i hi; simp [hi])) hI hC hh).1 trivial _ _ _ (KLe.stuck _) s
    all_goals (rintro rfl; exact hs.elim)
  | hcons hid' lbl f r n ihf _ ihn =>
    intro kd hs fr stk st hin hfr hid hj hI hC hh
    refine ⟨?_, ?_, ?_⟩
    · cases kd <;> first | exact hs.elim | exact fun h => h.elim
    · rintro rfl kC x s
      simp only [ids, List.mem_cons, List.mem_append, not_or] at hid
      unfold emit at hj
      simp only [] at hj
      unfold tr
      rw [handle, handleC]
      by_cases hx : I.catches hid' x = true
      · rw [if_pos hx, if_pos hx, hlbl]
        exact (ihf _ hs.1 fr stk st hin.1 hfr hid.1.1.2 (hj.mono (by intro i hi; simp [hi])) hI hC hh).1 trivial _ _ _ (KLe.stuck _) _
      · rw [if_neg hx, if_neg hx]
        exact (ihn _ hs.2.2 fr stk _ hin.2 hfr hid.2 (hj.mono (by intro i hi; simp [hi])) hI hC hh).2.1 rfl kC x s
    · rintro rfl; exact hs.elim
  | scons ls b r ihb ihr =>
    intro kd hs fr stk st hin hfr hid hj hI hC hh
    refine ⟨?_, ?_, ?_⟩
    · cases kd <;> first | exact hs.elim | exact fun h => h.elim
    · rintro rfl; exact hs.elim
    · rintro rfl i kI kC hk
      simp only [ids, List.mem_append, not_or] at hid
      unfold emit at hj
      simp only [] at hj
      have jb : JLe JI JC (emit main false b stk st).1 := hj.mono (by intro i hi; simp [hi])
      have hb := (ihb _ hs.1 fr stk st hin.1 hfr hid.1 jb hI hC hh).1 trivial
      have hr := (ihr _ hs.2.2 fr stk (emit main false b stk st).2 hin.2 hfr hid.2 (hj.mono (by intro i hi; simp [hi])) hI hC hh).2.2 rfl i kI kC hk
      unfold tr selBy
      rw [atCase, atCase_tr I JC i main b _ hs.1 trivial, case_secC]
      by_cases hq : caseHead ls = i
      · rw [if_pos (by simpa using hq), if_pos hq]
        intro s
        rcases hs.2.1 with hf | hf
        · rw [(exec_indep I main JI b hf hI kI stuckK).1]
          exact hb _ _ _ (KLe.stuck _) s
        · subst hf
          exact hb _ _ _ (by rw [exec_secC]; exact hk) s
      · rw [if_neg (by simpa using hq), if_neg hq]
        exact hr

/-- On the labels of the text, `p` holds for the target of the jump. -/
def Match (g : Tgt) (p : Item → Bool) (o : List Item) : Prop :=
  (∀ l, Item.blockLabel l ∈ o → p (.blockLabel l) = decide (g = .block l)) ∧
    ∀ ow n, Item.leaveLabel ow n ∈ o → p (.leaveLabel ow n) = decide (g ∈ ow.map Tgt.after)

theorem Match.mono {g : Tgt} {p : Item → Bool} {o o' : List Item} (h : Match g p o) (hs : ∀ i ∈ o', i ∈ o) : Match g p o' :=
  ⟨fun l hi => h.1 l (hs _ hi), fun ow n hi => h.2 ow n (hs _ hi)⟩

/-- The blocks at which `g` may start are not single leaves. -/
def NoLone (g : Tgt) (il : IL) : Prop := ∀ q ∈ visited il, g = .block q.1 → ¬ LoneLeave q.2

/-- The start of a block. -/
theorem block_sim (I : Interp σ ε) (main : Nat) (JI : Tgt → Cont σ ε) (JC : Item → Cont σ ε) {g : Tgt} {p : Item → Bool} {lbl : Nat} {b : IL} {T : CS}
    {hI hC : HCont σ ε} {kC : Cont σ ε} (hl : g = .block lbl → ¬ LoneLeave b) (hm : Match g p (blockLabel lbl b))
    (he : KLe (exec I main JI b hI stuckK) (execC I JC T hC kC)) (hn : OLe (enter I main JI g b hI stuckK) (enterC I JC p T hC kC)) :
    OLe ((if g = .block lbl then some (exec I main JI b hI stuckK) else none).or (enter I main JI g b hI stuckK))
      (enterC I JC p (lblC lbl b T) hC kC) := by
  unfold lblC
  rcases blockLabel_cases lbl b with ⟨h, hb⟩ | ⟨h, hb⟩
  · rw [if_pos h]
    by_cases hg : g = .block lbl
    · rcases hb with hb | ⟨id, b', r', r, e⟩
      · exact absurd hb (hl hg)
      · rw [if_pos hg]
        have e' : enter I main JI g b hI stuckK = some (exec I main JI b hI stuckK) := by
          rw [e, enter, enter, enter, if_pos hg]
          rfl
        rw [e'] at hn
        exact hn
    · rw [if_neg hg]; exact hn
  · have hne : ¬ blockLabel lbl b = [] := by rw [h]; simp
    rw [if_neg hne, enterC, hm.1 lbl (by rw [h]; simp)]
    by_cases hg : g = .block lbl
    · rw [if_pos hg, if_pos (by simpa using hg)]
      exact he
    · rw [if_neg hg, if_neg (by simpa using hg)]
      exact hn

theorem enter_sim (I : Interp σ ε) (main : Nat) (JI : Tgt → Cont σ ε) (JC : Item → Cont σ ε) (g : Tgt) (p : Item → Bool) (il : IL) :
    ∀ kd, Shape kd il → ∀ fr stk st, Innermost main fr il → main ∉ fr → main ∉ ids il → JLe JI JC (emit main false il stk st).1 →
    Match g p (emit main false il stk st).1 → NoLone g il → LiveG g il → g ≠ .after main → ∀ hI hC, HLe hI hC →
    ((match kd with | .handlers => False | _ => True) → ∀ K kI kC X, KLe kI (execC I JC K hC kC) → OLe X (enterC I JC p K hC kC) →
      OLe ((enter I main JI g il hI kI).or X) (enterC I JC p (tr main il stk st K) hC kC)) ∧
    (kd = .handlers → ∀ kI kC, OLe (enter I main JI g il hI kI) (enterC I JC p (tr main il stk st .nil) hC kC)) := by
  have hsemi : ∀ t h k, enterC I JC p (semiC t) h k = none := by intro t h k; cases t <;> rfl
  have hsemi' : ∀ t h k s, execC I JC (semiC t) h k s = k s := by intro t h k s; cases t <;> rfl
  induction il with
  | nop | nil | silent b _ | bnil | act a | branch l =>
    intro kd hs fr stk st hin hfr hid hj hm hlo hli hgm hI hC hh
    refine ⟨fun _ K kI kC X hk hX => hX, ?_⟩
    rintro rfl; exact hs.elim
  | snil =>
    intro kd hs fr stk st hin hfr hid hj hm hlo hli hgm hI hC hh
    refine ⟨fun _ K kI kC X hk hX => hX, ?_⟩
    rintro rfl; exact hs.elim
  | hnil =>
    intro kd hs fr stk st hin hfr hid hj hm hlo hli hgm hI hC hh
    exact ⟨fun _ K kI kC X hk hX => hX, fun _ _ _ => trivial⟩
  | leave t e v =>
    intro kd hs fr stk st hin hfr hid hj hm hlo hli hgm hI hC hh
    refine ⟨fun _ K kI kC X hk hX => ?_, ?_⟩
    · unfold tr
      by_cases h : e = 0
      · rw [if_pos h]; exact hX
      · rw [if_neg h]; exact hX
    · rintro rfl; exact hs.elim
  | ite c t f iht ihf =>
    intro kd hs fr stk st hin hfr hid hj hm hlo hli hgm hI hC hh
    refine ⟨fun _ K kI kC X hk hX => ?_, ?_⟩
    · cases kd <;> try exact hs.elim
      simp only [ids, List.mem_append, not_or] at hid
      unfold emit at hj hm
      simp only [] at hj hm
      unfold tr enter
      have it := (iht _ hs.1 fr stk st hin.1 hfr hid.1 (hj.mono (by intro i hi; simp [hi])) (hm.mono (by intro i hi; simp [hi]))
        (fun q hq => hlo q (by simp [visited, hq])) (fun t e => (hli t e).1) hgm hI hC hh).1 trivial (semiC t) kI (execC I JC K hC kC) none
        (fun s => by rw [hsemi']; exact hk s) (by rw [hsemi]; trivial)
      rw [Option.or_none] at it
      by_cases hf : f = .nop
      · rw [if_pos hf, enterC, Option.or_assoc]
        refine it.or ?_
        subst hf
        exact hX
      · rw [if_neg hf]
        rw [if_neg hf] at hj hm
        have if' := (ihf _ hs.2 fr stk (emit main false t stk st).2 hin.2 hfr hid.2 (hj.mono (by intro i hi; simp [hi])) (hm.mono (by intro i hi; simp [hi]))
          (fun q hq => hlo q (by simp [visited, hq])) (fun t e => (hli t e).2) hgm hI hC hh).1 trivial (semiC f) kI (execC I JC K hC kC) none
          (fun s => by rw [hsemi']; exact hk s) (by rw [hsemi]; trivial)
        rw [Option.or_none] at if'
        rw [enterC, Option.or_assoc]
        exact it.or (if'.or hX)
    · rintro rfl; exact hs.elim
  | block b ih =>
    intro kd hs fr stk st hin hfr hid hj hm hlo hli hgm hI hC hh
    refine ⟨fun _ K kI kC X hk hX => ?_, ?_⟩
    · cases kd <;> try exact hs.elim
      exact (ih _ hs fr stk st hin hfr hid hj hm hlo hli hgm hI hC hh).1 trivial K kI kC X hk hX
    · rintro rfl; exact hs.elim
  | container id bs ih =>
    intro kd hs fr stk st hin hfr hid hj hm hlo hli hgm hI hC hh
    refine ⟨fun _ K kI kC X hk hX => ?_, ?_⟩
    · cases kd <;> try exact hs.elim
      simp only [ids, List.mem_cons, not_or] at hid
      unfold emit at hj hm
      simp only [] at hj hm
      unfold tr enter
      rw [Option.or_assoc]
      refine (ih _ hs [id] _ _ hin (by simpa using hid.1) hid.2 (hj.mono (by intro i hi; simp [hi])) (hm.mono (by intro i hi; simp [hi]))
        (fun q hq => hlo q (by simpa [visited] using hq)) (fun t e => (hli t e).2) hgm hI hC hh).1 trivial _ _ kC _ (KLe.stuck _) ?_
      by_cases h : id ≠ main ∧ leaves id bs = true
      · rw [if_pos h, enterC]
        rw [if_pos h] at hm
        rw [hm.2 [id] (st.n + 1) (by simp)]
        by_cases hg : g = .after id
        · rw [if_pos hg, if_pos (by simpa using hg)]
          exact hk
        · rw [if_neg hg, if_neg (by simpa using hg)]
          exact hX
      · rw [if_neg h, if_neg]
        · exact hX
        · intro hg
          refine h ⟨fun e => hgm (by rw [hg, e]), ?_⟩
          exact (hli id hg).1 rfl
    · rintro rfl; exact hs.elim
  | tryCatch tid lbl f r hs ihf _ ihh =>
    intro kd hs' fr stk st hin hfr hid hj hm hlo hli hgm hI hC hh
    refine ⟨fun _ K kI kC X hk hX => ?_, ?_⟩
    · cases kd <;> try exact hs'.elim
      simp only [ids, List.mem_cons, List.mem_append, not_or] at hid
      unfold emit at hj hm
      simp only [] at hj hm
      have hfr' : main ∉ tid :: handlerIds hs := by
        simp only [List.mem_cons, not_or]
        exact ⟨hid.1.1.1, fun h => hid.2 (handlerIds_ids hs _ h)⟩
      unfold tr enter
      rw [hs'.2.1]
      simp only [enterC, enter, Option.none_or, Option.or_assoc]
      have jf : JLe JI JC (emit main false f ((st.n + 1) :: stk) ⟨st.n + 1, st.cur⟩).1 := hj.mono (by intro i hi; simp [hi])
      have mf : Match g p (emit main false f ((st.n + 1) :: stk) ⟨st.n + 1, st.cur⟩).1 := hm.mono (by intro i hi; simp [hi])
      have jh : JLe JI JC (emit main false hs ((st.n + 1) :: stk) (emit main false f ((st.n + 1) :: stk) ⟨st.n + 1, st.cur⟩).2).1 :=
        hj.mono (by intro i hi; simp [hi])
      have mh : Match g p (emit main false hs ((st.n + 1) :: stk) (emit main false f ((st.n + 1) :: stk) ⟨st.n + 1, st.cur⟩).2).1 :=
        hm.mono (by intro i hi; simp [hi])
      have hh' : ∀ kC, HLe (fun x s => handle I main JI hs hI x s) (fun x s => handleC I JC (tr main hs ((st.n + 1) :: stk)
          (emit main false f ((st.n + 1) :: stk) ⟨st.n + 1, st.cur⟩).2 .nil) hC kC x s) := fun kC =>
        (exec_sim I main JI JC hs _ hs'.2.2 _ _ _ hin.2 hfr' hid.2 jh hI hC hh).2.1 rfl kC
      rw [← Option.or_assoc]
      refine OLe.or (block_sim I main JI JC (fun hg => hlo (lbl, f) (by simp [visited]) hg) (hm.mono (by intro i hi; simp [hi])) ?_ ?_) ?_
      · exact (exec_sim I main JI JC f _ hs'.1 _ _ _ hin.1 hfr' hid.1.1.2 jf _ _ (hh' _)).1 trivial _ _ _ (KLe.stuck _)
      · have := (ihf _ hs'.1 _ _ _ hin.1 hfr' hid.1.1.2 jf mf (fun q hq => hlo q (by simp [visited, hq])) (fun t e => (hli t e).1) hgm _ _
          (hh' (execC I JC (.label (.leaveLabel (tid :: handlerIds hs) (st.n + 1)) (.semi K)) hC kC))).1 trivial .nil stuckK
            (execC I JC (.label (.leaveLabel (tid :: handlerIds hs) (st.n + 1)) (.semi K)) hC kC) none (KLe.stuck _) trivial
        rw [Option.or_none] at this
        exact this
      · refine OLe.or ((ihh _ hs'.2.2 _ _ _ hin.2 hfr' hid.2 jh mh (fun q hq => hlo q (by simp [visited, hq])) (fun t e => (hli t e).2) hgm _ _ hh).2 rfl _ _) ?_
        rw [hm.2 (tid :: handlerIds hs) (st.n + 1) (by simp)]
        by_cases hg : g ∈ (tid :: handlerIds hs).map Tgt.after
        · rw [if_pos hg, if_pos (by simpa using hg)]
          exact hk
        · rw [if_neg hg, if_neg (by simpa using hg)]
          exact hX
    · rintro rfl; exact hs'.elim
  | switch v ss ih =>
    intro kd hs fr stk st hin hfr hid hj hm hlo hli hgm hI hC hh
    refine ⟨fun _ K kI kC X hk hX => ?_, ?_⟩
    · cases kd <;> try exact hs.elim
      unfold emit at hj hm
      simp only [] at hj hm
      unfold tr
      have := (ih _ hs.1 fr stk st hin hfr hid (hj.mono (by intro i hi; simp [hi])) (hm.mono (by intro i hi; simp [hi])) hlo hli hgm hI hC hh).1 trivial
        .nil kI (execC I JC K hC kC) none hk trivial
      rw [Option.or_none] at this
      rw [enterC]
      exact OLe.or this hX
    · rintro rfl; exact hs.elim
  | cons a r iha ihr =>
    intro kd hs fr stk st hin hfr hid hj hm hlo hli hgm hI hC hh
    refine ⟨fun _ K kI kC X hk hX => ?_, ?_⟩
    · cases kd <;> try exact hs.elim
      simp only [ids, List.mem_append, not_or] at hid
      unfold emit at hj hm
      rw [if_neg (dropped_false a r)] at hj hm
      simp only [] at hj hm
      have jr : JLe JI JC (emit main false r stk (emit main false a stk st).2).1 := hj.mono (by intro i hi; simp [hi])
      unfold tr enter
      rw [Option.or_assoc]
      refine (iha _ hs.1 fr stk st hin.1 hfr hid.1 (hj.mono (by intro i hi; simp [hi])) (hm.mono (by intro i hi; simp [hi]))
        (fun q hq => hlo q (by simp [visited, hq])) (fun t e => (hli t e).1) hgm hI hC hh).1 trivial _ _ _ _ ?_ ?_
      · exact (exec_sim I main JI JC r _ hs.2 fr stk _ hin.2 hfr hid.2 jr hI hC hh).1 trivial _ _ _ hk
      · exact (ihr _ hs.2 fr stk _ hin.2 hfr hid.2 jr (hm.mono (by intro i hi; simp [hi]))
          (fun q hq => hlo q (by simp [visited, hq])) (fun t e => (hli t e).2) hgm hI hC hh).1 trivial _ _ _ _ hk hX
    · rintro rfl; exact hs.elim
  | bcons lbl b r ihb ihr =>
    intro kd hs fr stk st hin hfr hid hj hm hlo hli hgm hI hC hh
    refine ⟨fun _ K kI kC X hk hX => ?_, ?_⟩
    · cases kd <;> try exact hs.elim
      simp only [ids, List.mem_append, not_or] at hid
      unfold emit at hj hm
      simp only [] at hj hm
      have jb : JLe JI JC (emit main false b stk st).1 := hj.mono (by intro i hi; simp [hi])
      have mb : Match g p (emit main false b stk st).1 := hm.mono (by intro i hi; simp [hi])
      unfold tr enter
      rw [enterC, ← Option.or_assoc, Option.or_assoc]
      refine OLe.or (block_sim I main JI JC (fun hg => hlo (lbl, b) (by simp [visited]) hg) (hm.mono (by intro i hi; simp [hi])) ?_ ?_) ?_
      · exact (exec_sim I main JI JC b _ hs.1 fr stk st hin.1 hfr hid.1 jb hI hC hh).1 trivial _ _ _ (KLe.stuck _)
      · have := (ihb _ hs.1 fr stk st hin.1 hfr hid.1 jb mb (fun q hq => hlo q (by simp [visited, hq])) (fun t e => (hli t e).1) hgm hI hC hh).1 trivial
          .nil stuckK (execC I JC (tr main r stk (emit main false b stk st).2 K) hC kC) none (KLe.stuck _) trivial
        rw [Option.or_none] at this
        exact this
      · exact (ihr _ hs.2 fr stk _ hin.2 hfr hid.2 (hj.mono (by intro i hi; simp [hi])) (hm.mono (by intro i hi; simp [hi]))
          (fun q hq => hlo q (by simp [visited, hq])) (fun t e => (hli t e).2) hgm hI hC hh).1 trivial _ _ _ _ hk hX
    · rintro rfl; exact hs.elim
  | hcons hid' lbl f r n ihf _ ihn =>
    intro kd hs fr stk st hin hfr hid hj hm hlo hli hgm hI hC hh
    refine ⟨?_, ?_⟩
    · cases kd <;> first | exact hs.elim | exact fun h => h.elim
    · rintro rfl kI kC
      simp only [ids, List.mem_cons, List.mem_append, not_or] at hid
      unfold emit at hj hm
      simp only [] at hj hm
      have jf : JLe JI JC (emit main false f stk st).1 := hj.mono (by intro i hi; simp [hi])
      unfold tr enter
      rw [hs.2.1]
      simp only [enterC, enter, Option.none_or]
      rw [← Option.or_assoc]
      refine OLe.or (block_sim I main JI JC (fun hg => hlo (lbl, f) (by simp [visited]) hg) (hm.mono (by intro i hi; simp [hi])) ?_ ?_) ?_
      · exact (exec_sim I main JI JC f _ hs.1 fr stk st hin.1 hfr hid.1.1.2 jf hI hC hh).1 trivial _ _ _ (KLe.stuck _)
      · have := (ihf _ hs.1 fr stk st hin.1 hfr hid.1.1.2 jf (hm.mono (by intro i hi; simp [hi])) (fun q hq => hlo q (by simp [visited, hq]))
          (fun t e => (hli t e).1) hgm hI hC hh).1 trivial .nil stuckK kC none (KLe.stuck _) trivial
        rw [Option.or_none] at this
        exact this
      · exact (ihn _ hs.2.2 fr stk _ hin.2 hfr hid.2 (hj.mono (by intro i hi; simp [hi])) (hm.mono (by intro i hi; simp [hi]))
          (fun q hq => hlo q (by simp [visited, hq])) (fun t e => (hli t e).2) hgm hI hC hh).2 rfl _ _
  | scons ls b r ihb ihr =>
    intro kd hs fr stk st hin hfr hid hj hm hlo hli hgm hI hC hh
    refine ⟨fun _ K kI kC X hk hX => ?_, ?_⟩
    · cases kd <;> try exact hs.elim
      simp only [ids, List.mem_append, not_or] at hid
      unfold emit at hj hm
      simp only [] at hj hm
      unfold tr enter
      rw [enterC, Option.or_assoc]
      have hb := (ihb _ hs.1 fr stk st hin.1 hfr hid.1 (hj.mono (by intro i hi; simp [hi])) (hm.mono (by intro i hi; simp [hi]))
        (fun q hq => hlo q (by simp [visited, hq])) (fun t e => (hli t e).1) hgm hI hC hh).1 trivial
      have hr := (ihr _ hs.2.2 fr stk (emit main false b stk st).2 hin.2 hfr hid.2 (hj.mono (by intro i hi; simp [hi])) (hm.mono (by intro i hi; simp [hi]))
        (fun q hq => hlo q (by simp [visited, hq])) (fun t e => (hli t e).2) hgm hI hC hh).1 trivial K kI kC X hk hX
      rcases hs.2.1 with hf | hf
      · rw [enter_indep I main JI g b hf (fun t e => (hli t e).1) hI kI stuckK]
        exact hb _ _ _ _ (KLe.stuck _) (by rw [enter_secC]; exact hr)
      · subst hf
        exact hb _ _ _ _ (by rw [exec_secC]; exact hk) (by rw [enter_secC]; exact hr)
    · rintro rfl; exact hs.elim


/-! ## The labels of the whole text -/

theorem label_owner (main : Nat) (il : IL) : ∀ stk st ow n, Item.leaveLabel ow n ∈ (emit main false il stk st).1 → ∀ t ∈ ow, t ∈ ids il := by
  induction il with
  | nop | act k | silent b _ | branch l | nil | bnil | hnil | snil => intro stk st ow n h; simp [emit] at h
  | leave t e v => intro stk st ow n h; unfold emit at h; split at h <;> simp at h
  | ite c t f iht ihf =>
    intro stk st ow n h x hx
    unfold emit at h
    simp only [] at h
    by_cases hf : f = .nop
    · rw [if_pos hf] at h
      simp at h
      simp [ids, iht _ _ _ _ h x hx]
    · rw [if_neg hf] at h
      simp at h
      rcases h with h | h
      · simp [ids, iht _ _ _ _ h x hx]
      · simp [ids, ihf _ _ _ _ h x hx]
  | block b ih => intro stk st ow n h x hx; exact ih _ _ _ _ h x hx
  | container id bs ih =>
    intro stk st ow n h x hx
    unfold emit at h
    simp only [] at h
    rcases List.mem_append.mp h with h | h
    · simp [ids, ih _ _ _ _ h x hx]
    · split at h
      · simp at h
        obtain ⟨rfl, rfl⟩ := h
        simp only [List.mem_singleton] at hx
        simp [ids, hx]
      · cases h
  | tryCatch tid lbl f r hs ihf _ ihh =>
    intro stk st ow n h x hx
    unfold emit at h
    simp [label_blockLabel] at h
    rcases h with h | h | ⟨rfl, rfl⟩
    · simp [ids, ihf _ _ _ _ h x hx]
    · simp [ids, ihh _ _ _ _ h x hx]
    · rcases List.mem_cons.mp hx with h | h
      · simp [ids, h]
      · simp [ids, handlerIds_ids hs x h]
  | switch v s ih => intro stk st ow n h x hx; unfold emit at h; simp at h; exact ih _ _ _ _ h x hx
  | cons a r iha ihr =>
    intro stk st ow n h x hx
    unfold emit at h
    rw [if_neg (dropped_false a r)] at h
    rcases List.mem_append.mp h with h | h
    · simp [ids, iha _ _ _ _ h x hx]
    · simp [ids, ihr _ _ _ _ h x hx]
  | bcons lbl b r ihb ihr =>
    intro stk st ow n h x hx
    unfold emit at h
    simp [label_blockLabel] at h
    rcases h with h | h
    · simp [ids, ihb _ _ _ _ h x hx]
    · simp [ids, ihr _ _ _ _ h x hx]
  | hcons hid lbl f r n' ihf _ ihn =>
    intro stk st ow n h x hx
    unfold emit at h
    simp [label_blockLabel] at h
    rcases h with h | h
    · simp [ids, ihf _ _ _ _ h x hx]
    · simp [ids, ihn _ _ _ _ h x hx]
  | scons ls b r ihb ihr =>
    intro stk st ow n h x hx
    unfold emit at h
    simp [label_caseHead] at h
    rcases h with h | h
    · simp [ids, ihb _ _ _ _ h x hx]
    · simp [ids, ihr _ _ _ _ h x hx]

/-- Containers outside a tree are (trivially) left in it. -/
theorem live_of_not_mem {t : Nat} (il : IL) : t ∉ ids il → Live t il := by
  induction il with
  | nop | act k | silent b _ | branch l | nil | bnil | hnil | snil | leave t e v => intro _; trivial
  | ite c a b iha ihb => intro h; simp [ids] at h; exact ⟨iha h.1, ihb h.2⟩
  | block b ih => exact ih
  | container id bs ih => intro h; simp [ids] at h; exact ⟨fun e => absurd e.symm h.1, ih h.2⟩
  | tryCatch tid lbl f r hs ihf _ ihh => intro h; simp [ids] at h; exact ⟨ihf h.2.1, ihh h.2.2.2⟩
  | switch v s ih => exact ih
  | cons a r iha ihr => intro h; simp [ids] at h; exact ⟨iha h.1, ihr h.2⟩
  | bcons lbl b r ihb ihr => intro h; simp [ids] at h; exact ⟨ihb h.1, ihr h.2⟩
  | hcons hid lbl f r n ihf _ ihn => intro h; simp [ids] at h; exact ⟨ihf h.2.1, ihn h.2.2.2⟩
  | scons ls b r ihb ihr => intro h; simp [ids] at h; exact ⟨ihb h.1, ihr h.2⟩

theorem live_handler {t : Nat} (hs : IL) : (ids hs).Nodup → t ∈ handlerIds hs → Live t hs := by
  induction hs with
  | hcons hid lbl f r n _ _ ihn =>
    intro hd ht
    unfold ids at hd
    have hd' := List.nodup_append.mp hd
    have hd2 := List.nodup_append.mp hd'.1
    have hdf := List.nodup_cons.mp hd2.1
    rcases List.mem_cons.mp ht with h | h
    · subst h
      exact ⟨live_of_not_mem f hdf.1, live_of_not_mem n (fun hn => hd'.2.2 t (by simp) t hn rfl)⟩
    · exact ⟨live_of_not_mem f (fun hf => hd'.2.2 t (by simp [hf]) t (handlerIds_ids n t h) rfl), ihn hd'.2.1 h⟩
  | _ => intro _ h; simp [handlerIds] at h

theorem live_of_label (main : Nat) (il : IL) : (ids il).Nodup → ∀ stk st ow n t, Item.leaveLabel ow n ∈ (emit main false il stk st).1 → t ∈ ow → Live t il := by
  have two : ∀ {a b : IL} {t : Nat}, (ids a ++ ids b).Nodup → t ∈ ids a → t ∉ ids b := by
    intro a b t h ha hb; exact (List.nodup_append.mp h).2.2 t ha t hb rfl
  have two' : ∀ {a b : IL} {t : Nat}, (ids a ++ ids b).Nodup → t ∈ ids b → t ∉ ids a := by
    intro a b t h ha hb; exact (List.nodup_append.mp h).2.2 t hb t ha rfl
  induction il with
  | nop | act k | silent b _ | branch l | nil | bnil | hnil | snil => intro _ stk st ow n t h; simp [emit] at h
  | leave t e v => intro _ stk st ow n t h; unfold emit at h; split at h <;> simp at h
  | ite c a b iha ihb =>
    intro hd stk st ow n x h hx
    unfold ids at hd
    unfold emit at h
    simp only [] at h
    have hd' := List.nodup_append.mp hd
    by_cases hf : b = .nop
    · rw [if_pos hf] at h
      simp at h
      exact ⟨iha hd'.1 _ _ _ _ _ h hx, live_of_not_mem b (two hd (label_owner _ _ _ _ _ _ h _ hx))⟩
    · rw [if_neg hf] at h
      simp at h
      rcases h with h | h
      · exact ⟨iha hd'.1 _ _ _ _ _ h hx, live_of_not_mem b (two hd (label_owner _ _ _ _ _ _ h _ hx))⟩
      · exact ⟨live_of_not_mem a (two' hd (label_owner _ _ _ _ _ _ h _ hx)), ihb hd'.2.1 _ _ _ _ _ h hx⟩
  | block b ih => intro hd stk st ow n x h hx; exact ih hd _ _ _ _ _ h hx
  | container id bs ih =>
    intro hd stk st ow n x h hx
    unfold ids at hd
    rw [List.nodup_cons] at hd
    unfold emit at h
    simp only [] at h
    rcases List.mem_append.mp h with h | h
    · exact ⟨fun e => absurd (label_owner _ _ _ _ _ _ h _ hx) (e ▸ hd.1), ih hd.2 _ _ _ _ _ h hx⟩
    · by_cases hc : id ≠ main ∧ leaves id bs = true
      · rw [if_pos hc] at h
        simp only [List.mem_singleton, Item.leaveLabel.injEq] at h
        rw [h.1, List.mem_singleton] at hx
        subst hx
        exact ⟨fun _ => hc.2, live_of_not_mem bs hd.1⟩
      · rw [if_neg hc] at h; cases h
  | tryCatch tid lbl f r hs ihf _ ihh =>
    intro hd stk st ow n x h hx
    unfold ids at hd
    have hd' := List.nodup_append.mp hd
    have hd2 := List.nodup_append.mp hd'.1
    have hdf := List.nodup_cons.mp hd2.1
    have fh : ∀ y ∈ ids f, y ∉ ids hs := fun y hy hy' => hd'.2.2 y (by simp [hy]) y hy' rfl
    unfold emit at h
    simp [label_blockLabel] at h
    rcases h with h | h | ⟨rfl, rfl⟩
    · exact ⟨ihf hdf.2 _ _ _ _ _ h hx, live_of_not_mem hs (fh _ (label_owner _ _ _ _ _ _ h _ hx))⟩
    · exact ⟨live_of_not_mem f (fun hy => fh _ hy (label_owner _ _ _ _ _ _ h _ hx)), ihh hd'.2.1 _ _ _ _ _ h hx⟩
    · rcases List.mem_cons.mp hx with e | e
      · subst e
        exact ⟨live_of_not_mem f hdf.1, live_of_not_mem hs (fun h => hd'.2.2 x (by simp) x h rfl)⟩
      · exact ⟨live_of_not_mem f (fun hy => fh _ hy (handlerIds_ids hs x e)), live_handler hs hd'.2.1 e⟩
  | switch v s ih => intro hd stk st ow n x h hx; unfold emit at h; simp at h; exact ih hd _ _ _ _ _ h hx
  | cons a r iha ihr =>
    intro hd stk st ow n x h hx
    unfold ids at hd
    have hd' := List.nodup_append.mp hd
    unfold emit at h
    rw [if_neg (dropped_false a r)] at h
    rcases List.mem_append.mp h with h | h
    · exact ⟨iha hd'.1 _ _ _ _ _ h hx, live_of_not_mem r (two hd (label_owner _ _ _ _ _ _ h _ hx))⟩
    · exact ⟨live_of_not_mem a (two' hd (label_owner _ _ _ _ _ _ h _ hx)), ihr hd'.2.1 _ _ _ _ _ h hx⟩
  | bcons lbl b r ihb ihr =>
    intro hd stk st ow n x h hx
    unfold ids at hd
    have hd' := List.nodup_append.mp hd
    unfold emit at h
    simp [label_blockLabel] at h
    rcases h with h | h
    · exact ⟨ihb hd'.1 _ _ _ _ _ h hx, live_of_not_mem r (two hd (label_owner _ _ _ _ _ _ h _ hx))⟩
    · exact ⟨live_of_not_mem b (two' hd (label_owner _ _ _ _ _ _ h _ hx)), ihr hd'.2.1 _ _ _ _ _ h hx⟩
  | hcons hid lbl f r n' ihf _ ihn =>
    intro hd stk st ow n x h hx
    unfold ids at hd
    have hd' := List.nodup_append.mp hd
    have hdf := List.nodup_cons.mp (List.nodup_append.mp hd'.1).1
    have fn : ∀ y ∈ ids f, y ∉ ids n' := fun y hy hy' => hd'.2.2 y (by simp [hy]) y hy' rfl
    unfold emit at h
    simp [label_blockLabel] at h
    rcases h with h | h
    · exact ⟨ihf hdf.2 _ _ _ _ _ h hx, live_of_not_mem n' (fn _ (label_owner _ _ _ _ _ _ h _ hx))⟩
    · exact ⟨live_of_not_mem f (fun hy => fn _ hy (label_owner _ _ _ _ _ _ h _ hx)), ihn hd'.2.1 _ _ _ _ _ h hx⟩
  | scons ls b r ihb ihr =>
    intro hd stk st ow n x h hx
    unfold ids at hd
    have hd' := List.nodup_append.mp hd
    unfold emit at h
    simp [label_caseHead] at h
    rcases h with h | h
    · exact ⟨ihb hd'.1 _ _ _ _ _ h hx, live_of_not_mem r (two hd (label_owner _ _ _ _ _ _ h _ hx))⟩
    · exact ⟨live_of_not_mem b (two' hd (label_owner _ _ _ _ _ _ h _ hx)), ihr hd'.2.1 _ _ _ _ _ h hx⟩

/-- The containers that end at the labels of a text. -/
def owners : List Item → List Nat
  | [] => []
  | .leaveLabel ow _ :: r => ow ++ owners r
  | _ :: r => owners r

theorem owners_append (a b : List Item) : owners (a ++ b) = owners a ++ owners b := by
  induction a with
  | nil => rfl
  | cons x xs ih => cases x <;> simp [owners, ih]

theorem mem_owners {o : List Item} {t : Nat} : t ∈ owners o ↔ ∃ ow n, Item.leaveLabel ow n ∈ o ∧ t ∈ ow := by
  induction o with
  | nil => simp [owners]
  | cons x xs ih =>
    cases x <;> simp [owners, ih]
    rename_i ow n
    constructor
    · rintro (h | ⟨ow', ⟨n', h⟩, h'⟩)
      · exact ⟨ow, ⟨n, .inl ⟨rfl, rfl⟩⟩, h⟩
      · exact ⟨ow', ⟨n', .inr h⟩, h'⟩
    · rintro ⟨ow', ⟨n', h | h⟩, h'⟩
      · left; rw [← h.1]; exact h'
      · exact .inr ⟨ow', ⟨n', h⟩, h'⟩

theorem owners_unique {o : List Item} (h : (owners o).Nodup) {ow ow' : List Nat} {m m' t : Nat} (h1 : Item.leaveLabel ow m ∈ o)
    (h2 : Item.leaveLabel ow' m' ∈ o) (ht : t ∈ ow) (ht' : t ∈ ow') : ow = ow' ∧ m = m' := by
  induction o with
  | nil => cases h1
  | cons x xs ih =>
    have hxs : (owners xs).Nodup := by
      cases x <;> first | exact h | exact (List.nodup_append.mp h).2.1
    rcases List.mem_cons.mp h1 with e1 | e1 <;> rcases List.mem_cons.mp h2 with e2 | e2
    · rw [← e1] at e2
      injection e2 with a b
      exact ⟨a.symm, b.symm⟩
    · rw [← e1] at h
      exact absurd rfl ((List.nodup_append.mp h).2.2 t ht t (mem_owners.mpr ⟨_, _, e2, ht'⟩))
    · rw [← e2] at h
      exact absurd rfl ((List.nodup_append.mp h).2.2 t ht' t (mem_owners.mpr ⟨_, _, e1, ht⟩))
    · exact ih hxs e1 e2

@[simp] theorem owners_semiSec (t : IL) : owners (semiSec t) = [] := by
  rcases semiSec_cases t with h | h <;> rw [h] <;> rfl

@[simp] theorem owners_semiIf (t : IL) : owners (semiIf t) = [] := by
  rcases semiIf_cases t with h | h <;> rw [h] <;> rfl

@[simp] theorem owners_blockLabel (l : Nat) (b : IL) : owners (blockLabel l b) = [] := by
  rcases blockLabel_cases l b with h | h <;> rw [h.1] <;> rfl

theorem owners_caseHead (ls : LongSet) (r : List Item) : owners (caseHead ls :: r) = owners r := by
  rcases caseHead_cases ls with h | h | ⟨v, h⟩ <;> rw [h] <;> rfl

theorem owners_ids (main : Nat) (il : IL) (stk : List Nat) (st : St) : ∀ t ∈ owners (emit main false il stk st).1, t ∈ ids il := by
  intro t ht
  obtain ⟨ow, n, h, h'⟩ := mem_owners.mp ht
  exact label_owner main il stk st ow n h t h'

theorem owners_nodup (main : Nat) (il : IL) : (ids il).Nodup → ∀ stk st, (owners (emit main false il stk st).1 ++ handlerIds il).Nodup := by
  have app : ∀ (a b : IL) stk st stk' st', (ids a ++ ids b).Nodup → (owners (emit main false a stk st).1).Nodup → (owners (emit main false b stk' st').1).Nodup →
      (owners (emit main false a stk st).1 ++ owners (emit main false b stk' st').1).Nodup := by
    intro a b stk st stk' st' h ha hb
    refine List.nodup_append.mpr ⟨ha, hb, ?_⟩
    intro x hx y hy
    exact (List.nodup_append.mp h).2.2 x (owners_ids _ _ _ _ x hx) y (owners_ids _ _ _ _ y hy)
  have fst : ∀ {il : IL} {o : List Item}, (owners o ++ handlerIds il).Nodup → (owners o).Nodup := fun h => (List.nodup_append.mp h).1
  induction il with
  | nop | act k | silent b _ | branch l | nil | bnil | hnil | snil => intro _ stk st; simp [emit, owners, handlerIds]
  | leave t e v => intro _ stk st; unfold emit; by_cases h : e = 0 <;> simp [h, owners, handlerIds]
  | ite c a b iha ihb =>
    intro hd stk st
    unfold ids at hd
    have hd' := List.nodup_append.mp hd
    unfold emit
    simp only []
    by_cases hf : b = .nop
    · rw [if_pos hf]
      simpa [owners, owners_append, handlerIds] using fst (iha hd'.1 stk st)
    · rw [if_neg hf]
      simpa [owners, owners_append, handlerIds] using app a b stk st stk _ hd (fst (iha hd'.1 stk st)) (fst (ihb hd'.2.1 stk _))
  | block b ih => intro hd stk st; simpa [handlerIds, emit] using fst (ih hd stk st)
  | container id bs ih =>
    intro hd stk st
    unfold ids at hd
    rw [List.nodup_cons] at hd
    unfold emit
    simp only []
    have h1 := fst (ih hd.2 ((st.n + 1) :: stk) ⟨st.n + 1, id⟩)
    by_cases hc : id ≠ main ∧ leaves id bs = true
    · rw [if_pos hc]
      rw [owners_append]
      simp only [owners, handlerIds, List.append_nil]
      refine List.nodup_append.mpr ⟨h1, by simp, ?_⟩
      intro x hx y hy e
      rw [List.mem_singleton] at hy
      exact hd.1 (by rw [← hy, ← e]; exact owners_ids _ _ _ _ x hx)
    · rw [if_neg hc]
      simpa [handlerIds] using h1
  | tryCatch tid lbl f r hs ihf _ ihh =>
    intro hd stk st
    unfold ids at hd
    have hd' := List.nodup_append.mp hd
    have hdf := List.nodup_cons.mp (List.nodup_append.mp hd'.1).1
    have fh : ∀ y ∈ ids f, y ∉ ids hs := fun y hy hy' => hd'.2.2 y (by simp [hy]) y hy' rfl
    have th : tid ∉ ids hs := fun h => hd'.2.2 tid (by simp) tid h rfl
    unfold emit
    simp [owners, owners_append, handlerIds]
    refine List.nodup_append.mpr ⟨fst (ihf hdf.2 _ _), ?_, ?_⟩
    · have hn := ihh hd'.2.1 ((st.n + 1) :: stk) (emit main false f ((st.n + 1) :: stk) ⟨st.n + 1, st.cur⟩).2
      have hn' := List.nodup_append.mp hn
      refine List.nodup_append.mpr ⟨hn'.1, List.nodup_cons.mpr ⟨fun h => th (handlerIds_ids hs _ h), hn'.2.1⟩, ?_⟩
      intro x hx y hy
      rcases List.mem_cons.mp hy with e | e
      · intro e'; exact th (by rw [← e, ← e']; exact owners_ids _ _ _ _ x hx)
      · exact hn'.2.2 x hx y e
    · intro x hx y hy e
      have hx' := owners_ids _ _ _ _ x hx
      rcases List.mem_append.mp hy with h | h
      · exact fh x hx' (by rw [e]; exact owners_ids _ _ _ _ y h)
      · rcases List.mem_cons.mp h with h | h
        · exact hdf.1 (by rw [← h, ← e]; exact hx')
        · exact fh x hx' (by rw [e]; exact handlerIds_ids hs y h)
  | switch v s ih => intro hd stk st; unfold emit; simpa [owners, owners_append, handlerIds] using fst (ih hd stk st)
  | cons a r iha ihr =>
    intro hd stk st
    unfold ids at hd
    have hd' := List.nodup_append.mp hd
    unfold emit
    rw [if_neg (dropped_false a r)]
    simpa [owners_append, handlerIds] using app a r stk st stk _ hd (fst (iha hd'.1 stk st)) (fst (ihr hd'.2.1 stk _))
  | bcons lbl b r ihb ihr =>
    intro hd stk st
    unfold ids at hd
    have hd' := List.nodup_append.mp hd
    unfold emit
    simpa [owners, owners_append, handlerIds] using app b r stk st stk _ hd (fst (ihb hd'.1 stk st)) (fst (ihr hd'.2.1 stk _))
  | hcons hid lbl f r n ihf _ ihn =>
    intro hd stk st
    unfold ids at hd
    have hd' := List.nodup_append.mp hd
    have hdf := List.nodup_cons.mp (List.nodup_append.mp hd'.1).1
    have fn : ∀ y ∈ ids f, y ∉ ids n := fun y hy hy' => hd'.2.2 y (by simp [hy]) y hy' rfl
    have th : hid ∉ ids n := fun h => hd'.2.2 hid (by simp) hid h rfl
    unfold emit
    simp [owners, owners_append, handlerIds]
    refine List.nodup_append.mpr ⟨fst (ihf hdf.2 _ _), ?_, ?_⟩
    · have hn := ihn hd'.2.1 stk (emit main false f stk st).2
      have hn' := List.nodup_append.mp hn
      refine List.nodup_append.mpr ⟨hn'.1, List.nodup_cons.mpr ⟨fun h => th (handlerIds_ids n _ h), hn'.2.1⟩, ?_⟩
      intro x hx y hy
      rcases List.mem_cons.mp hy with e | e
      · intro e'; exact th (by rw [← e, ← e']; exact owners_ids _ _ _ _ x hx)
      · exact hn'.2.2 x hx y e
    · intro x hx y hy e
      have hx' := owners_ids _ _ _ _ x hx
      rcases List.mem_append.mp hy with h | h
      · exact fn x hx' (by rw [e]; exact owners_ids _ _ _ _ y h)
      · rcases List.mem_cons.mp h with h | h
        · exact hdf.1 (by rw [← h, ← e]; exact hx')
        · exact fn x hx' (by rw [e]; exact handlerIds_ids n y h)
  | scons ls b r ihb ihr =>
    intro hd stk st
    unfold ids at hd
    have hd' := List.nodup_append.mp hd
    unfold emit
    simpa [owners_caseHead, owners_append, owners, handlerIds] using app b r stk st stk _ hd (fst (ihb hd'.1 stk st)) (fst (ihr hd'.2.1 stk _))

theorem labelNums_unique {o : List Item} (h : (labelNums o).Nodup) {ow ow' : List Nat} {m : Nat} (h1 : Item.leaveLabel ow m ∈ o)
    (h2 : Item.leaveLabel ow' m ∈ o) : ow = ow' := by
  induction o with
  | nil => cases h1
  | cons x xs ih =>
    have hxs : (labelNums xs).Nodup := by
      cases x <;> first | exact h | exact (List.nodup_cons.mp h).2
    rcases List.mem_cons.mp h1 with e1 | e1 <;> rcases List.mem_cons.mp h2 with e2 | e2
    · rw [← e1] at e2
      injection e2 with a b
      exact a.symm
    · rw [← e1] at h
      exact absurd (mem_labelNums.mpr ⟨_, e2⟩) (List.nodup_cons.mp h).1
    · rw [← e2] at h
      exact absurd (mem_labelNums.mpr ⟨_, e1⟩) (List.nodup_cons.mp h).1
    · exact ih hxs e1 e2

/-! ## The text has one reading -/

theorem tr_wf (main : Nat) (il : IL) : ∀ kd, Shape kd il → ∀ stk st K,
    ((match kd with | .handlers => False | _ => True) → K.WF → (tr main il stk st K).WF) ∧ (kd = .handlers → CS.WF.Catches (tr main il stk st .nil)) := by
  have hsemi : ∀ t, (semiC t).WF := by intro t; cases t <;> simp [semiC, CS.WF]
  have hlbl : ∀ lbl b (K : CS), K.WF → (lblC lbl b K).WF := by
    intro lbl b K h; unfold lblC; split
    · exact h
    · exact ⟨.inl ⟨_, rfl⟩, h⟩
  induction il with
  | nop | silent b _ | nil | bnil | snil | act k =>
    intro kd hs stk st K
    refine ⟨fun _ h => h, ?_⟩
    rintro rfl; exact hs.elim
  | hnil => intro kd hs stk st K; exact ⟨fun _ h => h, fun _ => trivial⟩
  | branch l =>
    intro kd hs stk st K
    refine ⟨fun _ h => ⟨.inr ⟨_, rfl⟩, h⟩, ?_⟩
    rintro rfl; exact hs.elim
  | leave t e v =>
    intro kd hs stk st K
    refine ⟨fun _ h => ?_, ?_⟩
    · unfold tr
      split
      · exact h
      · exact ⟨.inl ⟨_, _, rfl⟩, h⟩
    · rintro rfl; exact hs.elim
  | ite c t f iht ihf =>
    intro kd hs stk st K
    refine ⟨fun _ h => ?_, ?_⟩
    · cases kd <;> try exact hs.elim
      unfold tr
      split
      · exact ⟨(iht _ hs.1 _ _ _).1 trivial (hsemi _), h⟩
      · exact ⟨(iht _ hs.1 _ _ _).1 trivial (hsemi _), (ihf _ hs.2 _ _ _).1 trivial (hsemi _), h⟩
    · rintro rfl; exact hs.elim
  | block b ih =>
    intro kd hs stk st K
    refine ⟨fun _ h => ?_, ?_⟩
    · cases kd <;> try exact hs.elim
      exact (ih _ hs _ _ _).1 trivial h
    · rintro rfl; exact hs.elim
  | container id bs ih =>
    intro kd hs stk st K
    refine ⟨fun _ h => ?_, ?_⟩
    · cases kd <;> try exact hs.elim
      unfold tr
      refine (ih _ hs _ _ _).1 trivial ?_
      split
      · exact ⟨.inr ⟨_, _, rfl⟩, h⟩
      · exact h
    · rintro rfl; exact hs.elim
  | tryCatch tid lbl f r hs ihf _ ihh =>
    intro kd hs' stk st K
    refine ⟨fun _ h => ?_, ?_⟩
    · cases kd <;> try exact hs'.elim
      exact ⟨hlbl _ _ _ ((ihf _ hs'.1 _ _ _).1 trivial trivial), (ihh _ hs'.2.2 _ _ .nil).2 rfl, .inr ⟨_, _, rfl⟩, h⟩
    · rintro rfl; exact hs'.elim
  | switch v ss ih =>
    intro kd hs stk st K
    refine ⟨fun _ h => ?_, ?_⟩
    · cases kd <;> try exact hs.elim
      exact ⟨(ih _ hs.1 _ _ _).1 trivial trivial, h⟩
    · rintro rfl; exact hs.elim
  | cons a r iha ihr =>
    intro kd hs stk st K
    refine ⟨fun _ h => ?_, ?_⟩
    · cases kd <;> try exact hs.elim
      exact (iha _ hs.1 _ _ _).1 trivial ((ihr _ hs.2 _ _ _).1 trivial h)
    · rintro rfl; exact hs.elim
  | bcons lbl b r ihb ihr =>
    intro kd hs stk st K
    refine ⟨fun _ h => ?_, ?_⟩
    · cases kd <;> try exact hs.elim
      exact ⟨hlbl _ _ _ ((ihb _ hs.1 _ _ _).1 trivial trivial), (ihr _ hs.2 _ _ _).1 trivial h⟩
    · rintro rfl; exact hs.elim
  | hcons hid lbl f r n ihf _ ihn =>
    intro kd hs stk st K
    refine ⟨?_, ?_⟩
    · cases kd <;> first | exact hs.elim | exact fun h => h.elim
    · rintro rfl
      exact ⟨hlbl _ _ _ ((ihf _ hs.1 _ _ _).1 trivial trivial), (ihn _ hs.2.2 _ _ .nil).2 rfl⟩
  | scons ls b r ihb ihr =>
    intro kd hs stk st K
    refine ⟨fun _ h => ?_, ?_⟩
    · cases kd <;> try exact hs.elim
      refine ⟨?_, (ihb _ hs.1 _ _ _).1 trivial (wf_secC ((ihr _ hs.2.2 _ _ _).1 trivial h))⟩
      rcases caseHead_cases ls with h | h | ⟨v, h⟩
      · exact .inr (.inr h)
      · exact .inr (.inl h)
      · exact .inl ⟨v, h⟩
    · rintro rfl; exact hs.elim

/-- The text after a statement sequence: nothing, or a closing brace. -/
def Stop (o : List Item) : Prop := o = [] ∨ ∃ r, o = .cls :: r

/-- The text after a chain of handlers. -/
def StopH (o : List Item) : Prop := ∀ hid r, o ≠ .catchHead hid :: r

theorem flat_noHead (c : CS) : c.WF → ∀ x, Stop x → (∀ hid r, c.flat ++ x ≠ .catchHead hid :: r) ∧ (∀ r, c.flat ++ x ≠ .elseHead :: r) := by
  intro h x hx
  cases c <;> simp [CS.flat, CS.WF] at h ⊢
  case nil => rcases hx with rfl | ⟨r, rfl⟩ <;> simp
  case label i r => rcases h.1 with ⟨l, rfl⟩ | ⟨ow, n, rfl⟩ <;> simp
  case jump i r => rcases h.1 with ⟨l, n, rfl⟩ | ⟨n, rfl⟩ <;> simp
  case case i r => rcases h.1 with ⟨l, rfl⟩ | rfl | rfl <;> simp

theorem flat_inj (a : CS) : (a.WF → ∀ b : CS, b.WF → ∀ x y, Stop x → Stop y → a.flat ++ x = b.flat ++ y → a = b ∧ x = y) ∧
    (CS.WF.Catches a → ∀ b : CS, CS.WF.Catches b → ∀ x y, StopH x → StopH y → a.flat ++ x = b.flat ++ y → a = b ∧ x = y) := by
  induction a with
  | nil =>
    constructor
    · intro _ b hb x y hx hy e
      cases b <;> simp [CS.flat] at e
      case nil => exact ⟨rfl, e⟩
      case label i r => rcases hb.1 with ⟨l, rfl⟩ | ⟨ow, n, rfl⟩ <;> rcases hx with rfl | ⟨r, rfl⟩ <;> simp at e
      case jump i r => rcases hb.1 with ⟨l, n, rfl⟩ | ⟨n, rfl⟩ <;> rcases hx with rfl | ⟨r, rfl⟩ <;> simp at e
      case case i r => rcases hb.1 with ⟨l, rfl⟩ | rfl | rfl <;> rcases hx with rfl | ⟨r, rfl⟩ <;> simp at e
      all_goals (first | exact hb.elim | (rcases hx with rfl | ⟨r, rfl⟩ <;> simp at e))
    · intro _ b hb x y hx hy e
      cases b <;> first | exact hb.elim | skip
      · exact ⟨rfl, by simpa [CS.flat] using e⟩
      · exact absurd e (hx _ _)
  | text k r ih =>
    refine ⟨?_, fun h => h.elim⟩
    intro ha b hb x y hx hy e
    cases b <;> simp [CS.flat] at e
    case text k' r' =>
      obtain ⟨h1, h2⟩ := ih.1 ha r' hb x y hx hy e.2
      rw [e.1, h1]; exact ⟨rfl, h2⟩
    case nil => rcases hy with rfl | ⟨r, rfl⟩ <;> simp at e
    case label i r => rcases hb.1 with ⟨l, rfl⟩ | ⟨ow, n, rfl⟩ <;> simp at e
    case jump i r => rcases hb.1 with ⟨l, n, rfl⟩ | ⟨n, rfl⟩ <;> simp at e
    case case i r => rcases hb.1 with ⟨l, rfl⟩ | rfl | rfl <;> simp at e
  | semi r ih =>
    refine ⟨?_, fun h => h.elim⟩
    intro ha b hb x y hx hy e
    cases b <;> simp [CS.flat] at e
    case semi r' =>
      obtain ⟨h1, h2⟩ := ih.1 ha r' hb x y hx hy e
      rw [h1]; exact ⟨rfl, h2⟩
    case nil => rcases hy with rfl | ⟨r, rfl⟩ <;> simp at e
    case label i r => rcases hb.1 with ⟨l, rfl⟩ | ⟨ow, n, rfl⟩ <;> simp at e
    case jump i r => rcases hb.1 with ⟨l, n, rfl⟩ | ⟨n, rfl⟩ <;> simp at e
    case case i r => rcases hb.1 with ⟨l, rfl⟩ | rfl | rfl <;> simp at e
  | ret t v r ih =>
    refine ⟨?_, fun h => h.elim⟩
    intro ha b hb x y hx hy e
    cases b <;> simp [CS.flat] at e
    case ret t' v' r' =>
      obtain ⟨h1, h2⟩ := ih.1 ha r' hb x y hx hy e.2
      rw [e.1.1, e.1.2, h1]; exact ⟨rfl, h2⟩
    case nil => rcases hy with rfl | ⟨r, rfl⟩ <;> simp at e
    case label i r => rcases hb.1 with ⟨l, rfl⟩ | ⟨ow, n, rfl⟩ <;> simp at e
    case jump i r => rcases hb.1 with ⟨l, n, rfl⟩ | ⟨n, rfl⟩ <;> simp at e
    case case i r => rcases hb.1 with ⟨l, rfl⟩ | rfl | rfl <;> simp at e
  | group b1 r ihb ih =>
    refine ⟨?_, fun h => h.elim⟩
    intro ha b hb x y hx hy e
    cases b <;> simp [CS.flat] at e
    case group b1' r' =>
      obtain ⟨h1, h2⟩ := ihb.1 ha.1 b1' hb.1 _ _ (.inr ⟨_, rfl⟩) (.inr ⟨_, rfl⟩) e
      simp only [List.cons.injEq, true_and] at h2
      obtain ⟨h3, h4⟩ := ih.1 ha.2 r' hb.2 x y hx hy h2
      rw [h1, h3]; exact ⟨rfl, h4⟩
    case nil => rcases hy with rfl | ⟨r, rfl⟩ <;> simp at e
    case label i r => rcases hb.1 with ⟨l, rfl⟩ | ⟨ow, n, rfl⟩ <;> simp at e
    case jump i r => rcases hb.1 with ⟨l, n, rfl⟩ | ⟨n, rfl⟩ <;> simp at e
    case case i r => rcases hb.1 with ⟨l, rfl⟩ | rfl | rfl <;> simp at e
  | switch v b1 r ihb ih =>
    refine ⟨?_, fun h => h.elim⟩
    intro ha b hb x y hx hy e
    cases b <;> simp [CS.flat] at e
    case switch v' b1' r' =>
      obtain ⟨h1, h2⟩ := ihb.1 ha.1 b1' hb.1 _ _ (.inr ⟨_, rfl⟩) (.inr ⟨_, rfl⟩) e.2
      simp only [List.cons.injEq, true_and] at h2
      obtain ⟨h3, h4⟩ := ih.1 ha.2 r' hb.2 x y hx hy h2
      rw [e.1, h1, h3]; exact ⟨rfl, h4⟩
    case nil => rcases hy with rfl | ⟨r, rfl⟩ <;> simp at e
    case label i r => rcases hb.1 with ⟨l, rfl⟩ | ⟨ow, n, rfl⟩ <;> simp at e
    case jump i r => rcases hb.1 with ⟨l, n, rfl⟩ | ⟨n, rfl⟩ <;> simp at e
    case case i r => rcases hb.1 with ⟨l, rfl⟩ | rfl | rfl <;> simp at e
  | ite c t r iht ih =>
    refine ⟨?_, fun h => h.elim⟩
    intro ha b hb x y hx hy e
    cases b <;> simp [CS.flat] at e
    case ite c' t' r' =>
      obtain ⟨h1, h2⟩ := iht.1 ha.1 t' hb.1 _ _ (.inr ⟨_, rfl⟩) (.inr ⟨_, rfl⟩) e.2
      simp only [List.cons.injEq, true_and] at h2
      obtain ⟨h3, h4⟩ := ih.1 ha.2 r' hb.2 x y hx hy h2
      rw [e.1, h1, h3]; exact ⟨rfl, h4⟩
    case iteElse c' t' f' r' =>
      obtain ⟨h1, h2⟩ := iht.1 ha.1 t' hb.1 _ _ (.inr ⟨_, rfl⟩) (.inr ⟨_, rfl⟩) e.2
      simp only [List.cons.injEq, true_and] at h2
      exact absurd h2 ((flat_noHead r ha.2 x hx).2 _)
    case nil => rcases hy with rfl | ⟨r, rfl⟩ <;> simp at e
    case label i r => rcases hb.1 with ⟨l, rfl⟩ | ⟨ow, n, rfl⟩ <;> simp at e
    case jump i r => rcases hb.1 with ⟨l, n, rfl⟩ | ⟨n, rfl⟩ <;> simp at e
    case case i r => rcases hb.1 with ⟨l, rfl⟩ | rfl | rfl <;> simp at e
  | iteElse c t f r iht ihf ih =>
    refine ⟨?_, fun h => h.elim⟩
    intro ha b hb x y hx hy e
    cases b <;> simp [CS.flat] at e
    case iteElse c' t' f' r' =>
      obtain ⟨h1, h2⟩ := iht.1 ha.1 t' hb.1 _ _ (.inr ⟨_, rfl⟩) (.inr ⟨_, rfl⟩) e.2
      simp only [List.cons.injEq, true_and] at h2
      obtain ⟨h3, h4⟩ := ihf.1 ha.2.1 f' hb.2.1 _ _ (.inr ⟨_, rfl⟩) (.inr ⟨_, rfl⟩) h2
      simp only [List.cons.injEq, true_and] at h4
      obtain ⟨h5, h6⟩ := ih.1 ha.2.2 r' hb.2.2 x y hx hy h4
      rw [e.1, h1, h3, h5]; exact ⟨rfl, h6⟩
    case ite c' t' r' =>
      obtain ⟨h1, h2⟩ := iht.1 ha.1 t' hb.1 _ _ (.inr ⟨_, rfl⟩) (.inr ⟨_, rfl⟩) e.2
      simp only [List.cons.injEq, true_and] at h2
      exact absurd h2.symm ((flat_noHead r' hb.2 y hy).2 _)
    case nil => rcases hy with rfl | ⟨r, rfl⟩ <;> simp at e
    case label i r => rcases hb.1 with ⟨l, rfl⟩ | ⟨ow, n, rfl⟩ <;> simp at e
    case jump i r => rcases hb.1 with ⟨l, n, rfl⟩ | ⟨n, rfl⟩ <;> simp at e
    case case i r => rcases hb.1 with ⟨l, rfl⟩ | rfl | rfl <;> simp at e
  | tryc b1 hs r ihb ihh ih =>
    refine ⟨?_, fun h => h.elim⟩
    intro ha b hb x y hx hy e
    cases b <;> simp [CS.flat] at e
    case tryc b1' hs' r' =>
      obtain ⟨h1, h2⟩ := ihb.1 ha.1 b1' hb.1 _ _ (.inr ⟨_, rfl⟩) (.inr ⟨_, rfl⟩) e
      simp only [List.cons.injEq, true_and] at h2
      obtain ⟨h3, h4⟩ := ihh.2 ha.2.1 hs' hb.2.1 _ _ (fun hid q => (flat_noHead r ha.2.2 x hx).1 hid q) (fun hid q => (flat_noHead r' hb.2.2 y hy).1 hid q) h2
      obtain ⟨h5, h6⟩ := ih.1 ha.2.2 r' hb.2.2 x y hx hy h4
      rw [h1, h3, h5]; exact ⟨rfl, h6⟩
    case nil => rcases hy with rfl | ⟨r, rfl⟩ <;> simp at e
    case label i r => rcases hb.1 with ⟨l, rfl⟩ | ⟨ow, n, rfl⟩ <;> simp at e
    case jump i r => rcases hb.1 with ⟨l, n, rfl⟩ | ⟨n, rfl⟩ <;> simp at e
    case case i r => rcases hb.1 with ⟨l, rfl⟩ | rfl | rfl <;> simp at e
  | label i r ih =>
    refine ⟨?_, fun h => h.elim⟩
    intro ha b hb x y hx hy e
    cases b <;> simp [CS.flat] at e
    case label i' r' =>
      obtain ⟨h1, h2⟩ := ih.1 ha.2 r' hb.2 x y hx hy e.2
      rw [e.1, h1]; exact ⟨rfl, h2⟩
    case nil => rcases hy with rfl | ⟨r, rfl⟩ <;> rcases ha.1 with ⟨l, e0⟩ | ⟨ow, n, e0⟩ <;> simp [e0] at e
    case jump i' r' => rcases hb.1 with ⟨l, n, e1⟩ | ⟨l, e1⟩ <;> rcases ha.1 with ⟨l, e0⟩ | ⟨ow, n, e0⟩ <;> simp [e0, e1] at e
    case case i' r' => rcases hb.1 with ⟨l, e1⟩ | e1 | e1 <;> rcases ha.1 with ⟨l, e0⟩ | ⟨ow, n, e0⟩ <;> simp [e0, e1] at e
    all_goals (first | exact hb.elim | (rcases ha.1 with ⟨l, e0⟩ | ⟨ow, n, e0⟩ <;> simp [e0] at e))
  | jump i r ih =>
    refine ⟨?_, fun h => h.elim⟩
    intro ha b hb x y hx hy e
    cases b <;> simp [CS.flat] at e
    case jump i' r' =>
      obtain ⟨h1, h2⟩ := ih.1 ha.2 r' hb.2 x y hx hy e.2
      rw [e.1, h1]; exact ⟨rfl, h2⟩
    case nil => rcases hy with rfl | ⟨r, rfl⟩ <;> rcases ha.1 with ⟨l, n, e0⟩ | ⟨l, e0⟩ <;> simp [e0] at e
    case label i' r' => rcases hb.1 with ⟨l, e1⟩ | ⟨ow, n, e1⟩ <;> rcases ha.1 with ⟨l, n, e0⟩ | ⟨l, e0⟩ <;> simp [e0, e1] at e
    case case i' r' => rcases hb.1 with ⟨l, e1⟩ | e1 | e1 <;> rcases ha.1 with ⟨l, n, e0⟩ | ⟨l, e0⟩ <;> simp [e0, e1] at e
    all_goals (first | exact hb.elim | (rcases ha.1 with ⟨l, n, e0⟩ | ⟨l, e0⟩ <;> simp [e0] at e))
  | case i r ih =>
    refine ⟨?_, fun h => h.elim⟩
    intro ha b hb x y hx hy e
    cases b <;> simp [CS.flat] at e
    case case i' r' =>
      obtain ⟨h1, h2⟩ := ih.1 ha.2 r' hb.2 x y hx hy e.2
      rw [e.1, h1]; exact ⟨rfl, h2⟩
    case nil => rcases hy with rfl | ⟨r, rfl⟩ <;> rcases ha.1 with ⟨l, e0⟩ | e0 | e0 <;> simp [e0] at e
    case label i' r' => rcases hb.1 with ⟨l, e1⟩ | ⟨ow, n, e1⟩ <;> rcases ha.1 with ⟨l, e0⟩ | e0 | e0 <;> simp [e0, e1] at e
    case jump i' r' => rcases hb.1 with ⟨l, n, e1⟩ | ⟨l, e1⟩ <;> rcases ha.1 with ⟨l, e0⟩ | e0 | e0 <;> simp [e0, e1] at e
    all_goals (first | exact hb.elim | (rcases ha.1 with ⟨l, e0⟩ | e0 | e0 <;> simp [e0] at e))
  | «catch» hid b1 n ihb ihn =>
    refine ⟨fun h => h.elim, ?_⟩
    intro ha b hb x y hx hy e
    cases b <;> first | exact hb.elim | skip
    · exact absurd e.symm (hy _ _)
    · rename_i hid' b1' n'
      simp [CS.flat] at e
      obtain ⟨h1, h2⟩ := ihb.1 ha.1 b1' hb.1 _ _ (.inr ⟨_, rfl⟩) (.inr ⟨_, rfl⟩) e.2
      simp only [List.cons.injEq, true_and] at h2
      obtain ⟨h3, h4⟩ := ihn.2 ha.2 n' hb.2 x y hx hy h2
      rw [e.1, h1, h3]; exact ⟨rfl, h4⟩

/-- C101: a text is the text of at most one C++ statement sequence. -/
theorem C101_one_reading (a b : CS) (ha : a.WF) (hb : b.WF) (h : a.flat = b.flat) : a = b :=
  ((flat_inj a).1 ha b hb [] [] (.inl rfl) (.inl rfl) (by simpa using h)).1

/-! ## The property -/

theorem emitMain_eq (main : Nat) (blocks : IL) : emitMain main false blocks = (emit main false blocks [1] ⟨1, main⟩).1 := by
  unfold emitMain
  rw [emit]
  simp

/-- The targets of the jumps of the instructions and of the text correspond. -/
theorem jump_sim (I : Interp σ ε) (main : Nat) (blocks : IL) (hs : Shape .blocks blocks) (hin : Innermost main [] blocks) (hid : (main :: ids blocks).Nodup)
    (hb : ∀ l ∈ branches blocks, ∀ b, (l, b) ∈ visited blocks → ¬ LoneLeave b) (n : Nat) :
    JLe (jumpIL I main blocks n) (jumpC I (tr main blocks [1] ⟨1, main⟩ .nil) n) (emit main false blocks [1] ⟨1, main⟩).1 := by
  have hnd := List.nodup_cons.mp hid
  have ho := emitMain_eq main blocks
  have hu : (labelNums (emit main false blocks [1] ⟨1, main⟩).1).Nodup := by rw [← ho]; exact C62_labels_unique main false blocks
  have hlc : LeavesCorrect main (emit main false blocks [1] ⟨1, main⟩).1 := by rw [← ho]; exact (C62_leaves_partial main blocks hnd.1).mpr hin
  have how : (owners (emit main false blocks [1] ⟨1, main⟩).1).Nodup := (List.nodup_append.mp (owners_nodup main blocks hnd.2 [1] ⟨1, main⟩)).1
  have hjm : jumps (emit main false blocks [1] ⟨1, main⟩).1 = branches blocks := jumps_emit main false blocks _ _
  have mem_jumps : ∀ (o : List Item) l, Item.jump l ∈ o → l ∈ jumps o := by
    intro o l h
    induction o with
    | nil => cases h
    | cons x xs ih =>
      rcases List.mem_cons.mp h with e | e
      · rw [← e]; simp [jumps]
      · cases x <;> simp [jumps, ih e]
  induction n with
  | zero => exact ⟨fun t n _ s => .inr rfl, fun l _ s => .inr rfl⟩
  | succ n ih =>
    have step : ∀ g i, Match g (goesTo i) (emit main false blocks [1] ⟨1, main⟩).1 → NoLone g blocks → LiveG g blocks → g ≠ .after main →
        KLe (jumpIL I main blocks (n + 1) g) (jumpC I (tr main blocks [1] ⟨1, main⟩ .nil) (n + 1) i) := by
      intro g i hm hlo hli hgm s
      have := (enter_sim I main _ _ g (goesTo i) blocks _ hs [] [1] ⟨1, main⟩ hin (by simp) hnd.1 ih hm hlo hli hgm Out.uncaught Out.uncaught
        (fun x s => .inr rfl)).1 trivial .nil stuckK stuckK none (KLe.stuck _) trivial
      rw [Option.or_none] at this
      rw [jumpIL, jumpC]
      revert this
      cases enter I main (jumpIL I main blocks n) g blocks Out.uncaught stuckK <;>
        cases enterC I (jumpC I (tr main blocks [1] ⟨1, main⟩ CS.nil) n) (goesTo i) (tr main blocks [1] ⟨1, main⟩ CS.nil) Out.uncaught stuckK
      · intro _; exact .inl rfl
      · intro h; exact h.elim
      · intro h; exact h.elim
      · intro h; exact h s
    constructor
    · intro t m hg
      obtain ⟨ow, hl, ht⟩ := hlc.1 t m hg
      refine step (.after t) (.goto t m) ⟨?_, ?_⟩ ?_ ?_ ?_
      · intro l _; simp [goesTo]
      · intro ow' m' hl'
        simp only [goesTo, decide_eq_decide, List.mem_map, Tgt.after.injEq, exists_eq_right]
        constructor
        · intro e
          subst e
          rw [← labelNums_unique hu hl hl']; exact ht
        · intro ht'
          exact (owners_unique how hl hl' ht ht').2
      · intro q _ h; cases h
      · intro t' h
        injection h with h
        subst h
        exact live_of_label main blocks hnd.2 _ _ _ _ _ hl ht
      · intro h
        injection h with h
        exact hnd.1 (by rw [← h]; exact label_owner _ _ _ _ _ _ hl _ ht)
    · intro l hg
      have hl : l ∈ branches blocks := by rw [← hjm]; exact mem_jumps _ _ hg
      refine step (.block l) (.jump l) ⟨?_, ?_⟩ ?_ ?_ ?_
      · intro l' _; simp [goesTo]
      · intro ow' m' _; simp [goesTo]
      · intro q hq h
        injection h with h
        exact hb l hl q.2 (by rw [h]; exact hq)
      · intro t' h; cases h
      · intro h; cases h

/-- C101: what is written for a method has exactly one reading as C++ statements, and running it does the same as running the instructions (the same
simple statements and conditions in the same order on the same states, ending the same way after the same number of jumps), for every method body in
which each leave is of the method or of the innermost container or try around it, containers are distinct, no branch goes to a block that is a single
leave, and which has the shape described in `Shape`.  (Several blocks are read as a sequence of compound statements; that the text is one function
body needs one block: C102.) -/
theorem C101_flow_partial (main : Nat) (blocks : IL) (hs : Shape .blocks blocks) (hin : Innermost main [] blocks) (hid : (main :: ids blocks).Nodup)
    (hb : ∀ l ∈ branches blocks, ∀ b, (l, b) ∈ visited blocks → ¬ LoneLeave b) :
    ∃ body : CS, body.WF ∧ body.flat = emitMain main false blocks ∧ (∀ b : CS, b.WF → b.flat = emitMain main false blocks → b = body) ∧
      ∀ (σ ε : Type) (I : Interp σ ε) (n : Nat) (s : σ), runIL I main blocks n s = .stuck ∨ runC I body n s = runIL I main blocks n s := by
  have ho := emitMain_eq main blocks
  have hwf : (tr main blocks [1] ⟨1, main⟩ .nil).WF := (tr_wf main blocks _ hs [1] ⟨1, main⟩ .nil).1 trivial trivial
  have hfl : (tr main blocks [1] ⟨1, main⟩ .nil).flat = emitMain main false blocks := by rw [tr_flat, ho]; simp [CS.flat]
  refine ⟨tr main blocks [1] ⟨1, main⟩ .nil, hwf, hfl, fun b hb he => C101_one_reading b _ hb hwf (he.trans hfl.symm), ?_⟩
  intro σ ε I n s
  have := (exec_sim I main _ _ blocks _ hs [] [1] ⟨1, main⟩ hin (by simp) (List.nodup_cons.mp hid).1 (jump_sim I main blocks hs hin hid hb n)
    Out.uncaught Out.uncaught (fun x s => .inr rfl)).1 trivial .nil stuckK stuckK (KLe.stuck _) s
  rcases this with h | h
  · exact .inl h
  · exact .inr h.symm

/-! ## Methods the theorem covers, and methods for which the claim is false -/

/-- A concrete machine: the state is a list of what has been done; condition 7 holds until three statements are done, the switch value is the number of
things done so far, statement 4 raises an exception and every handler is for it. -/
def traceI : Interp (List Nat) Nat where
  act k s := if k = 4 then .raise 4 s else .ok () (s ++ [k])
  cond c s := .ok (decide (s.length < 3)) (s ++ [c])
  val _ s := .ok s.length s
  ret v s := .ok v s
  catches _ _ := true
  bind h x s := s ++ [h, x]

theorem loopMethod_flow : Shape .blocks loopMethod ∧ Innermost 9 [] loopMethod ∧ (9 :: ids loopMethod).Nodup ∧
    ∀ l ∈ branches loopMethod, ∀ b, (l, b) ∈ visited loopMethod → ¬ LoneLeave b := by
  refine ⟨by simp [loopMethod, Shape], by simp [loopMethod, Innermost], by decide, ?_⟩
  intro l hl b hb
  simp [loopMethod, branches] at hl
  subst hl
  simp [loopMethod, visited] at hb
  rw [hb]
  rintro ⟨_, _, _, e⟩
  simp at e

/-- The loop is run and left, then the method returns. -/
example : runIL traceI 9 loopMethod 5 [] = .ret (some 1) [7, 3, 7, 3, 7] := by
  simp [loopMethod, runIL, exec, jumpIL, enter, traceI, Interp.leave]

example : ∃ body : CS, body.flat = emitMain 9 false loopMethod ∧ runC traceI body 5 [] = .ret (some 1) [7, 3, 7, 3, 7] := by
  obtain ⟨body, _, h2, _, h3⟩ := C101_flow_partial 9 loopMethod loopMethod_flow.1 loopMethod_flow.2.1 loopMethod_flow.2.2.1 loopMethod_flow.2.2.2
  refine ⟨body, h2, ?_⟩
  have e : runIL traceI 9 loopMethod 5 [] = .ret (some 1) [7, 3, 7, 3, 7] := by
    simp [loopMethod, runIL, exec, jumpIL, enter, traceI, Interp.leave]
  rcases h3 _ _ traceI 5 [] with h | h
  · rw [e] at h; cases h
  · rw [h, e]

/-- A `try` and a switch behind it: the `try` does statements 6 and 4 (which raises), the handler does statement 5; a switch whose first section returns and whose default section does statement 8 follows. -/
def tryMethod : IL :=
  .bcons 0
    (.cons (.tryCatch 2 6 (.cons (.act 6) (.cons (.act 4) (.cons (.leave 2 6 none) .nil))) .bnil
      (.hcons 3 7 (.cons (.act 5) (.cons (.leave 3 7 none) .nil)) .bnil .hnil))
    (.cons (.switch 1 (.scons [(1, 1)] (.leave 9 0 (some 1)) (.scons [(-2 ^ 63, 0), (2, 2 ^ 63 - 1)] (.block (.cons (.act 8) .nil)) .snil)))
    (.cons (.leave 9 0 none) .nil))) .bnil

theorem tryMethod_flow : Shape .blocks tryMethod ∧ Innermost 9 [] tryMethod ∧ (9 :: ids tryMethod).Nodup ∧
    ∀ l ∈ branches tryMethod, ∀ b, (l, b) ∈ visited tryMethod → ¬ LoneLeave b := by
  refine ⟨?_, by simp [tryMethod, Innermost, handlerIds], by decide, by intro l hl; simp [tryMethod, branches] at hl⟩
  simp [tryMethod, Shape, falls, sectionsOf, Sections.WF, LongSet.WF, LongSet.has]
  exact ⟨fun v => by omega, _, _, .inl ⟨rfl, rfl⟩, by omega, by omega⟩

example : runIL traceI 9 tryMethod 5 [] = .ret none [6, 3, 4, 5, 8] := by
  simp [tryMethod, runIL, exec, select, handle, jumpIL, enter, traceI, Interp.leave, handlerIds, LongSet.has]

example : ∃ body : CS, body.flat = emitMain 9 false tryMethod ∧ runC traceI body 5 [] = .ret none [6, 3, 4, 5, 8] := by
  obtain ⟨body, _, h2, _, h3⟩ := C101_flow_partial 9 tryMethod tryMethod_flow.1 tryMethod_flow.2.1 tryMethod_flow.2.2.1 tryMethod_flow.2.2.2
  refine ⟨body, h2, ?_⟩
  have e : runIL traceI 9 tryMethod 5 [] = .ret none [6, 3, 4, 5, 8] := by
    simp [tryMethod, runIL, exec, select, handle, jumpIL, enter, traceI, Interp.leave, handlerIds, LongSet.has]
  rcases h3 _ _ traceI 5 [] with h | h
  · rw [e] at h; cases h
  · rw [h, e]

/-- C101 fails: `break` inside a `try` inside a loop (`breakInTry`) leaves the loop, but the C++ goes round the loop until the jumps are used up. -/
theorem C101_break_in_try_refuted : runIL traceI 9 breakInTry 5 [] = .ret none [] ∧
    ∀ b : CS, b.WF → b.flat = emitMain 9 false breakInTry → runC traceI b 5 [] = .timeout [] := by
  constructor
  · simp [breakInTry, runIL, exec, jumpIL, enter, handlerIds, Interp.leave]
  · intro b hb he
    have hwf : (tr 9 breakInTry [1] ⟨1, 9⟩ .nil).WF := (tr_wf 9 breakInTry .blocks (by simp [breakInTry, Shape]) [1] ⟨1, 9⟩ .nil).1 trivial trivial
    have hfl : (tr 9 breakInTry [1] ⟨1, 9⟩ .nil).flat = emitMain 9 false breakInTry := by rw [tr_flat, emitMain_eq]; simp [CS.flat]
    rw [C101_one_reading b _ hb hwf (he.trans hfl.symm)]
    rfl

/-- A switch whose first section ends without a jump. -/
def fallMethod : IL :=
  .bcons 0 (.cons (.switch 1 (.scons [(0, 0)] (.block (.cons (.act 1) .nil)) (.scons [(-2 ^ 63, -1), (1, 2 ^ 63 - 1)] (.block (.cons (.act 2) .nil)) .snil)))
    (.cons (.leave 9 0 none) .nil)) .bnil

/-- C101 fails: without a `break` the C++ runs into the next section. -/
theorem C101_fall_through_refuted : runIL traceI 9 fallMethod 5 [] = .ret none [1] ∧
    ∀ b : CS, b.WF → b.flat = emitMain 9 false fallMethod → runC traceI b 5 [] = .ret none [1, 2] := by
  constructor
  · simp [fallMethod, runIL, exec, select, traceI, LongSet.has, Interp.leave]
  · intro b hb he
    have hwf : (tr 9 fallMethod [1] ⟨1, 9⟩ .nil).WF := by
      simp [fallMethod, tr, CS.WF, lblC, blockLabel, caseHead, secC, ended]
    have hfl : (tr 9 fallMethod [1] ⟨1, 9⟩ .nil).flat = emitMain 9 false fallMethod := by rw [tr_flat, emitMain_eq]; simp [CS.flat]
    rw [C101_one_reading b _ hb hwf (he.trans hfl.symm)]
    rfl

end Verif.Stmt
