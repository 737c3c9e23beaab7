import Verif.FlowSpec
import Verif.FlowProps
import Mathlib.Data.List.Forall2
/-!
# Statements that differ only in the numbers of their pieces do the same
-/
namespace Verif.Stmt

variable {σ ε : Type}

/-- The same piece under other numbers: `jr` relates jumps, `lr` labels. -/
inductive IR (I I' : Interp σ ε) (jr lr : Item → Item → Prop) : Item → Item → Prop
  | text {a b} : I.act a = I'.act b → IR I I' jr lr (.text a) (.text b)
  | ifHead {a b} : I.cond a = I'.cond b → IR I I' jr lr (.ifHead a) (.ifHead b)
  | elseHead : IR I I' jr lr .elseHead .elseHead
  | switchHead {a b} : I.val a = I'.val b → IR I I' jr lr (.switchHead a) (.switchHead b)
  | caseHead {v} : IR I I' jr lr (.caseHead v) (.caseHead v)
  | defaultHead : IR I I' jr lr .defaultHead .defaultHead
  | opn : IR I I' jr lr .opn .opn
  | cls : IR I I' jr lr .cls .cls
  | semi : IR I I' jr lr .semi .semi
  | retNone {t t'} : IR I I' jr lr (.ret t none) (.ret t' none)
  | retSome {t t' a b} : I.ret a = I'.ret b → IR I I' jr lr (.ret t (some a)) (.ret t' (some b))
  | jump {i j} : ((∃ t n, i = .goto t n) ∨ ∃ l, i = .jump l) → ((∃ t n, j = .goto t n) ∨ ∃ l, j = .jump l) → jr i j → IR I I' jr lr i j
  | label {i j} : ((∃ l, i = .blockLabel l) ∨ ∃ ow n, i = .leaveLabel ow n) → ((∃ l, j = .blockLabel l) ∨ ∃ ow n, j = .leaveLabel ow n) → lr i j → IR I I' jr lr i j
  | tryHead : IR I I' jr lr .tryHead .tryHead
  | catchHead {a b} : I.catches a = I'.catches b → I.bind a = I'.bind b → IR I I' jr lr (.catchHead a) (.catchHead b)

/-- The same statements under other numbers. -/
inductive CRel (I I' : Interp σ ε) (jr lr : Item → Item → Prop) : CS → CS → Prop
  | nil : CRel I I' jr lr .nil .nil
  | text {a b r r'} : I.act a = I'.act b → CRel I I' jr lr r r' → CRel I I' jr lr (.text a r) (.text b r')
  | semi {r r'} : CRel I I' jr lr r r' → CRel I I' jr lr (.semi r) (.semi r')
  | label {i j r r'} : lr i j → CRel I I' jr lr r r' → CRel I I' jr lr (.label i r) (.label j r')
  | jump {i j r r'} : jr i j → CRel I I' jr lr r r' → CRel I I' jr lr (.jump i r) (.jump j r')
  | retNone {t t' r r'} : CRel I I' jr lr r r' → CRel I I' jr lr (.ret t none r) (.ret t' none r')
  | retSome {t t' a b r r'} : I.ret a = I'.ret b → CRel I I' jr lr r r' → CRel I I' jr lr (.ret t (some a) r) (.ret t' (some b) r')
  | ite {a b t t' r r'} : I.cond a = I'.cond b → CRel I I' jr lr t t' → CRel I I' jr lr r r' → CRel I I' jr lr (.ite a t r) (.ite b t' r')
  | iteElse {a b t t' f f' r r'} : I.cond a = I'.cond b → CRel I I' jr lr t t' → CRel I I' jr lr f f' → CRel I I' jr lr r r' →
      CRel I I' jr lr (.iteElse a t f r) (.iteElse b t' f' r')
  | group {b b' r r'} : CRel I I' jr lr b b' → CRel I I' jr lr r r' → CRel I I' jr lr (.group b r) (.group b' r')
  | switch {v v' b b' r r'} : I.val v = I'.val v' → CRel I I' jr lr b b' → CRel I I' jr lr r r' → CRel I I' jr lr (.switch v b r) (.switch v' b' r')
  | case {i r r'} : CRel I I' jr lr r r' → CRel I I' jr lr (.case i r) (.case i r')
  | tryc {b b' h h' r r'} : CRel I I' jr lr b b' → CRel I I' jr lr h h' → CRel I I' jr lr r r' → CRel I I' jr lr (.tryc b h r) (.tryc b' h' r')
  | handler {a a' b b' n n'} : I.catches a = I'.catches a' → I.bind a = I'.bind a' → CRel I I' jr lr b b' → CRel I I' jr lr n n' →
      CRel I I' jr lr (.catch a b n) (.catch a' b' n')

variable {I I' : Interp σ ε} {jr lr : Item → Item → Prop}

theorem leave_same {a b : Nat} (h : I.ret a = I'.ret b) : (I.leave (some a) : HCont σ ε → Cont σ ε) = I'.leave (some b) := by
  funext hh s
  simp only [Interp.leave, h]

theorem execC_rel {J J' : Item → Cont σ ε} (hJ : ∀ i j, jr i j → J i = J' j) {c c' : CS} (h : CRel I I' jr lr c c') :
    (∀ h k, execC I J c h k = execC I' J' c' h k) ∧ (∀ i h k, atCase I J i c h k = atCase I' J' i c' h k) ∧ (∀ h k, handleC I J c h k = handleC I' J' c' h k) := by
  induction h with
  | nil => exact ⟨fun _ _ => rfl, fun _ _ _ => rfl, fun _ _ => rfl⟩
  | text e _ ih =>
    refine ⟨fun h k => ?_, fun i h k => ?_, fun h k => rfl⟩
    · funext s; simp only [execC, e, ih.1]
    · simp only [atCase, ih.2.1]
  | semi _ ih =>
    refine ⟨fun h k => ?_, fun i h k => ?_, fun h k => rfl⟩
    · funext s; simp only [execC, ih.1]
    · simp only [atCase, ih.2.1]
  | label _ _ ih =>
    refine ⟨fun h k => ?_, fun i h k => ?_, fun h k => rfl⟩
    · funext s; simp only [execC, ih.1]
    · simp only [atCase, ih.2.1]
  | jump e _ ih =>
    refine ⟨fun h k => ?_, fun i h k => ?_, fun h k => rfl⟩
    · funext s; simp only [execC, hJ _ _ e]
    · simp only [atCase, ih.2.1]
  | retNone _ ih =>
    refine ⟨fun h k => ?_, fun i h k => ?_, fun h k => rfl⟩
    · funext s; simp only [execC, Interp.leave]
    · simp only [atCase, ih.2.1]
  | retSome e _ ih =>
    refine ⟨fun h k => ?_, fun i h k => ?_, fun h k => rfl⟩
    · funext s; simp only [execC, leave_same e]
    · simp only [atCase, ih.2.1]
  | ite e _ _ iht ihr =>
    refine ⟨fun h k => ?_, fun i h k => ?_, fun h k => rfl⟩
    · funext s; simp only [execC, e, iht.1, ihr.1]
    · simp only [atCase, iht.2.1, ihr.1, ihr.2.1]
  | iteElse e _ _ _ iht ihf ihr =>
    refine ⟨fun h k => ?_, fun i h k => ?_, fun h k => rfl⟩
    · funext s; simp only [execC, e, iht.1, ihf.1, ihr.1]
    · simp only [atCase, iht.2.1, ihf.2.1, ihr.1, ihr.2.1]
  | group _ _ iht ihr =>
    refine ⟨fun h k => ?_, fun i h k => ?_, fun h k => rfl⟩
    · funext s; simp only [execC, iht.1, ihr.1]
    · simp only [atCase, iht.2.1, ihr.1, ihr.2.1]
  | switch e _ _ iht ihr =>
    refine ⟨fun h k => ?_, fun i h k => ?_, fun h k => rfl⟩
    · funext s; simp only [execC, e, iht.2.1, ihr.1]
    · simp only [atCase, ihr.2.1]
  | case _ ih =>
    refine ⟨fun h k => ?_, fun i h k => ?_, fun h k => rfl⟩
    · funext s; simp only [execC, ih.1]
    · simp only [atCase, ih.1, ih.2.1]
  | tryc _ _ _ ihb ihh ihr =>
    refine ⟨fun h k => ?_, fun i h k => ?_, fun h k => rfl⟩
    · funext s; simp only [execC, ihb.1, ihh.2.2, ihr.1]
    · simp only [atCase, ihb.2.1, ihr.1, ihr.2.1]
  | handler e1 e2 _ _ ihb ihn =>
    refine ⟨fun h k => ?_, fun i h k => ?_, fun h k => ?_⟩
    · funext s; simp only [execC]
    · simp only [atCase, ihn.2.1]
    · funext x s; simp only [handleC, e1, e2, ihb.1, ihn.2.2]

theorem enterC_rel {J J' : Item → Cont σ ε} (hJ : ∀ i j, jr i j → J i = J' j) {p p' : Item → Bool} (hp : ∀ i j, lr i j → p i = p' j) {c c' : CS} (h : CRel I I' jr lr c c') :
    ∀ h k, enterC I J p c h k = enterC I' J' p' c' h k := by
  induction h with
  | nil => intro h k; rfl
  | text _ _ ih => intro h k; simp only [enterC, ih]
  | semi _ ih => intro h k; simp only [enterC, ih]
  | label e r ih => intro h k; simp only [enterC, ih, hp _ _ e, (execC_rel hJ r).1]
  | jump _ _ ih => intro h k; simp only [enterC, ih]
  | retNone _ ih => intro h k; simp only [enterC, ih]
  | retSome _ _ ih => intro h k; simp only [enterC, ih]
  | ite _ _ r iht ihr => intro h k; simp only [enterC, iht, ihr, (execC_rel hJ r).1]
  | iteElse _ _ _ r iht ihf ihr => intro h k; simp only [enterC, iht, ihf, ihr, (execC_rel hJ r).1]
  | group _ r iht ihr => intro h k; simp only [enterC, iht, ihr, (execC_rel hJ r).1]
  | switch _ _ r iht ihr => intro h k; simp only [enterC, iht, ihr, (execC_rel hJ r).1]
  | case _ ih => intro h k; simp only [enterC, ih]
  | tryc _ hh r ihb ihh ihr => intro h k; simp only [enterC, ihb, ihh, ihr, (execC_rel hJ r).1, (execC_rel hJ hh).2.2]
  | handler _ _ _ _ ihb ihn => intro h k; simp only [enterC, ihb, ihn]

theorem runC_rel (hg : ∀ i j l m, jr i j → lr l m → goesTo i l = goesTo j m) {c c' : CS} (h : CRel I I' jr lr c c') (n : Nat) : runC I c n = runC I' c' n := by
  have key : ∀ n i j, jr i j → jumpC I c n i = jumpC I' c' n j := by
    intro n
    induction n with
    | zero => intro i j _; rfl
    | succ n ih =>
      intro i j hij
      funext s
      simp only [jumpC]
      rw [enterC_rel ih (fun l m hlm => hg i j l m hij hlm) h]
  unfold runC
  rw [(execC_rel (key n) h).1]

theorem forall2_append {α β : Type} {R : α → β → Prop} : ∀ {a b : List α} {u : List β}, List.Forall₂ R (a ++ b) u → ∃ u1 u2, List.Forall₂ R a u1 ∧ List.Forall₂ R b u2 ∧ u = u1 ++ u2
  | [], _, u, h => ⟨[], u, .nil, h, rfl⟩
  | _ :: a, b, _, h => by
    obtain ⟨y, u', h1, h2, rfl⟩ := List.forall₂_cons_left_iff.mp h
    obtain ⟨u1, u2, h3, h4, rfl⟩ := forall2_append h2
    exact ⟨y :: u1, u2, .cons h1 h3, h4, rfl⟩

theorem isJump_not {i : Item} (h : (∃ t n, i = .goto t n) ∨ ∃ l, i = .jump l) : i ≠ .opn ∧ i ≠ .cls ∧ i ≠ .semi ∧ i ≠ .elseHead ∧ i ≠ .tryHead ∧ (∀ a, i ≠ .text a) ∧
    (∀ a, i ≠ .ifHead a) ∧ (∀ a, i ≠ .switchHead a) ∧ (∀ a, i ≠ .catchHead a) ∧ (∀ a b, i ≠ .ret a b) ∧ (∀ a, i ≠ .blockLabel a) ∧ (∀ a b, i ≠ .leaveLabel a b) ∧
    (∀ a, i ≠ .caseHead a) ∧ i ≠ .defaultHead ∧ i ≠ .bareColon := by
  rcases h with ⟨_, _, rfl⟩ | ⟨_, rfl⟩ <;> simp

theorem isLabel_not {i : Item} (h : (∃ l, i = .blockLabel l) ∨ ∃ ow n, i = .leaveLabel ow n) : i ≠ .opn ∧ i ≠ .cls ∧ i ≠ .semi ∧ i ≠ .elseHead ∧ i ≠ .tryHead ∧
    (∀ a, i ≠ .text a) ∧ (∀ a, i ≠ .ifHead a) ∧ (∀ a, i ≠ .switchHead a) ∧ (∀ a, i ≠ .catchHead a) ∧ (∀ a b, i ≠ .ret a b) ∧ (∀ a, i ≠ .jump a) ∧ (∀ a b, i ≠ .goto a b) ∧
    (∀ a, i ≠ .caseHead a) ∧ i ≠ .defaultHead ∧ i ≠ .bareColon := by
  rcases h with ⟨_, rfl⟩ | ⟨_, _, rfl⟩ <;> simp

theorem inv_opn {x : Item} (h : IR I I' jr lr .opn x) : x = .opn := by
  cases h with
  | opn => rfl
  | jump h => exact absurd rfl (isJump_not h).1
  | label h => exact absurd rfl (isLabel_not h).1
theorem inv_cls {x : Item} (h : IR I I' jr lr .cls x) : x = .cls := by
  cases h with
  | cls => rfl
  | jump h => exact absurd rfl (isJump_not h).2.1
  | label h => exact absurd rfl (isLabel_not h).2.1
theorem inv_semi {x : Item} (h : IR I I' jr lr .semi x) : x = .semi := by
  cases h with
  | semi => rfl
  | jump h => exact absurd rfl (isJump_not h).2.2.1
  | label h => exact absurd rfl (isLabel_not h).2.2.1
theorem inv_else {x : Item} (h : IR I I' jr lr .elseHead x) : x = .elseHead := by
  cases h with
  | elseHead => rfl
  | jump h => exact absurd rfl (isJump_not h).2.2.2.1
  | label h => exact absurd rfl (isLabel_not h).2.2.2.1
theorem inv_try {x : Item} (h : IR I I' jr lr .tryHead x) : x = .tryHead := by
  cases h with
  | tryHead => rfl
  | jump h => exact absurd rfl (isJump_not h).2.2.2.2.1
  | label h => exact absurd rfl (isLabel_not h).2.2.2.2.1
theorem inv_text {a : Nat} {x : Item} (h : IR I I' jr lr (.text a) x) : ∃ b, x = .text b ∧ I.act a = I'.act b := by
  cases h with
  | text e => exact ⟨_, rfl, e⟩
  | jump h => exact absurd rfl ((isJump_not h).2.2.2.2.2.1 _)
  | label h => exact absurd rfl ((isLabel_not h).2.2.2.2.2.1 _)
theorem inv_if {a : Nat} {x : Item} (h : IR I I' jr lr (.ifHead a) x) : ∃ b, x = .ifHead b ∧ I.cond a = I'.cond b := by
  cases h with
  | ifHead e => exact ⟨_, rfl, e⟩
  | jump h => exact absurd rfl ((isJump_not h).2.2.2.2.2.2.1 _)
  | label h => exact absurd rfl ((isLabel_not h).2.2.2.2.2.2.1 _)
theorem inv_switch {a : Nat} {x : Item} (h : IR I I' jr lr (.switchHead a) x) : ∃ b, x = .switchHead b ∧ I.val a = I'.val b := by
  cases h with
  | switchHead e => exact ⟨_, rfl, e⟩
  | jump h => exact absurd rfl ((isJump_not h).2.2.2.2.2.2.2.1 _)
  | label h => exact absurd rfl ((isLabel_not h).2.2.2.2.2.2.2.1 _)
theorem inv_catch {a : Nat} {x : Item} (h : IR I I' jr lr (.catchHead a) x) : ∃ b, x = .catchHead b ∧ I.catches a = I'.catches b ∧ I.bind a = I'.bind b := by
  cases h with
  | catchHead e1 e2 => exact ⟨_, rfl, e1, e2⟩
  | jump h => exact absurd rfl ((isJump_not h).2.2.2.2.2.2.2.2.1 _)
  | label h => exact absurd rfl ((isLabel_not h).2.2.2.2.2.2.2.2.1 _)
theorem inv_ret {t : Nat} {v : Option Nat} {x : Item} (h : IR I I' jr lr (.ret t v) x) :
    (v = none ∧ ∃ t', x = .ret t' none) ∨ ∃ a b t', v = some a ∧ x = .ret t' (some b) ∧ I.ret a = I'.ret b := by
  cases h with
  | retNone => exact .inl ⟨rfl, _, rfl⟩
  | retSome e => exact .inr ⟨_, _, _, rfl, rfl, e⟩
  | jump h => exact absurd rfl ((isJump_not h).2.2.2.2.2.2.2.2.2.1 _ _)
  | label h => exact absurd rfl ((isLabel_not h).2.2.2.2.2.2.2.2.2.1 _ _)
theorem inv_jump {i x : Item} (hi : (∃ t n, i = .goto t n) ∨ ∃ l, i = .jump l) (h : IR I I' jr lr i x) : ((∃ t n, x = .goto t n) ∨ ∃ l, x = .jump l) ∧ jr i x := by
  cases h with
  | jump _ h2 h3 => exact ⟨h2, h3⟩
  | label h => rcases hi with ⟨_, _, rfl⟩ | ⟨_, rfl⟩ <;> rcases h with ⟨_, h⟩ | ⟨_, _, h⟩ <;> cases h
  | _ => rcases hi with ⟨_, _, h⟩ | ⟨_, h⟩ <;> cases h
theorem inv_label {i x : Item} (hi : (∃ l, i = .blockLabel l) ∨ ∃ ow n, i = .leaveLabel ow n) (h : IR I I' jr lr i x) :
    ((∃ l, x = .blockLabel l) ∨ ∃ ow n, x = .leaveLabel ow n) ∧ lr i x := by
  cases h with
  | label _ h2 h3 => exact ⟨h2, h3⟩
  | jump h => rcases hi with ⟨_, rfl⟩ | ⟨_, _, rfl⟩ <;> rcases h with ⟨_, _, h⟩ | ⟨_, h⟩ <;> cases h
  | _ => rcases hi with ⟨_, h⟩ | ⟨_, _, h⟩ <;> cases h
theorem inv_case {i x : Item} (hi : (∃ v, i = .caseHead v) ∨ i = .defaultHead ∨ i = .bareColon) (h : IR I I' jr lr i x) : x = i := by
  rcases hi with ⟨v, rfl⟩ | rfl | rfl
  · cases h with
    | caseHead => rfl
    | jump h => exact absurd rfl ((isJump_not h).2.2.2.2.2.2.2.2.2.2.2.2.1 _)
    | label h => exact absurd rfl ((isLabel_not h).2.2.2.2.2.2.2.2.2.2.2.2.1 _)
  · cases h with
    | defaultHead => rfl
    | jump h => exact absurd rfl (isJump_not h).2.2.2.2.2.2.2.2.2.2.2.2.2.1
    | label h => exact absurd rfl (isLabel_not h).2.2.2.2.2.2.2.2.2.2.2.2.2.1
  · cases h with
    | jump h => exact absurd rfl (isJump_not h).2.2.2.2.2.2.2.2.2.2.2.2.2.2
    | label h => exact absurd rfl (isLabel_not h).2.2.2.2.2.2.2.2.2.2.2.2.2.2

/-- `{ b } r` -/
theorem inv_braces {b r : List Item} {l : List Item} (h : List.Forall₂ (IR I I' jr lr) (.opn :: b ++ .cls :: r) l) :
    ∃ b' r', l = .opn :: b' ++ .cls :: r' ∧ List.Forall₂ (IR I I' jr lr) b b' ∧ List.Forall₂ (IR I I' jr lr) r r' := by
  rw [List.cons_append] at h
  obtain ⟨x, l, h1, h2, rfl⟩ := List.forall₂_cons_left_iff.mp h
  obtain rfl := inv_opn h1
  obtain ⟨b', l2, h3, h4, rfl⟩ := forall2_append h2
  obtain ⟨y, r', h5, h6, rfl⟩ := List.forall₂_cons_left_iff.mp h4
  obtain rfl := inv_cls h5
  exact ⟨b', r', rfl, h3, h6⟩

/-- A text with the same pieces under other numbers has the same statements. -/
theorem rename (c : CS) : (c.WF → ∀ l, List.Forall₂ (IR I I' jr lr) c.flat l → ∃ c', c'.WF ∧ c'.flat = l ∧ CRel I I' jr lr c c') ∧
    (CS.WF.Catches c → ∀ l, List.Forall₂ (IR I I' jr lr) c.flat l → ∃ c', CS.WF.Catches c' ∧ c'.flat = l ∧ CRel I I' jr lr c c') := by
  induction c with
  | nil =>
    refine ⟨fun _ l h => ?_, fun _ l h => ?_⟩ <;>
    · cases List.forall₂_nil_left_iff.mp h
      exact ⟨.nil, trivial, rfl, .nil⟩
  | text k r ih =>
    refine ⟨fun hw l h => ?_, fun hw => hw.elim⟩
    obtain ⟨x, l, h1, h2, rfl⟩ := List.forall₂_cons_left_iff.mp h
    obtain ⟨b, rfl, e⟩ := inv_text h1
    obtain ⟨r', g1, g2, g3⟩ := ih.1 hw l h2
    exact ⟨.text b r', g1, by simp [CS.flat, g2], .text e g3⟩
  | semi r ih =>
    refine ⟨fun hw l h => ?_, fun hw => hw.elim⟩
    obtain ⟨x, l, h1, h2, rfl⟩ := List.forall₂_cons_left_iff.mp h
    obtain rfl := inv_semi h1
    obtain ⟨r', g1, g2, g3⟩ := ih.1 hw l h2
    exact ⟨.semi r', g1, by simp [CS.flat, g2], .semi g3⟩
  | label i r ih =>
    refine ⟨fun hw l h => ?_, fun hw => hw.elim⟩
    obtain ⟨x, l, h1, h2, rfl⟩ := List.forall₂_cons_left_iff.mp h
    obtain ⟨e1, e2⟩ := inv_label hw.1 h1
    obtain ⟨r', g1, g2, g3⟩ := ih.1 hw.2 l h2
    exact ⟨.label x r', ⟨e1, g1⟩, by simp [CS.flat, g2], .label e2 g3⟩
  | jump i r ih =>
    refine ⟨fun hw l h => ?_, fun hw => hw.elim⟩
    obtain ⟨x, l, h1, h2, rfl⟩ := List.forall₂_cons_left_iff.mp h
    obtain ⟨e1, e2⟩ := inv_jump hw.1 h1
    obtain ⟨r', g1, g2, g3⟩ := ih.1 hw.2 l h2
    exact ⟨.jump x r', ⟨e1, g1⟩, by simp [CS.flat, g2], .jump e2 g3⟩
  | ret t v r ih =>
    refine ⟨fun hw l h => ?_, fun hw => hw.elim⟩
    obtain ⟨x, l, h1, h2, rfl⟩ := List.forall₂_cons_left_iff.mp h
    obtain ⟨r', g1, g2, g3⟩ := ih.1 hw l h2
    rcases inv_ret h1 with ⟨rfl, t', rfl⟩ | ⟨a, b, t', rfl, rfl, e⟩
    · exact ⟨.ret t' none r', g1, by simp [CS.flat, g2], .retNone g3⟩
    · exact ⟨.ret t' (some b) r', g1, by simp [CS.flat, g2], .retSome e g3⟩
  | ite a t r iht ihr =>
    refine ⟨fun hw l h => ?_, fun hw => hw.elim⟩
    simp only [CS.flat, List.cons_append] at h
    obtain ⟨x, l, h1, h2, rfl⟩ := List.forall₂_cons_left_iff.mp h
    obtain ⟨b, rfl, e⟩ := inv_if h1
    obtain ⟨lt, lr', rfl, h3, h4⟩ := inv_braces h2
    obtain ⟨t', g1, g2, g3⟩ := iht.1 hw.1 _ h3
    obtain ⟨r', f1, f2, f3⟩ := ihr.1 hw.2 _ h4
    exact ⟨.ite b t' r', ⟨g1, f1⟩, by simp [CS.flat, g2, f2], .ite e g3 f3⟩
  | iteElse a t f r iht ihf ihr =>
    refine ⟨fun hw l h => ?_, fun hw => hw.elim⟩
    simp only [CS.flat, List.cons_append] at h
    obtain ⟨x, l, h1, h2, rfl⟩ := List.forall₂_cons_left_iff.mp h
    obtain ⟨b, rfl, e⟩ := inv_if h1
    obtain ⟨lt, l3, rfl, h3, h4⟩ := inv_braces h2
    obtain ⟨x, l4, h5, h6, rfl⟩ := List.forall₂_cons_left_iff.mp h4
    obtain rfl := inv_else h5
    obtain ⟨lf, lr', rfl, h7, h8⟩ := inv_braces h6
    obtain ⟨t', g1, g2, g3⟩ := iht.1 hw.1 _ h3
    obtain ⟨f', d1, d2, d3⟩ := ihf.1 hw.2.1 _ h7
    obtain ⟨r', f1, f2, f3⟩ := ihr.1 hw.2.2 _ h8
    exact ⟨.iteElse b t' f' r', ⟨g1, d1, f1⟩, by simp [CS.flat, g2, f2, d2], .iteElse e g3 d3 f3⟩
  | group t r iht ihr =>
    refine ⟨fun hw l h => ?_, fun hw => hw.elim⟩
    obtain ⟨lt, lr', rfl, h3, h4⟩ := inv_braces h
    obtain ⟨t', g1, g2, g3⟩ := iht.1 hw.1 _ h3
    obtain ⟨r', f1, f2, f3⟩ := ihr.1 hw.2 _ h4
    exact ⟨.group t' r', ⟨g1, f1⟩, by simp [CS.flat, g2, f2], .group g3 f3⟩
  | switch a t r iht ihr =>
    refine ⟨fun hw l h => ?_, fun hw => hw.elim⟩
    simp only [CS.flat, List.cons_append] at h
    obtain ⟨x, l, h1, h2, rfl⟩ := List.forall₂_cons_left_iff.mp h
    obtain ⟨b, rfl, e⟩ := inv_switch h1
    obtain ⟨lt, lr', rfl, h3, h4⟩ := inv_braces h2
    obtain ⟨t', g1, g2, g3⟩ := iht.1 hw.1 _ h3
    obtain ⟨r', f1, f2, f3⟩ := ihr.1 hw.2 _ h4
    exact ⟨.switch b t' r', ⟨g1, f1⟩, by simp [CS.flat, g2, f2], .switch e g3 f3⟩
  | case i r ih =>
    refine ⟨fun hw l h => ?_, fun hw => hw.elim⟩
    obtain ⟨x, l, h1, h2, rfl⟩ := List.forall₂_cons_left_iff.mp h
    obtain rfl := inv_case hw.1 h1
    obtain ⟨r', g1, g2, g3⟩ := ih.1 hw.2 l h2
    exact ⟨.case x r', ⟨hw.1, g1⟩, by simp [CS.flat, g2], .case g3⟩
  | tryc b hs r ihb ihh ihr =>
    refine ⟨fun hw l h => ?_, fun hw => hw.elim⟩
    simp only [CS.flat, List.cons_append] at h
    obtain ⟨x, l, h1, h2, rfl⟩ := List.forall₂_cons_left_iff.mp h
    obtain rfl := inv_try h1
    obtain ⟨lb, l3, rfl, h3, h4⟩ := inv_braces h2
    obtain ⟨lh, lr', h5, h6, rfl⟩ := forall2_append h4
    obtain ⟨b', g1, g2, g3⟩ := ihb.1 hw.1 _ h3
    obtain ⟨hs', d1, d2, d3⟩ := ihh.2 hw.2.1 _ h5
    obtain ⟨r', f1, f2, f3⟩ := ihr.1 hw.2.2 _ h6
    exact ⟨.tryc b' hs' r', ⟨g1, d1, f1⟩, by simp [CS.flat, g2, f2, d2], .tryc g3 d3 f3⟩
  | «catch» hid b n ihb ihn =>
    refine ⟨fun hw => hw.elim, fun hw l h => ?_⟩
    simp only [CS.flat, List.cons_append] at h
    obtain ⟨x, l, h1, h2, rfl⟩ := List.forall₂_cons_left_iff.mp h
    obtain ⟨hid', rfl, e1, e2⟩ := inv_catch h1
    obtain ⟨lb, ln, rfl, h3, h4⟩ := inv_braces h2
    obtain ⟨b', g1, g2, g3⟩ := ihb.1 hw.1 _ h3
    obtain ⟨n', f1, f2, f3⟩ := ihn.2 hw.2 _ h4
    exact ⟨.catch hid' b' n', ⟨g1, f1⟩, by simp [CS.flat, g2, f2], .handler e1 e2 g3 f3⟩

end Verif.Stmt
