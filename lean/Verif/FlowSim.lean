import Verif.MethodProps
/-!
# Running one C++ function under two interpretations with related states

The counterpart of `Method.runC_ref` for interpretations over different states.
-/
namespace Verif.Method
open Verif.Stmt

section
variable {σ τ ε : Type}

/-- The first raises a `bad` fault, or both do the same and end in related states. -/
inductive EvSim (R : σ → τ → Prop) (bad : ε → Prop) {α : Type} : Ev σ ε α → Ev τ ε α → Prop where
  | bad {x s b} (h : bad x) : EvSim R bad (.raise x s) b
  | ok (v) {s t} (h : R s t) : EvSim R bad (.ok v s) (.ok v t)
  | raise (x) {s t} (h : R s t) : EvSim R bad (.raise x s) (.raise x t)

structure Simulates (R : σ → τ → Prop) (bad : ε → Prop) (I : Interp σ ε) (I' : Interp τ ε) : Prop where
  act : ∀ k s t, R s t → EvSim R bad (I.act k s) (I'.act k t)
  cond : ∀ k s t, R s t → EvSim R bad (I.cond k s) (I'.cond k t)
  val : ∀ k s t, R s t → EvSim R bad (I.val k s) (I'.val k t)
  ret : ∀ k s t, R s t → EvSim R bad (I.ret k s) (I'.ret k t)
  catches : ∀ h x, I.catches h x = I'.catches h x
  bad : ∀ h x, bad x → I.catches h x = false
  bind : ∀ h x s t, R s t → R (I.bind h x s) (I'.bind h x t)

variable {R : σ → τ → Prop} {bad : ε → Prop}

/-- The first run stops with a `bad` fault, or they end the same way. -/
inductive OutSim (R : σ → τ → Prop) (bad : ε → Prop) : Out σ ε → Out τ ε → Prop where
  | bad {x s b} (h : bad x) : OutSim R bad (.uncaught x s) b
  | ret (v) {s t} (h : R s t) : OutSim R bad (.ret v s) (.ret v t)
  | uncaught (x) {s t} (h : R s t) : OutSim R bad (.uncaught x s) (.uncaught x t)
  | timeout {s t} (h : R s t) : OutSim R bad (.timeout s) (.timeout t)
  | stuck : OutSim R bad .stuck .stuck

def KS (R : σ → τ → Prop) (bad : ε → Prop) (k : Cont σ ε) (k' : Cont τ ε) : Prop := ∀ s t, R s t → OutSim R bad (k s) (k' t)
def HS (R : σ → τ → Prop) (bad : ε → Prop) (h : HCont σ ε) (h' : HCont τ ε) : Prop :=
  ∀ x, (∀ s t, R s t → OutSim R bad (h x s) (h' x t)) ∧ (bad x → ∀ s, ∃ x' s', bad x' ∧ h x s = .uncaught x' s')
def OS (R : σ → τ → Prop) (bad : ε → Prop) : Option (Cont σ ε) → Option (Cont τ ε) → Prop
  | none, none => True
  | some k, some k' => KS R bad k k'
  | _, _ => False

theorem OS.or {a b : Option (Cont σ ε)} {a' b' : Option (Cont τ ε)} (h : OS R bad a a') (h' : OS R bad b b') : OS R bad (a.or b) (a'.or b') := by
  cases a <;> cases a' <;> first | exact h' | exact h | exact h.elim

theorem HS.stop {h : HCont σ ε} {h' : HCont τ ε} (hh : HS R bad h h') {x : ε} (hb : bad x) (s : σ) (b : Out τ ε) : OutSim R bad (h x s) b := by
  obtain ⟨x', s', h1, h2⟩ := (hh x).2 hb s
  rw [h2]; exact .bad h1

theorem leave_sim {I : Interp σ ε} {I' : Interp τ ε} (S : Simulates R bad I I') (v : Option Nat) {h : HCont σ ε} {h' : HCont τ ε} (hh : HS R bad h h') : KS R bad (I.leave v h) (I'.leave v h') := by
  intro s t hs
  unfold Interp.leave
  cases v with
  | none => exact .ret none hs
  | some v =>
    simp only []
    have key := S.ret v s t hs
    revert key
    generalize I.ret v s = e1
    generalize I'.ret v t = e2
    intro key
    cases key with
    | bad hb => exact hh.stop hb _ _
    | ok v h => exact .ret _ h
    | raise x h => exact (hh x).1 _ _ h

theorem execC_sim {I : Interp σ ε} {I' : Interp τ ε} (S : Simulates R bad I I') {J : Item → Cont σ ε} {J' : Item → Cont τ ε} (hJ : ∀ i, KS R bad (J i) (J' i)) (c : CS) :
    (∀ h h' k k', HS R bad h h' → KS R bad k k' → KS R bad (execC I J c h k) (execC I' J' c h' k')) ∧
    (∀ i h h' k k', HS R bad h h' → KS R bad k k' → OS R bad (atCase I J i c h k) (atCase I' J' i c h' k')) ∧
    (∀ h h' k k', HS R bad h h' → KS R bad k k' → HS R bad (handleC I J c h k) (handleC I' J' c h' k')) := by
  induction c with
  | nil => exact ⟨fun h h' k k' hh hk s t hs => hk s t hs, fun i h h' k k' hh hk => trivial, fun h h' k k' hh hk => hh⟩
  | text a r ih =>
    refine ⟨fun h h' k k' hh hk s t hs => ?_, fun i h h' k k' hh hk => ih.2.1 i h h' k k' hh hk, fun h h' k k' hh hk => hh⟩
    rw [execC, execC]
    have key := S.act a s t hs
    revert key
    generalize I.act a s = e1
    generalize I'.act a t = e2
    intro key
    cases key with
    | bad hb => exact hh.stop hb _ _
    | ok v h1 => exact ih.1 h h' k k' hh hk _ _ h1
    | raise x h1 => exact (hh x).1 _ _ h1
  | semi r ih => exact ⟨fun h h' k k' hh hk s t hs => ih.1 h h' k k' hh hk s t hs, fun i h h' k k' hh hk => ih.2.1 i h h' k k' hh hk, fun h h' k k' hh hk => hh⟩
  | label i r ih => exact ⟨fun h h' k k' hh hk s t hs => ih.1 h h' k k' hh hk s t hs, fun i h h' k k' hh hk => ih.2.1 i h h' k k' hh hk, fun h h' k k' hh hk => hh⟩
  | jump i r ih => exact ⟨fun h h' k k' hh hk s t hs => hJ i s t hs, fun i h h' k k' hh hk => ih.2.1 i h h' k k' hh hk, fun h h' k k' hh hk => hh⟩
  | ret t v r ih => exact ⟨fun h h' k k' hh hk s t hs => by rw [execC, execC]; exact leave_sim S v hh s t hs, fun i h h' k k' hh hk => ih.2.1 i h h' k k' hh hk, fun h h' k k' hh hk => hh⟩
  | ite c t r iht ihr =>
    refine ⟨fun h h' k k' hh hk s s' hs => ?_, fun i h h' k k' hh hk => ?_, fun h h' k k' hh hk => hh⟩
    · rw [execC, execC]
      have key := S.cond c s s' hs
      revert key
      generalize I.cond c s = e1
      generalize I'.cond c s' = e2
      intro key
      cases key with
      | bad hb => exact hh.stop hb _ _
      | ok v h1 =>
        cases v
        · exact ihr.1 h h' k k' hh hk _ _ h1
        · exact iht.1 h h' _ _ hh (fun s t hs => ihr.1 h h' k k' hh hk s t hs) _ _ h1
      | raise x h1 => exact (hh x).1 _ _ h1
    · exact OS.or (iht.2.1 i h h' _ _ hh (fun s t hs => ihr.1 h h' k k' hh hk s t hs)) (ihr.2.1 i h h' k k' hh hk)
  | iteElse c t f r iht ihf ihr =>
    refine ⟨fun h h' k k' hh hk s s' hs => ?_, fun i h h' k k' hh hk => ?_, fun h h' k k' hh hk => hh⟩
    · rw [execC, execC]
      have key := S.cond c s s' hs
      revert key
      generalize I.cond c s = e1
      generalize I'.cond c s' = e2
      intro key
      cases key with
      | bad hb => exact hh.stop hb _ _
      | ok v h1 =>
        cases v
        · exact ihf.1 h h' _ _ hh (fun s t hs => ihr.1 h h' k k' hh hk s t hs) _ _ h1
        · exact iht.1 h h' _ _ hh (fun s t hs => ihr.1 h h' k k' hh hk s t hs) _ _ h1
      | raise x h1 => exact (hh x).1 _ _ h1
    · exact OS.or (iht.2.1 i h h' _ _ hh (fun s t hs => ihr.1 h h' k k' hh hk s t hs)) (OS.or (ihf.2.1 i h h' _ _ hh (fun s t hs => ihr.1 h h' k k' hh hk s t hs)) (ihr.2.1 i h h' k k' hh hk))
  | group b r ihb ihr =>
    exact ⟨fun h h' k k' hh hk s t hs => ihb.1 h h' _ _ hh (fun s t hs => ihr.1 h h' k k' hh hk s t hs) s t hs,
      fun i h h' k k' hh hk => OS.or (ihb.2.1 i h h' _ _ hh (fun s t hs => ihr.1 h h' k k' hh hk s t hs)) (ihr.2.1 i h h' k k' hh hk), fun h h' k k' hh hk => hh⟩
  | switch v b r ihb ihr =>
    refine ⟨fun h h' k k' hh hk s s' hs => ?_, fun i h h' k k' hh hk => ihr.2.1 i h h' k k' hh hk, fun h h' k k' hh hk => hh⟩
    rw [execC, execC]
    have hr : KS R bad (fun s => execC I J r h k s) (fun s => execC I' J' r h' k' s) := fun s t hs => ihr.1 h h' k k' hh hk s t hs
    have key := S.val v s s' hs
    revert key
    generalize I.val v s = e1
    generalize I'.val v s' = e2
    intro key
    cases key with
    | bad hb => exact hh.stop hb _ _
    | raise x h1 => exact (hh x).1 _ _ h1
    | ok x h1 =>
      have := OS.or (ihb.2.1 (.caseHead x) h h' _ _ hh hr) (ihb.2.1 .defaultHead h h' _ _ hh hr)
      revert this
      simp only []
      generalize (atCase I J (.caseHead x) b h (fun s => execC I J r h k s)).or (atCase I J .defaultHead b h (fun s => execC I J r h k s)) = o
      generalize (atCase I' J' (.caseHead x) b h' (fun s => execC I' J' r h' k' s)).or (atCase I' J' .defaultHead b h' (fun s => execC I' J' r h' k' s)) = o'
      cases o <;> cases o' <;> intro h2
      · exact hr _ _ h1
      · exact h2.elim
      · exact h2.elim
      · exact h2 _ _ h1
  | case i r ih =>
    refine ⟨fun h h' k k' hh hk s t hs => ih.1 h h' k k' hh hk s t hs, fun j h h' k k' hh hk => ?_, fun h h' k k' hh hk => hh⟩
    rw [atCase, atCase]
    by_cases e : i = j
    · rw [if_pos e, if_pos e]; exact fun s t hs => ih.1 h h' k k' hh hk s t hs
    · rw [if_neg e, if_neg e]; exact ih.2.1 j h h' k k' hh hk
  | tryc b hs r ihb ihs ihr =>
    refine ⟨fun h h' k k' hh hk s t hst => ?_, fun i h h' k k' hh hk => OS.or (ihb.2.1 i h h' _ _ hh (fun s t hs => ihr.1 h h' k k' hh hk s t hs)) (ihr.2.1 i h h' k k' hh hk), fun h h' k k' hh hk => hh⟩
    have hr : KS R bad (fun s => execC I J r h k s) (fun s => execC I' J' r h' k' s) := fun s t hs => ihr.1 h h' k k' hh hk s t hs
    exact ihb.1 _ _ _ _ (ihs.2.2 h h' _ _ hh hr) hr s t hst
  | «catch» hid b n ihb ihn =>
    refine ⟨fun h h' k k' hh hk s t hs => .stuck, fun i h h' k k' hh hk => ihn.2.1 i h h' k k' hh hk, fun h h' k k' hh hk => ?_⟩
    intro x
    have e0 : ∀ s, handleC I J (.catch hid b n) h k x s = if I.catches hid x then execC I J b h k (I.bind hid x s) else handleC I J n h k x s := fun s => by rw [handleC]
    have e1 : ∀ s, handleC I' J' (.catch hid b n) h' k' x s = if I.catches hid x then execC I' J' b h' k' (I'.bind hid x s) else handleC I' J' n h' k' x s := fun s => by rw [handleC, S.catches]
    by_cases e : I.catches hid x = true
    · refine ⟨fun s t hs => ?_, fun hb => ?_⟩
      · rw [e0, e1, if_pos e, if_pos e]; exact ihb.1 h h' k k' hh hk _ _ (S.bind hid x s t hs)
      · rw [S.bad hid x hb] at e; cases e
    · have := ihn.2.2 h h' k k' hh hk x
      refine ⟨fun s t hs => ?_, fun hb s => ?_⟩
      · rw [e0, e1, if_neg e, if_neg e]; exact this.1 s t hs
      · rw [e0, if_neg e]; exact this.2 hb s

theorem enterC_sim {I : Interp σ ε} {I' : Interp τ ε} (S : Simulates R bad I I') {J : Item → Cont σ ε} {J' : Item → Cont τ ε} (hJ : ∀ i, KS R bad (J i) (J' i)) (p : Item → Bool) (c : CS) :
    ∀ h h' k k', HS R bad h h' → KS R bad k k' → OS R bad (enterC I J p c h k) (enterC I' J' p c h' k') := by
  have ex := fun c => (execC_sim S hJ c).1
  induction c with
  | nil => intro h h' k k' hh hk; exact trivial
  | text a r ih | semi r ih | jump i r ih | ret t v r ih | case i r ih => intro h h' k k' hh hk; exact ih h h' k k' hh hk
  | label i r ih =>
    intro h h' k k' hh hk
    rw [enterC, enterC]
    by_cases e : p i = true
    · rw [if_pos e, if_pos e]; exact ex r h h' k k' hh hk
    · rw [if_neg e, if_neg e]; exact ih h h' k k' hh hk
  | ite c t r iht ihr => intro h h' k k' hh hk; exact OS.or (iht h h' _ _ hh (ex r h h' k k' hh hk)) (ihr h h' k k' hh hk)
  | iteElse c t f r iht ihf ihr =>
    intro h h' k k' hh hk
    exact OS.or (iht h h' _ _ hh (ex r h h' k k' hh hk)) (OS.or (ihf h h' _ _ hh (ex r h h' k k' hh hk)) (ihr h h' k k' hh hk))
  | group b r ihb ihr | switch v b r ihb ihr => intro h h' k k' hh hk; exact OS.or (ihb h h' _ _ hh (ex r h h' k k' hh hk)) (ihr h h' k k' hh hk)
  | tryc b hs r ihb ihs ihr =>
    intro h h' k k' hh hk
    have hr := ex r h h' k k' hh hk
    exact OS.or (ihb _ _ _ _ ((execC_sim S hJ hs).2.2 h h' _ _ hh hr) hr) (OS.or (ihs h h' _ _ hh hr) (ihr h h' k k' hh hk))
  | «catch» hid b n ihb ihn => intro h h' k k' hh hk; exact OS.or (ihb h h' k k' hh hk) (ihn h h' k k' hh hk)

theorem uncaught_HS : HS R bad (Out.uncaught (σ := σ) (ε := ε)) (Out.uncaught (σ := τ) (ε := ε)) := fun x => ⟨fun _ _ h => .uncaught x h, fun h s => ⟨x, s, h, rfl⟩⟩
theorem stuck_KS : KS R bad (stuckK (σ := σ) (ε := ε)) (stuckK (σ := τ) (ε := ε)) := fun _ _ _ => .stuck

theorem runC_sim {I : Interp σ ε} {I' : Interp τ ε} (S : Simulates R bad I I') (body : CS) (n : Nat) : KS R bad (runC I body n) (runC I' body n) := by
  have hj : ∀ n i, KS R bad (jumpC I body n i) (jumpC I' body n i) := by
    intro n
    induction n with
    | zero => intro i s t hs; exact .timeout hs
    | succ n ih =>
      intro i s t hs
      rw [jumpC, jumpC]
      have := enterC_sim S ih (goesTo i) body Out.uncaught Out.uncaught stuckK stuckK uncaught_HS stuck_KS
      revert this
      generalize enterC I (jumpC I body n) (goesTo i) body Out.uncaught stuckK = o
      generalize enterC I' (jumpC I' body n) (goesTo i) body Out.uncaught stuckK = o'
      cases o <;> cases o' <;> intro h1
      · exact .stuck
      · exact h1.elim
      · exact h1.elim
      · exact h1 _ _ hs
  exact (execC_sim S (hj n) body).1 _ _ _ _ uncaught_HS stuck_KS

end

end Verif.Method
