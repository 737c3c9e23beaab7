import Verif.ObjLifeSpec
import Verif.ObjProgProps
/-!
# C161: objects keep their class, and only a constructor at work has an unfinished one
-/
namespace Verif.ObjProg
open Verif.Stmt Verif.Sem
open Verif.IntVal (Ty)
open Verif.Method hiding Fault look assign
open Verif.Program (Fault set)
open Verif.ArrModel (Arr)
open Verif.ArrProg (Xs Arg Param Mem SArr Order sourceMem stoppedMem cppMem shapeOf Holds andThen)

variable {H : Type} {D : H → H → Prop}

/-- As `Lives`, but the object `r` may have been constructed further. -/
structure Grows (D : H → H → Prop) (r : Int) (s s' : St H) : Prop where
  objs : ∀ (i : Nat) o, s.objs[i]? = some o → ∃ o', s'.objs[i]? = some o' ∧ o'.cls = o.cls ∧ (i ≠ (r - 1).toNat → o'.now = o.now) ∧ o'.live = o.live
  new : ∀ (i : Nat) o', s'.objs[i]? = some o' → i < s.objs.length ∨ o'.now = o'.cls ∨ o'.live = false
  arrs : ∀ (i : Nat) a, s.heap[i]? = some a → ∃ a', s'.heap[i]? = some a' ∧ D a a'

structure Pre (D : H → H → Prop) : Prop where
  refl : ∀ a, D a a
  trans : ∀ a b c, D a b → D b c → D a c

theorem getElem?_lt {α : Type} {l : List α} {i : Nat} {a : α} (h : l[i]? = some a) : i < l.length := (List.getElem?_eq_some_iff.1 h).1

/-- The objects and arrays are the same ones. -/
theorem lives_same (hD : Pre D) {s s' : St H} (h1 : s'.objs = s.objs) (h2 : s'.heap = s.heap) : Lives D s s' where
  objs i o h := ⟨o, by rw [h1]; exact h, rfl, rfl, rfl⟩
  new i o h := .inl (by rw [h1] at h; exact getElem?_lt h)
  arrs i a h := ⟨a, by rw [h2]; exact h, hD.refl a⟩

theorem lives_refl (hD : Pre D) (s : St H) : Lives D s s := lives_same hD rfl rfl

theorem lives_grows {r : Int} {s s' : St H} (h : Lives D s s') : Grows D r s s' where
  objs i o h1 := by
    obtain ⟨o', a, b, c, d⟩ := h.objs i o h1
    exact ⟨o', a, b, fun _ => c, d⟩
  new := h.new
  arrs := h.arrs

theorem grows_trans (hD : Pre D) {r : Int} {s t u : St H} (h : Grows D r s t) (g : Grows D r t u) (hr : (r - 1).toNat < s.objs.length) : Grows D r s u where
  objs i o h1 := by
    obtain ⟨o', a, b, c, d⟩ := h.objs i o h1
    obtain ⟨o'', a', b', c', d'⟩ := g.objs i o' a
    exact ⟨o'', a', b'.trans b, fun hi => (c' hi).trans (c hi), d'.trans d⟩
  new i o'' h1 := by
    rcases g.new i o'' h1 with hi | hi
    · obtain ⟨o', e⟩ : ∃ o', t.objs[i]? = some o' := ⟨_, List.getElem?_eq_getElem hi⟩
      obtain ⟨p, a', b', c', d'⟩ := g.objs i o' e
      rw [h1] at a'; cases a'
      by_cases hri : i = (r - 1).toNat
      · exact .inl (hri ▸ hr)
      · rcases h.new i o' e with k | k | k
        · exact .inl k
        · exact .inr (.inl (by rw [c' hri, b', k]))
        · exact .inr (.inr (by rw [d', k]))
    · exact .inr hi
  arrs i a h1 := by
    obtain ⟨a', e, d⟩ := h.arrs i a h1
    obtain ⟨a'', e', d'⟩ := g.arrs i a' e
    exact ⟨a'', e', hD.trans _ _ _ d d'⟩

theorem lives_trans (hD : Pre D) {s t u : St H} (h : Lives D s t) (g : Lives D t u) : Lives D s u where
  objs i o h1 := by
    obtain ⟨o', a, b, c, d⟩ := h.objs i o h1
    obtain ⟨o'', a', b', c', d'⟩ := g.objs i o' a
    exact ⟨o'', a', b'.trans b, c'.trans c, d'.trans d⟩
  new i o'' h1 := by
    rcases g.new i o'' h1 with hi | hi
    · obtain ⟨o', e⟩ : ∃ o', t.objs[i]? = some o' := ⟨_, List.getElem?_eq_getElem hi⟩
      obtain ⟨p, a', b', c', d'⟩ := g.objs i o' e
      rw [h1] at a'; cases a'
      rcases h.new i o' e with k | k | k
      · exact .inl k
      · exact .inr (.inl (by rw [c', b', k]))
      · exact .inr (.inr (by rw [d', k]))
    · exact .inr hi
  arrs i a h1 := by
    obtain ⟨a', e, d⟩ := h.arrs i a h1
    obtain ⟨a'', e', d'⟩ := g.arrs i a' e
    exact ⟨a'', e', hD.trans _ _ _ d d'⟩

/-- Whatever the evaluation ends with, `Q` holds of its last state. -/
def Ends (Q : St H → Prop) {α : Type} : Ev (St H) Fault α → Prop
  | .ok _ s => Q s
  | .raise _ s => Q s

abbrev Keeps (D : H → H → Prop) (s : St H) {α : Type} (e : Ev (St H) Fault α) : Prop := Ends (Lives D s) e

theorem keeps_look (hD : Pre D) {α : Type} (s : St H) (x : Res α) : Keeps D s (look s x) := by
  cases x <;> exact lives_refl hD s

theorem keeps_ok (hD : Pre D) {α : Type} (s : St H) (v : α) (vars : Env) : Keeps D s (.ok v { s with vars := vars } : Ev (St H) Fault α) := lives_same hD rfl rfl

theorem keeps_then (hD : Pre D) {α β : Type} {s : St H} {a : Ev (St H) Fault α} (ha : Keeps D s a) {f : α → St H → Ev (St H) Fault β} (hf : ∀ v s', Keeps D s' (f v s')) : Keeps D s (andThen a f) := by
  cases a with
  | ok v s' =>
    show Keeps D s (f v s')
    have h := hf v s'
    revert h
    cases f v s' with
    | ok w t => exact fun h => lives_trans hD ha h
    | raise x t => exact fun h => lives_trans hD ha h
  | raise x s' => exact ha

/-- After a look, which leaves the state as it is. -/
theorem keeps_look_then (hD : Pre D) {α β : Type} {s : St H} {x : Res α} {f : α → St H → Ev (St H) Fault β} (hf : ∀ v, x = .ok v → Keeps D s (f v s)) : Keeps D s (andThen (look s x) f) := by
  cases x with
  | ok v => exact hf v rfl
  | throw e => exact lives_refl hD s
  | ub => exact lives_refl hD s

def CallsKeep (D : H → H → Prop) (C : Calls H) : Prop := ∀ m vs s, Keeps D s (C m vs s)

theorem become_grows (hD : Pre D) (r : Int) (c : Nat) (s : St H) : Grows D r s (become r c s) where
  objs i o h := by
    by_cases e : (r - 1).toNat = i
    · refine ⟨{ o with now := c }, ?_, rfl, fun h => absurd e.symm h, rfl⟩
      simp only [become, List.getElem?_modify, h, e, if_true, Option.map_eq_map, Option.map_some]
    · refine ⟨o, ?_, rfl, fun _ => rfl, rfl⟩
      simp only [become, List.getElem?_modify, h, e, if_false, Option.map_eq_map, Option.map_some, id]
  new i o h := .inl (by have := getElem?_lt h; simpa [become] using this)
  arrs i a h := ⟨a, h, hD.refl a⟩

/-- After a constructor the object `r` has become one of its class; if it raises an exception all that can be said is that the others are as they were. -/
theorem construct_grows (hD : Pre D) (P : Prog) (L : Lang H) {C : Calls H} (hC : CallsKeep D C) (r : Int) : ∀ (k : Ctor) (vs : List Int) (s : St H), (r - 1).toNat < s.objs.length →
    match P.construct L C r k vs s with
    | .ok _ s' => Grows D r s s' ∧ ∃ o, s'.objs[(r - 1).toNat]? = some o ∧ o.now = k.cls
    | .raise _ s' => Grows D r s s' := by
  have body : ∀ (c : Nat) (vs : List Int) (b : Option Nat) (s : St H), (r - 1).toNat < s.objs.length →
      match runBody C r vs b (become r c s) with
      | .ok _ s' => Grows D r s s' ∧ ∃ o, s'.objs[(r - 1).toNat]? = some o ∧ o.now = c
      | .raise _ s' => Grows D r s s' := by
    intro c vs b s hr
    have hb := become_grows hD r c s
    obtain ⟨o, ho⟩ : ∃ o, (become r c s).objs[(r - 1).toNat]? = some o ∧ o.now = c := by
      refine ⟨{ s.objs[(r - 1).toNat] with now := c }, ?_, rfl⟩
      simp only [become, List.getElem?_modify, List.getElem?_eq_getElem hr, if_true, Option.map_eq_map, Option.map_some]
    cases b with
    | none => exact ⟨hb, o, ho⟩
    | some m =>
      have h := hC m (r :: vs) (become r c s)
      simp only [runBody]
      revert h
      cases C m (r :: vs) (become r c s) with
      | ok v s' =>
        intro h
        refine ⟨grows_trans hD hb (lives_grows h) hr, ?_⟩
        obtain ⟨o', a, b, c', d⟩ := h.objs _ o ho.1
        exact ⟨o', a, c'.trans ho.2⟩
      | raise x s' => exact fun h => grows_trans hD hb (lives_grows h) hr
  intro k
  induction k with
  | root c ps b => intro vs s hr; exact body c vs b s hr
  | derived c ps base args b ih =>
    intro vs s hr
    simp only [Prog.construct]
    cases e : L.A.args (P.enter (fun _ => 0) (r :: vs) s).vars base.params args with
    | throw x => exact lives_grows (lives_refl hD s)
    | ub => exact lives_grows (lives_refl hD s)
    | ok ws =>
      have h1 := ih ws s hr
      simp only [look, andThen]
      revert h1
      cases P.construct L C r base ws s with
      | raise x s' => exact fun h => h
      | ok u s' =>
        intro h1
        have hr' : (r - 1).toNat < s'.objs.length := by obtain ⟨o, ho, _⟩ := h1.2; exact getElem?_lt ho
        have h2 := body c vs b s' hr'
        simp only []
        revert h2
        cases runBody C r vs b (become r c s') with
        | ok u t => exact fun h2 => ⟨grows_trans hD h1.1 h2.1 hr, h2.2⟩
        | raise x t => exact fun h2 => grows_trans hD h1.1 h2 hr

theorem abandon_get (r : Int) (s : St H) (i : Nat) : (abandon r s).objs[i]? = (s.objs[i]?).map fun o => if (r - 1).toNat = i then { o with live := false } else o := by
  simp only [abandon, List.getElem?_modify, Option.map_eq_map]

/-- Creating an object. -/
theorem newObj_lives (hD : Pre D) {s s' : St H} {r : Int} {c : Nat} (hr : r = s.objs.length + 1) (f : Nat → Nat → Int) (h : Grows D r { s with objs := s.objs ++ [⟨c, c, true, f⟩] } s') :
    (∀ o, s'.objs[(r - 1).toNat]? = some o → o.now = c → Lives D s s') ∧ Lives D s (abandon r s') := by
  have hi : (r - 1).toNat = s.objs.length := by omega
  have old : ∀ (i : Nat) o, s.objs[i]? = some o → ∃ o', s'.objs[i]? = some o' ∧ o'.cls = o.cls ∧ o'.now = o.now ∧ o'.live = o.live := by
    intro i o h1
    have hl := getElem?_lt h1
    obtain ⟨o', a, b, c', d⟩ := h.objs i o (by rw [List.getElem?_append_left hl]; exact h1)
    exact ⟨o', a, b, c' (by omega), d⟩
  obtain ⟨o1, g1, g2, _, g4⟩ := h.objs s.objs.length ⟨c, c, true, f⟩ (by simp)
  refine ⟨fun o ho hn => ⟨old, ?_, h.arrs⟩, ⟨?_, ?_, h.arrs⟩⟩
  · intro i o' h1
    rcases h.new i o' h1 with k | k
    · simp only [List.length_append, List.length_cons, List.length_nil] at k
      by_cases e : i = s.objs.length
      · subst e
        rw [hi] at ho
        rw [g1] at ho h1; cases ho; cases h1
        exact .inr (.inl (by rw [hn, g2]))
      · exact .inl (by omega)
    · exact .inr k
  · intro i o h1
    obtain ⟨o', a, b⟩ := old i o h1
    have hl := getElem?_lt h1
    refine ⟨o', ?_, b⟩
    rw [abandon_get, a, Option.map_some, if_neg (by omega)]
  · intro i o' h1
    rw [abandon_get] at h1
    cases e : s'.objs[i]? with
    | none => rw [e] at h1; cases h1
    | some p =>
      rw [e, Option.map_some] at h1
      by_cases hc : (r - 1).toNat = i
      · rw [if_pos hc] at h1; cases h1; exact .inr (.inr rfl)
      · rw [if_neg hc] at h1; cases h1
        rcases h.new i o' e with k | k
        · simp only [List.length_append, List.length_cons, List.length_nil] at k
          exact .inl (by omega)
        · exact .inr k

/-- Creating an array. -/
theorem newArr_lives (hD : Pre D) (s : St H) (a : H) : Lives D s { s with heap := s.heap ++ [a] } where
  objs i o h := ⟨o, h, rfl, rfl, rfl⟩
  new i o h := .inl (getElem?_lt h)
  arrs i b h := ⟨b, by
    show (s.heap ++ [a])[i]? = some b
    rw [List.getElem?_append_left (getElem?_lt h)]; exact h, hD.refl b⟩

theorem keeps_mono (hD : Pre D) {α : Type} {s t : St H} (h : Lives D s t) {e : Ev (St H) Fault α} (he : Keeps D t e) : Keeps D s e := by
  cases e <;> exact lives_trans hD h he

theorem keeps_op (hD : Pre D) (P : Prog) (L : Lang H) {C : Calls H} (hC : CallsKeep D C) (s : St H) (o : Option Op) : Keeps D s (P.op L C s o) := by
  rcases o with _ | (⟨callee, reads, args, result⟩ | ⟨site, recv, reads, args, result⟩ | ⟨t, reads, sizes, result⟩ | ⟨k, reads, args, result⟩)
  · exact lives_refl hD s
  · exact keeps_then hD (keeps_look hD s _) fun vs s => keeps_then hD (hC _ _ s) fun r s => lives_refl hD s
  · exact keeps_then hD (keeps_look hD s _) fun vs s => keeps_then hD (keeps_look hD s _) fun c s => keeps_then hD (hC _ _ s) fun r s => lives_refl hD s
  · exact keeps_then hD (keeps_look hD s _) fun a s => newArr_lives hD s a
  · refine keeps_then hD (keeps_look hD s _) fun vs s => ?_
    simp only []
    have h := construct_grows hD P L hC (s.objs.length + 1) (P.ctor k) vs { s with objs := s.objs ++ [⟨(P.ctor k).cls, (P.ctor k).cls, true, fun _ _ => 0⟩] } (by simp)
    revert h
    cases P.construct L C (s.objs.length + 1) (P.ctor k) vs { s with objs := s.objs ++ [⟨(P.ctor k).cls, (P.ctor k).cls, true, fun _ _ => 0⟩] } with
    | ok u s' => exact fun h => by obtain ⟨g, o, h1, h2⟩ := h; exact (newObj_lives hD rfl _ g).1 o h1 h2
    | raise x s' => exact fun h => (newObj_lives hD rfl _ h).2

theorem keeps_piece (hD : Pre D) (P : Prog) (L : Lang H) {C : Calls H} (hC : CallsKeep D C) {α : Type} (p : Piece) (f : Env → X → Res α) (s : St H) : Keeps D s (P.piece L C p f s) :=
  keeps_then hD (keeps_op hD P L hC s p.op) fun _ s => keeps_look hD s _

theorem keeps_refPiece (hD : Pre D) (P : Prog) (L : Lang H) {C : Calls H} (hC : CallsKeep D C) (p : RefPiece) (s : St H) : Keeps D s (P.refPiece L C p s) :=
  keeps_then hD (keeps_op hD P L hC s p.op) fun _ s => keeps_look hD s _

theorem obj_ok {L : Lang H} {objs : List Obj} {r : Int} {o : Obj} (h : L.obj objs r = .ok o) : 0 < r ∧ objs[(r - 1).toNat]? = some o := by
  unfold Lang.obj at h
  by_cases e : r = 0
  · rw [if_pos e] at h; cases hn : L.A.M.null <;> rw [hn] at h <;> cases h
  · rw [if_neg e] at h
    by_cases e1 : r < 0
    · rw [if_pos e1] at h; cases h
    · rw [if_neg e1] at h
      cases g : objs[(r - 1).toNat]? with
      | none => rw [g] at h; cases h
      | some p => rw [g] at h; cases h; exact ⟨by omega, rfl⟩

theorem slot_ok {L : Lang H} {objs : List Obj} {r : Int} {f : Fld} {o : Obj} {c : Nat} (h : L.slot objs r f = .ok (o, c)) : L.obj objs r = .ok o ∧ L.O.field o f = some c := by
  unfold Lang.slot at h
  cases e : L.obj objs r with
  | throw x => rw [e] at h; cases h
  | ub => rw [e] at h; cases h
  | ok p =>
    rw [e] at h
    simp only [Res.bind_ok] at h
    cases g : L.O.field p f with
    | none => rw [g] at h; cases h
    | some d => rw [g] at h; cases h; exact ⟨rfl, g⟩

/-- What an assignment to a field does. -/
theorem put_ok {L : Lang H} {r : Int} {f : Fld} {v : Int} {s : St H} {objs : List Obj} (h : L.put r f v s = .ok objs) :
    ∃ o c, L.slot s.objs r f = .ok (o, c) ∧ 0 < r ∧ s.objs[(r - 1).toNat]? = some o ∧ objs = s.objs.set (r - 1).toNat { o with fields := fun d n => if d = c ∧ n = f.name then v else o.fields d n } := by
  unfold Lang.put at h
  cases e : L.slot s.objs r f with
  | throw x => rw [e] at h; cases h
  | ub => rw [e] at h; cases h
  | ok p =>
    rw [e] at h
    obtain ⟨o, c⟩ := p
    obtain ⟨h1, h2⟩ := slot_ok e
    obtain ⟨h3, h4⟩ := obj_ok h1
    cases h
    exact ⟨o, c, rfl, h3, h4, rfl⟩

theorem put_lives (hD : Pre D) {L : Lang H} {r : Int} {f : Fld} {v : Int} {s : St H} {objs : List Obj} (h : L.put r f v s = .ok objs) : Lives D s { s with objs := objs } := by
  obtain ⟨o, c, _, _, h3, rfl⟩ := put_ok h
  refine ⟨fun i p hp => ?_, fun i p hp => .inl ?_, fun i a ha => ⟨a, ha, hD.refl a⟩⟩
  · by_cases e : (r - 1).toNat = i
    · subst e
      rw [h3] at hp; cases hp
      refine ⟨{ o with fields := fun d n => if d = c ∧ n = f.name then v else o.fields d n }, ?_, rfl, rfl, rfl⟩
      show (s.objs.set _ _)[_]? = _
      rw [List.getElem?_set_self (getElem?_lt h3)]
    · exact ⟨p, by show (s.objs.set _ _)[_]? = _; rw [List.getElem?_set_ne e]; exact hp, rfl, rfl, rfl⟩
  · have := getElem?_lt hp; simpa using this

theorem keeps_store (hD : Pre D) {L : Lang H} (pre : List FRead) (obj : Nat) (f : Fld) {val : St H → Ev (St H) Fault Int} (hv : ∀ s, Keeps D s (val s)) (s : St H) :
    Keeps D s (andThen (L.store pre obj f val s) fun objs s => (.ok () { s with objs := objs } : Ev (St H) Fault Unit)) := by
  have assoc : ∀ {α β : Type} (a : Ev (St H) Fault α) (g : α → St H → Ev (St H) Fault β) (k : β → St H → Ev (St H) Fault Unit), andThen (andThen a g) k = andThen a fun v s => andThen (g v s) k := by
    intro α β a g k; cases a <;> rfl
  have last : ∀ r v s, Keeps D s (andThen (look s (L.put r f v s)) fun objs s => (.ok () { s with objs := objs } : Ev (St H) Fault Unit)) :=
    fun r v s => keeps_look_then hD fun objs h => put_lives hD h
  unfold Lang.store
  cases L.A.order <;> simp only [assoc]
  · exact keeps_then hD (keeps_look hD s _) fun r s => keeps_then hD (hv s) fun v s => last r v s
  · exact keeps_then hD (keeps_look hD s _) fun r s => keeps_then hD (keeps_look hD s _) fun _ s => keeps_then hD (hv s) fun v s => last r v s
  · exact keeps_then hD (hv s) fun v s => keeps_then hD (keeps_look hD s _) fun r s => last r v s
  · refine keeps_then hD (keeps_look hD s _) fun r s => keeps_then hD (keeps_look hD s _) fun _ s => keeps_then hD (hv s) fun v s => ?_
    by_cases c : L.ref pre obj s = .ok r
    · rw [if_pos c]; exact last r v s
    · rw [if_neg c]; exact lives_refl hD s

/-! ## Arrays -/

theorem res_inv {α β : Type} {x : Res α} {f : α → Res β} {b : β} (h : (x >>= f) = .ok b) : ∃ a, x = .ok a ∧ f a = .ok b := by
  cases x with
  | ok a => exact ⟨a, rfl, h⟩
  | throw e => cases h
  | ub => cases h

theorem deref_ok {L : ArrProg.Lang H} {heap : List H} {r : Int} {a : H} (h : L.deref heap r = .ok a) : 0 < r ∧ heap[(r - 1).toNat]? = some a := by
  unfold ArrProg.Lang.deref at h
  by_cases e : r = 0
  · rw [if_pos e] at h; cases hn : L.M.null <;> rw [hn] at h <;> cases h
  · rw [if_neg e] at h
    by_cases e1 : r < 0
    · rw [if_pos e1] at h; cases h
    · rw [if_neg e1] at h
      cases g : heap[(r - 1).toNat]? with
      | none => rw [g] at h; cases h
      | some p => rw [g] at h; cases h; exact ⟨by omega, rfl⟩

/-- Assigning an element leaves the array the same one. -/
def SetKeeps (D : H → H → Prop) (M : Mem H) : Prop := ∀ a t i v a', M.set a t i v = .ok a' → D a a'

/-- What an assignment to an element does. -/
theorem write_ok {L : ArrProg.Lang H} {s : ArrProg.St H} {t : Ty} {arr : Nat} {i : ArrSpec.Idx} {v : Int} {heap : List H} (h : L.write s t arr i v = .ok heap) :
    ∃ a a', 0 < s.vars arr ∧ s.heap[(s.vars arr - 1).toNat]? = some a ∧ L.M.set a t i v = .ok a' ∧ heap = s.heap.set (s.vars arr - 1).toNat a' := by
  unfold ArrProg.Lang.write at h
  obtain ⟨a, h1, h2⟩ := res_inv h
  obtain ⟨a', h3, h4⟩ := res_inv h2
  obtain ⟨h5, h6⟩ := deref_ok h1
  cases h4
  exact ⟨a, a', h5, h6, h3, rfl⟩

theorem setElem_write {L : ArrProg.Lang H} {s : ArrProg.St H} {t : Ty} {arr : Nat} {rs : List ArrProg.Read} {ix : Xs} {val : ArrProg.RX} {heap : List H} (h : L.setElem s t arr rs ix val = .ok heap) :
    ∃ i v, L.write s t arr i v = .ok heap := by
  unfold ArrProg.Lang.setElem at h
  simp only [] at h
  have fin : ((L.target s rs ix >>= fun i => L.rx s.heap s.vars val (fun env e => L.E.store env t e) >>= fun v => L.write s t arr i v) = .ok heap) → ∃ i v, L.write s t arr i v = .ok heap := by
    intro h
    obtain ⟨i, _, h2⟩ := res_inv h
    obtain ⟨v, _, h4⟩ := res_inv h2
    exact ⟨i, v, h4⟩
  cases e : L.order <;> rw [e] at h <;> simp only [] at h
  · exact fin h
  · obtain ⟨i, _, h2⟩ := res_inv h
    obtain ⟨u, _, h3⟩ := res_inv h2
    obtain ⟨v, _, h4⟩ := res_inv h3
    exact ⟨i, v, h4⟩
  · obtain ⟨v, _, h2⟩ := res_inv h
    obtain ⟨i, _, h3⟩ := res_inv h2
    exact ⟨i, v, h3⟩
  · split at h
    · cases h
    · cases h
    · cases h
    · split at h <;> cases h
    · exact fin h

theorem elem_lives (hD : Pre D) {L : Lang H} (hM : SetKeeps D L.A.M) {s : St H} {env : Env} {t : Ty} {arr : Nat} {rs : List ArrProg.Read} {ix : Xs} {val : ArrProg.RX} {heap : List H}
    (h : L.A.setElem ⟨env, s.heap⟩ t arr rs ix val = .ok heap) : Lives D s { s with heap := heap } := by
  obtain ⟨i, v, h1⟩ := setElem_write h
  obtain ⟨a, a', _, h2, h3, rfl⟩ := write_ok h1
  refine ⟨fun i o ho => ⟨o, ho, rfl, rfl, rfl⟩, fun i o ho => .inl (getElem?_lt ho), fun k b hb => ?_⟩
  by_cases e : (env arr - 1).toNat = k
  · subst e
    simp only [] at h2
    rw [h2] at hb; cases hb
    exact ⟨a', by show (s.heap.set _ _)[_]? = _; rw [List.getElem?_set_self (getElem?_lt h2)], hM _ _ _ _ _ h3⟩
  · exact ⟨b, by show (s.heap.set _ _)[_]? = _; rw [List.getElem?_set_ne e]; exact hb, hD.refl b⟩

/-! ## Methods and calls -/

theorem self_sim (hD : Pre D) (P : Prog) (L : Lang H) (hM : SetKeeps D L.A.M) {C : Calls H} (hC : CallsKeep D C) (m : Nat) (s0 : St H) :
    Simulates (fun s t => s = t ∧ Lives D s0 s) (fun _ => False) (P.interp L C m) (P.interp L C m) := by
  have key : ∀ {α : Type} (e : Ev (St H) Fault α) s, Lives D s0 s → Keeps D s e → EvSim (fun s t => s = t ∧ Lives D s0 s) (fun _ => False) e e := by
    intro α e s h0 h
    cases e with
    | ok v s' => exact .ok v ⟨rfl, lives_trans hD h0 h⟩
    | raise x s' => exact .raise x ⟨rfl, lives_trans hD h0 h⟩
  refine ⟨fun k s t h => ?_, fun k s t h => ?_, fun k s t h => ?_, fun k s t h => ?_, fun _ _ => rfl, fun _ _ h => h.elim, fun _ _ _ _ h => h⟩
  · obtain ⟨rfl, h0⟩ := h
    refine key _ s h0 ?_
    show Keeps D s (match (P.meth m).stmt k with | .assign x ty p => _ | .refer x p => _ | .setElem pre t arr ixReads ix value => _ | .setField pre obj f ty p => _ | .setRef pre obj f p => _ | .throw x => _)
    cases (P.meth m).stmt k with
    | assign x ty p => exact keeps_then hD (keeps_piece hD P L hC p _ s) fun v s => keeps_ok hD s () _
    | refer x p => exact keeps_then hD (keeps_refPiece hD P L hC p s) fun v s => keeps_ok hD s () _
    | setElem pre t arr rs ix val =>
      refine keeps_look_then hD fun heap h => ?_
      obtain ⟨env, _, h2⟩ := res_inv h
      exact elem_lives hD hM h2
    | setField pre obj f ty p => exact keeps_store hD pre obj f (fun s => keeps_piece hD P L hC p _ s) s
    | setRef pre obj f p => exact keeps_store hD pre obj f (fun s => keeps_refPiece hD P L hC p s) s
    | throw x => exact lives_refl hD s
  · obtain ⟨rfl, h0⟩ := h
    refine key _ s h0 ?_
    show Keeps D s (match (P.meth m).cond k with | .test p => _ | .isNull p => _ | .same p x => _)
    cases (P.meth m).cond k with
    | test p => exact keeps_piece hD P L hC p _ s
    | isNull p => exact keeps_then hD (keeps_refPiece hD P L hC p s) fun v s => lives_refl hD s
    | same p x => exact keeps_then hD (keeps_refPiece hD P L hC p s) fun v s => lives_refl hD s
  · obtain ⟨rfl, h0⟩ := h
    exact key _ s h0 (keeps_piece hD P L hC _ _ s)
  · obtain ⟨rfl, h0⟩ := h
    refine key _ s h0 ?_
    show Keeps D s (match (P.meth m).ret k with | .val p => _ | .ref p => _)
    cases (P.meth m).ret k with
    | val p => exact keeps_piece hD P L hC p _ s
    | ref p => exact keeps_refPiece hD P L hC p s

theorem run_lives (hD : Pre D) (P : Prog) (L : Lang H) (hM : SetKeeps D L.A.M) {C : Calls H} (hC : CallsKeep D C) (m : Nat) (body : CS) (n : Nat) (fresh : Env) (vs : List Int) (s : St H) :
    Keeps D s (P.finish s (runC (P.interp L C m) body n (P.enter fresh vs s))) := by
  have h0 : Lives D s (P.enter fresh vs s) := lives_same hD rfl rfl
  have h := runC_sim (self_sim hD P L hM hC m s) body n _ _ ⟨rfl, h0⟩
  revert h
  generalize runC (P.interp L C m) body n (P.enter fresh vs s) = o
  have back : ∀ s', Lives D s s' → Lives D s (P.back s s') := fun s' h => lives_trans hD h (lives_same hD rfl rfl)
  intro h
  cases o with
  | ret v s' => cases h with | ret _ h => exact back _ h.2
  | uncaught x s' => cases h with | uncaught _ h => exact back _ h.2 | bad h => exact h.elim
  | timeout s' => cases h with | timeout h => exact back _ h.2
  | stuck => exact lives_refl hD s

theorem keeps_final {s : St H} {e : Ev (St H) Fault (Option Int)} (h : Keeps D s e) : Lives D s (final e) := by
  cases e <;> exact h

theorem pre_source : Pre SameSource := ⟨fun _ => ⟨rfl, rfl⟩, fun _ _ _ h g => ⟨g.1.trans h.1, g.2.trans h.2⟩⟩
theorem pre_cpp : Pre SameCpp := ⟨fun _ => ⟨rfl, rfl, rfl, rfl, rfl, rfl, rfl⟩, fun _ _ _ ⟨a, b, c, d, e, f, g⟩ ⟨a', b', c', d', e', f', g'⟩ =>
  ⟨a'.trans a, b'.trans b, c'.trans c, d'.trans d, e'.trans e, f'.trans f, g'.trans g⟩⟩

theorem set_source : SetKeeps SameSource sourceMem := by
  intro a t i v a' h
  obtain ⟨_, _, h2⟩ := res_inv (show (a.check t i >>= fun _ => _) = _ from h)
  cases h2
  exact ⟨rfl, rfl⟩

theorem poke_length {buf d : List Nat} {i : Int} {xs : List Nat} (h : SBModel.poke buf i xs = some d) : d.length = buf.length := by
  unfold SBModel.poke at h
  split at h
  · cases h; simp; omega
  · cases h

theorem set_cpp : SetKeeps SameCpp cppMem := by
  intro a t i v a' h
  obtain ⟨o, _, h2⟩ := res_inv (show ArrProg.cppSet a t i v = .ok a' from h)
  split at h2
  · cases h2
  · rename_i d hd
    cases h2
    exact ⟨rfl, rfl, rfl, rfl, rfl, rfl, poke_length hd⟩

/-- **C161**, in the translated program: whatever the functions do (`body` is arbitrary), during a call every object stays the object of the class it is, constructed exactly as far as it was, and every array keeps its
element type, its dimensions and its memory; every object created in the call is, when the call ends (normally or with an exception), completely constructed, or its constructor raised an exception and it is gone. -/
theorem C161_cpp (P : Prog) (first : Bool) (body : Nat → CS) (fresh : Env) (n : Nat) : ∀ (d m : Nat) (vs : List Int) (s : St Arr), Lives SameCpp s (final (P.runCpp first body fresh n d m vs s))
  | 0, _, _, s => lives_refl pre_cpp s
  | d + 1, m, vs, s => by
    have ih : CallsKeep SameCpp (P.runCpp first body fresh n d) := fun m vs s => by
      have := C161_cpp P first body fresh n d m vs s
      revert this
      cases P.runCpp first body fresh n d m vs s <;> exact id
    exact keeps_final (run_lives pre_cpp P (P.cppLang first) set_cpp ih m (body m) n fresh vs s)

/-- **C161**, in the source: the same of every program whose methods have the shape of C101 and C159 (`Good`). -/
theorem C161_source (P : Prog) (hP : P.Good) (fresh : Env) (n : Nat) : ∀ (d m : Nat) (vs : List Int) (s : St SArr), Lives SameSource s (final (P.runSource fresh n d m vs s))
  | 0, _, _, s => lives_refl pre_source s
  | d + 1, m, vs, s => by
    have ih : CallsKeep SameSource (P.runSource fresh n d) := fun m vs s => by
      have := C161_source P hP fresh n d m vs s
      revert this
      cases P.runSource fresh n d m vs s <;> exact id
    obtain ⟨b, _, _, _, hb⟩ := C101_flow_partial (P.meth m).main (P.meth m).blocks (hP.meth m).shape (hP.meth m).inner (hP.meth m).ids (hP.meth m).jumps
    show Lives SameSource s (final (P.finish s (runIL (P.interp P.sourceLang (P.runSource fresh n d) m) (P.meth m).main (P.meth m).blocks n (P.enter fresh vs s))))
    rcases hb _ _ (P.interp P.sourceLang (P.runSource fresh n d) m) n (P.enter fresh vs s) with e | e
    · rw [e]; exact lives_refl pre_source s
    · rw [← e]
      exact keeps_final (run_lives pre_source P P.sourceLang set_source ih m b n fresh vs s)

/-! ## New objects and arrays, fields, comparisons -/

/-- **C161**: `new T(...)` gives a reference that is not null and not that of an object there was before, to an object of class `T` that is completely constructed; `new T[...]` gives one that is not that of an array there was
before. (`C` does the calls: see `C161_source` and `C161_cpp`.) -/
theorem C161_new (D : H → H → Prop) (hD : ∀ a, D a a) (hD' : ∀ a b c, D a b → D b c → D a c) (P : Prog) (L : Lang H) (C : Calls H) (hC : ∀ m vs s, Lives D s (final (C m vs s))) (s s' : St H) (env : Env) :
    (∀ k reads args x, P.op L C s (some (.newObj k reads args x)) = .ok env s' →
      (s.objs.length : Int) < env x ∧ ∃ o, L.obj s'.objs (env x) = .ok o ∧ o.cls = (P.ctor k).cls ∧ o.now = (P.ctor k).cls ∧ o.live = true) ∧
    (∀ t reads sizes x, P.op L C s (some (.newArr t reads sizes x)) = .ok env s' →
      (s.heap.length : Int) < env x ∧ ∃ i a, L.A.M.new t (shapeOf i) = .ok a ∧ L.A.deref s'.heap (env x) = .ok a) := by
  have hD0 : Pre D := ⟨hD, hD'⟩
  have hC0 : CallsKeep D C := fun m vs s => by
    have := hC m vs s
    revert this
    cases C m vs s <;> exact id
  constructor
  · intro k reads args x h
    simp only [Prog.op] at h
    cases e : (L.reads s.heap s.objs s.vars reads >>= fun env => L.A.args env (P.ctor k).params args) with
    | throw y => rw [e] at h; cases h
    | ub => rw [e] at h; cases h
    | ok vs =>
      rw [e] at h
      simp only [look, andThen] at h
      have g := construct_grows hD0 P L hC0 (s.objs.length + 1) (P.ctor k) vs { s with objs := s.objs ++ [⟨(P.ctor k).cls, (P.ctor k).cls, true, fun _ _ => 0⟩] } (by simp)
      revert g h
      cases P.construct L C (s.objs.length + 1) (P.ctor k) vs { s with objs := s.objs ++ [⟨(P.ctor k).cls, (P.ctor k).cls, true, fun _ _ => 0⟩] } with
      | raise y t => intro h; cases h
      | ok u t =>
        intro h g
        cases h
        obtain ⟨g1, o, g2, g3⟩ := g
        have ev : set s'.vars x (s.objs.length + 1) x = s.objs.length + 1 := by simp [Program.set]
        have hi : ((s.objs.length : Int) + 1 - 1).toNat = s.objs.length := by omega
        rw [hi] at g2
        obtain ⟨o', k1, k2, _, k4⟩ := g1.objs s.objs.length ⟨(P.ctor k).cls, (P.ctor k).cls, true, fun _ _ => 0⟩ (by simp)
        rw [g2] at k1; cases k1
        rw [ev]
        refine ⟨by omega, o, ?_, k2, g3, k4⟩
        unfold Lang.obj
        rw [if_neg (by omega), if_neg (by omega), hi, g2]
  · intro t reads sizes x h
    simp only [Prog.op] at h
    cases e : (L.reads s.heap s.objs s.vars reads >>= fun env => L.A.index env sizes >>= fun i => L.A.M.new t (shapeOf i)) with
    | throw y => rw [e] at h; cases h
    | ub => rw [e] at h; cases h
    | ok a =>
      rw [e] at h
      cases h
      obtain ⟨env0, _, h1⟩ := res_inv e
      obtain ⟨i, _, h2⟩ := res_inv h1
      have ev : set s.vars x (s.heap.length + 1) x = s.heap.length + 1 := by simp [Program.set]
      have hi : ((s.heap.length : Int) + 1 - 1).toNat = s.heap.length := by omega
      rw [ev]
      refine ⟨by omega, i, a, h2, ?_⟩
      unfold ArrProg.Lang.deref
      rw [if_neg (by omega), if_neg (by omega), hi]
      simp

theorem put_slots {L : Lang H} (hf : ∀ (o : Obj) (fs : Nat → Nat → Int) f, L.O.field { o with fields := fs } f = L.O.field o f) {r : Int} {f : Fld} {v : Int} {s : St H} {objs : List Obj} (h : L.put r f v s = .ok objs) :
    (∀ q g, q ≠ r → L.slot objs q g = L.slot s.objs q g) ∧
    ∃ o c, L.slot s.objs r f = .ok (o, c) ∧ ∀ g d, L.slot s.objs r g = .ok (o, d) →
      ∃ o', L.slot objs r g = .ok (o', d) ∧ o'.fields d g.name = if d = c ∧ g.name = f.name then v else o.fields d g.name := by
  obtain ⟨o, c, h1, h2, h3, rfl⟩ := put_ok h
  refine ⟨fun q g hq => ?_, o, c, h1, fun g d hg => ?_⟩
  · have : L.obj (s.objs.set (r - 1).toNat { o with fields := fun d n => if d = c ∧ n = f.name then v else o.fields d n }) q = L.obj s.objs q := by
      unfold Lang.obj
      by_cases e : q = 0
      · rw [if_pos e, if_pos e]
      · rw [if_neg e, if_neg e]
        by_cases e1 : q < 0
        · rw [if_pos e1, if_pos e1]
        · rw [if_neg e1, if_neg e1, List.getElem?_set_ne (by omega)]
    unfold Lang.slot
    rw [this]
  · obtain ⟨g1, g2⟩ := slot_ok hg
    refine ⟨{ o with fields := fun d n => if d = c ∧ n = f.name then v else o.fields d n }, ?_, rfl⟩
    unfold Lang.slot Lang.obj
    rw [if_neg (by omega), if_neg (by omega), List.getElem?_set_self (getElem?_lt h3)]
    simp only [Res.bind_ok]
    rw [hf, g2]

/-- **C161**: after `x.f = v` the field `x.f` is `v`, all other fields of that object (whether of another name or declared by another class of it) and all fields of other objects are as before; in the source and in C++. -/
theorem C161_fields (P : Prog) (first : Bool) (r : Int) (f : Fld) (v : Int) :
    (∀ s objs, P.sourceLang.put r f v s = .ok objs →
      (∀ q g, q ≠ r → P.sourceLang.slot objs q g = P.sourceLang.slot s.objs q g) ∧
      ∃ o c, P.sourceLang.slot s.objs r f = .ok (o, c) ∧ ∀ g d, P.sourceLang.slot s.objs r g = .ok (o, d) →
        ∃ o', P.sourceLang.slot objs r g = .ok (o', d) ∧ o'.fields d g.name = if d = c ∧ g.name = f.name then v else o.fields d g.name) ∧
    (∀ s objs, (P.cppLang first).put r f v s = .ok objs →
      (∀ q g, q ≠ r → (P.cppLang first).slot objs q g = (P.cppLang first).slot s.objs q g) ∧
      ∃ o c, (P.cppLang first).slot s.objs r f = .ok (o, c) ∧ ∀ g d, (P.cppLang first).slot s.objs r g = .ok (o, d) →
        ∃ o', (P.cppLang first).slot objs r g = .ok (o', d) ∧ o'.fields d g.name = if d = c ∧ g.name = f.name then v else o.fields d g.name) :=
  ⟨fun _ _ h => put_slots (L := P.sourceLang) (fun _ _ _ => rfl) h, fun _ _ h => put_slots (L := P.cppLang first) (fun _ _ _ => rfl) h⟩

/-- **C161**: `x == null` and `x == y` of references: whether the reference is null, whether they are the same; nothing else changes. -/
theorem C161_comparisons (P : Prog) (L : Lang H) (C : Calls H) (m k x y : Nat) (s : St H) :
    ((P.meth m).cond k = .isNull ⟨none, [], some x, none⟩ → ∃ b, (P.interp L C m).cond k s = .ok b s ∧ (b = true ↔ s.vars x = 0)) ∧
    ((P.meth m).cond k = .same ⟨none, [], some x, none⟩ y → ∃ b, (P.interp L C m).cond k s = .ok b s ∧ (b = true ↔ s.vars x = s.vars y)) := by
  refine ⟨fun h => ⟨decide (s.vars x = 0), ?_, by simp⟩, fun h => ⟨decide (s.vars x = s.vars y), ?_, by simp⟩⟩
  · simp only [Prog.interp, h]; rfl
  · simp only [Prog.interp, h]; rfl

/-- In `virtProg` a call of `Run` leaves one object, of class B and complete. -/
example : ∃ o, (final (virtProg.runSource (fun _ => 77) 20 20 4 [5, 7] ⟨fun _ => 0, [], []⟩)).objs = [o] ∧ o.cls = 1 ∧ o.now = 1 ∧ o.live = true ∧ o.fields 0 0 = 36 ∧ o.fields 1 1 = 7 := ⟨_, rfl, rfl, rfl, rfl, rfl, rfl⟩

/-- `class A { static A saved; int v; A() { saved = this; throw new Exception(); } }` (class 0, method 0; `saved` is variable 7), `static void Make() { A a = new A(); }` (method 1), `static int Use() { return saved.v; }`
(method 2, and all others). -/
def escapeProg : Prog where
  cls _ := ⟨[], [0], [], fun _ _ => 0⟩
  ctor _ := .root 0 [] (some 0)
  sig _ := []
  static k := k = 7
  meth m :=
    if m = 0 then straight [] [.refer 7 ⟨none, [], some 0, none⟩, .throw .argument] none
    else if m = 1 then straight [] [.refer 2 ⟨some (.newObj 0 [] [] 5), [], some 5, none⟩] none
    else straight [] [] (some (.val ⟨none, ⟨[.fld ⟨7, ⟨0, 0, 0⟩, 5⟩], .var .int32 5⟩⟩))

/-- **C159**, refuted: an object whose constructor raised an exception after keeping a reference to it somewhere remains an object in the source; in C++ it is gone and its use is undefined. -/
theorem C159_escape_refuted (fresh : Env) :
    fault (escapeProg.runSource fresh 9 9 1 [] ⟨fun _ => 0, [], []⟩) = some (.exc .argument) ∧
    returned (escapeProg.runSource fresh 9 9 2 [] (final (escapeProg.runSource fresh 9 9 1 [] ⟨fun _ => 0, [], []⟩))) = some (some 0) ∧
    ∀ body : Nat → CS, (∀ m, (body m).WF ∧ (body m).flat = emitMain (escapeProg.meth m).main false (escapeProg.meth m).blocks) → ∀ first,
      fault (escapeProg.runCpp first body fresh 9 9 1 [] ⟨fun _ => 0, [], []⟩) = some (.exc .argument) ∧
      fault (escapeProg.runCpp first body fresh 9 9 2 [] (final (escapeProg.runCpp first body fresh 9 9 1 [] ⟨fun _ => 0, [], []⟩))) = some .undefined := by
  refine ⟨rfl, rfl, fun body hb => ?_⟩
  have hmain : ∀ m, (escapeProg.meth m).main = 9 := by
    intro m
    show Meth.main (if m = 0 then _ else if m = 1 then _ else _) = 9
    repeat' split
    all_goals rfl
  have hs : ∀ m, Stmt.Shape .blocks (escapeProg.meth m).blocks := by
    intro m
    show Stmt.Shape .blocks (Meth.blocks (if m = 0 then _ else if m = 1 then _ else _))
    repeat' split
    all_goals simp [straight, Stmt.Shape]
  have key : body = fun m => Stmt.tr 9 (escapeProg.meth m).blocks [1] ⟨1, 9⟩ .nil := by
    funext m
    have hwf := (tr_wf 9 (escapeProg.meth m).blocks .blocks (hs m) [1] ⟨1, 9⟩ .nil).1 trivial trivial
    have hfl : (Stmt.tr 9 (escapeProg.meth m).blocks [1] ⟨1, 9⟩ .nil).flat = emitMain 9 false (escapeProg.meth m).blocks := by rw [tr_flat, emitMain_eq]; simp [CS.flat]
    have := (hb m).2
    rw [hmain m] at this
    exact C101_one_reading _ _ (hb m).1 hwf (this.trans hfl.symm)
  rw [key]
  intro first
  cases first <;> exact ⟨rfl, rfl⟩

end Verif.ObjProg
