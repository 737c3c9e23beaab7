import Verif.ArrProgModel
import Verif.FlowSim
import Verif.ProgramProps
import Verif.ArrayProps
/-!
# C158: programs with arrays
-/
namespace Verif.ArrProg
open Verif.Stmt Verif.Sem
open Verif.Method hiding Fault look assign
open Verif.IntVal (Ty)
open Verif.Program (Fault ExprSem set Storable Testable Switchable Below Bad below_source below_cpp)
open Verif.ArrModel (Arr tySize)
open Verif.ArrSpec (Shape Idx InBounds HasShape rowMajor)

/-! ## The programs of the theorem -/

/-- An index or size expression: of type Int32. -/
def GoodIndex (e : X) : Prop := Storable .int32 e ∧ e.width = .w32

def Xs.Good : Xs → Prop
  | .one a => GoodIndex a
  | .two a b => GoodIndex a ∧ GoodIndex b
  | .three a b c => GoodIndex a ∧ GoodIndex b ∧ GoodIndex c

def Read.Good : Read → Prop
  | .elem _ _ ix _ => ix.Good
  | .len _ _ => True

def GoodReads (rs : List Read) : Prop := ∀ r ∈ rs, r.Good

/-- Parameters and arguments. -/
def GoodArgs : List Param → List Arg → Prop
  | .val ty :: tys, .val e :: es => Storable ty e ∧ GoodArgs tys es
  | _ :: tys, .ref _ :: es => GoodArgs tys es
  | _ :: tys, .null :: es => GoodArgs tys es
  | _, _ => True

def Prog.GoodOp (P : Prog) : Option Op → Prop
  | none => True
  | some (.call callee reads args _) => GoodReads reads ∧ GoodArgs (P.meth callee).params args
  | some (.new _ reads sizes _) => GoodReads reads ∧ sizes.Good

def Prog.GoodPiece (P : Prog) (p : Piece) (ok : X → Prop) : Prop := P.GoodOp p.op ∧ GoodReads p.rx.reads ∧ ok p.rx.expr

structure Prog.GoodMeth (P : Prog) (m : Meth) : Prop where
  assign : ∀ k x ty p, m.stmt k = .assign x ty p → P.GoodPiece p (Storable ty)
  refer : ∀ k x p, m.stmt k = .refer x p → P.GoodOp p.op
  setElem : ∀ k t arr ixReads ix value, m.stmt k = .setElem t arr ixReads ix value → GoodReads ixReads ∧ ix.Good ∧ GoodReads value.reads ∧ Storable t value.expr
  cond : ∀ c p, m.cond c = .test p → P.GoodPiece p Testable
  val : ∀ v, P.GoodPiece (m.val v) Switchable
  retVal : ∀ v p, m.ret v = .val p → P.GoodPiece p (Storable m.retType)
  retRef : ∀ v p, m.ret v = .ref p → P.GoodOp p.op
  shape : Stmt.Shape .blocks m.blocks
  inner : Innermost m.main [] m.blocks
  ids : (m.main :: ids m.blocks).Nodup
  jumps : ∀ l ∈ branches m.blocks, ∀ b, (l, b) ∈ visited m.blocks → ¬ LoneLeave b

def Prog.Good (P : Prog) : Prop := ∀ m, P.GoodMeth (P.meth m)

/-! ## Results -/

section
variable {H K : Type} {Hd : H → K → Prop}

/-- The first is undefined, or the results correspond. -/
inductive ResSim {α β : Type} (Q : α → β → Prop) : Res α → Res β → Prop where
  | ub {y} : ResSim Q .ub y
  | ok {a b} (h : Q a b) : ResSim Q (.ok a) (.ok b)
  | throw (e) : ResSim Q (.throw e) (.throw e)

theorem ResSim.bind {α β γ δ : Type} {Q : α → β → Prop} {Q' : γ → δ → Prop} {x : Res α} {y : Res β} {f : α → Res γ} {g : β → Res δ} (h : ResSim Q x y) (hf : ∀ a b, Q a b → ResSim Q' (f a) (g b)) :
    ResSim Q' (x >>= f) (y >>= g) := by
  cases h with
  | ub => exact .ub
  | ok h => exact hf _ _ h
  | throw e => exact .throw e

theorem ResSim.of {α : Type} {x y : Res α} (h : x = .ub ∨ x = y) : ResSim Eq x y := by
  rcases h with h | h
  · rw [h]; exact .ub
  · rw [h]; cases y with
    | ok v => exact .ok rfl
    | throw e => exact .throw e
    | ub => exact .ub

/-- What arrays do on the two sides. -/
structure MemSim (M : Mem H) (N : Mem K) (Hd : H → K → Prop) : Prop where
  null : M.null = none ∨ M.null = N.null
  new : ∀ t sh, ResSim Hd (M.new t sh) (N.new t sh)
  get : ∀ a b t ix, Hd a b → ResSim Eq (M.get a t ix) (N.get b t ix)
  check : ∀ a b t ix, Hd a b → ResSim Eq (M.check a t ix) (N.check b t ix)
  set : ∀ a b t ix v, Hd a b → ResSim Hd (M.set a t ix v) (N.set b t ix v)
  len : ∀ a b, Hd a b → M.len a = N.len b

/-- The arrays correspond. -/
def HeapSim (Hd : H → K → Prop) (h : List H) (k : List K) : Prop := h.length = k.length ∧ ∀ (i : Nat) a b, h[i]? = some a → k[i]? = some b → Hd a b

def StSim (Hd : H → K → Prop) (s : St H) (t : St K) : Prop := s.vars = t.vars ∧ HeapSim Hd s.heap t.heap

structure PartSim (L : Lang H) (N : Lang K) (Hd : H → K → Prop) : Prop where
  E : Below L.E N.E
  M : MemSim L.M N.M Hd

variable {L : Lang H} {N : Lang K}

theorem deref_sim (S : PartSim L N Hd) {h : List H} {k : List K} (hk : HeapSim Hd h k) (r : Int) : ResSim Hd (L.deref h r) (N.deref k r) := by
  unfold Lang.deref
  by_cases h0 : r = 0
  · rw [if_pos h0, if_pos h0]
    rcases S.M.null with e | e
    · rw [e]; exact .ub
    · rw [e]
      cases N.M.null with
      | some x => exact .throw x
      | none => exact .ub
  · rw [if_neg h0, if_neg h0]
    by_cases h1 : r < 0
    · rw [if_pos h1]; exact .ub
    · rw [if_neg h1, if_neg h1]
      generalize hi : (r - 1).toNat = i
      by_cases h2 : i < h.length
      · have h3 : i < k.length := hk.1 ▸ h2
        rw [List.getElem?_eq_getElem h2, List.getElem?_eq_getElem h3]
        exact .ok (hk.2 i _ _ (List.getElem?_eq_getElem h2) (List.getElem?_eq_getElem h3))
      · rw [List.getElem?_eq_none (by omega)]; exact .ub

theorem index_sim (S : PartSim L N Hd) (s : Env) (ix : Xs) (h : ix.Good) : ResSim Eq (L.index s ix) (N.index s ix) := by
  have st : ∀ e, GoodIndex e → ResSim Eq (L.E.store s .int32 e) (N.E.store s .int32 e) := fun e he => .of (S.E.store s .int32 e he.1)
  cases ix with
  | one a => exact (st a h).bind fun i _ e => e ▸ .ok rfl
  | two a b => exact (st a h.1).bind fun i _ e => e ▸ (st b h.2).bind fun j _ e => e ▸ .ok rfl
  | three a b c => exact (st a h.1).bind fun i _ e => e ▸ (st b h.2.1).bind fun j _ e => e ▸ (st c h.2.2).bind fun k _ e => e ▸ .ok rfl

theorem read_sim (S : PartSim L N Hd) {h : List H} {k : List K} (hk : HeapSim Hd h k) (s : Env) (r : Read) (hr : r.Good) : ResSim Eq (L.read h s r) (N.read k s r) := by
  cases r with
  | elem t arr ix result =>
    exact (index_sim S s ix hr).bind fun i _ e => e ▸ (deref_sim S hk _).bind fun a b hab => (S.M.get a b t i hab).bind fun v _ e => e ▸ .ok rfl
  | len arr result => exact (deref_sim S hk _).bind fun a b hab => .ok (by rw [S.M.len a b hab])

theorem reads_sim (S : PartSim L N Hd) {h : List H} {k : List K} (hk : HeapSim Hd h k) : ∀ (rs : List Read) (s : Env), GoodReads rs → ResSim Eq (L.reads h s rs) (N.reads k s rs)
  | [], _, _ => .ok rfl
  | r :: rs, s, hr => (read_sim S hk s r (hr r (by simp))).bind fun s' _ e => e ▸ reads_sim S hk rs s' (fun r h => hr r (by simp [h]))

theorem rx_sim {α : Type} (S : PartSim L N Hd) {h : List H} {k : List K} (hk : HeapSim Hd h k) (s : Env) (e : RX) (he : GoodReads e.reads) {f g : Env → X → Res α}
    (hf : ∀ s, ResSim Eq (f s e.expr) (g s e.expr)) : ResSim Eq (L.rx h s e f) (N.rx k s e g) :=
  (reads_sim S hk e.reads s he).bind fun s' _ e => e ▸ hf s'

theorem args_sim (S : PartSim L N Hd) (s : Env) : ∀ (ps : List Param) (as : List Arg), GoodArgs ps as → ResSim Eq (L.args s ps as) (N.args s ps as)
  | .val ty :: tys, .val e :: es, h => by
    simp only [Lang.args]
    exact (ResSim.of (S.E.store s ty e h.1)).bind fun v _ e => e ▸ (args_sim S s tys es h.2).bind fun vs _ e => e ▸ .ok rfl
  | .val _ :: tys, .ref x :: es, h => by simp only [Lang.args]; exact (args_sim S s tys es h).bind fun vs _ e => e ▸ .ok rfl
  | .val _ :: tys, .null :: es, h => by simp only [Lang.args]; exact (args_sim S s tys es h).bind fun vs _ e => e ▸ .ok rfl
  | .ref :: tys, .ref x :: es, h => by simp only [Lang.args]; exact (args_sim S s tys es h).bind fun vs _ e => e ▸ .ok rfl
  | .ref :: tys, .null :: es, h => by simp only [Lang.args]; exact (args_sim S s tys es h).bind fun vs _ e => e ▸ .ok rfl
  | .ref :: _, .val _ :: _, _ => by simp only [Lang.args]; exact .ok rfl
  | [], _, _ => by simp only [Lang.args]; exact .ok rfl
  | .val _ :: _, [], _ => by simp only [Lang.args]; exact .ok rfl
  | .ref :: _, [], _ => by simp only [Lang.args]; exact .ok rfl

/-! ## Statements -/

abbrev Sim (Hd : H → K → Prop) {α : Type} (a : Ev (St H) Fault α) (b : Ev (St K) Fault α) : Prop := EvSim (StSim Hd) Bad a b

theorem look_sim {α : Type} {s : St H} {t : St K} (hs : StSim Hd s t) {x y : Res α} (h : ResSim Eq x y) : Sim Hd (look s x) (look t y) := by
  cases h with
  | ub => exact .bad rfl
  | ok h => subst h; exact .ok _ hs
  | throw e => exact .raise _ hs

theorem andThen_sim {α β : Type} {a : Ev (St H) Fault α} {b : Ev (St K) Fault α} (h : Sim Hd a b) {f : α → St H → Ev (St H) Fault β} {g : α → St K → Ev (St K) Fault β}
    (hf : ∀ v s t, StSim Hd s t → Sim Hd (f v s) (g v t)) : Sim Hd (andThen a f) (andThen b g) := by
  cases h with
  | bad h => exact .bad h
  | ok v h => exact hf _ _ _ h
  | raise x h => exact .raise _ h

/-- A result that is a new array, or new arrays. -/
theorem look_then {α α' β : Type} {Q : α → α' → Prop} {s : St H} {t : St K} (hs : StSim Hd s t) {x : Res α} {y : Res α'} (h : ResSim Q x y) {f : α → St H → Ev (St H) Fault β}
    {g : α' → St K → Ev (St K) Fault β} (hf : ∀ a b, Q a b → Sim Hd (f a s) (g b t)) : Sim Hd (andThen (look s x) f) (andThen (look t y) g) := by
  cases h with
  | ub => exact .bad rfl
  | ok h => exact hf _ _ h
  | throw e => exact .raise _ hs

theorem heap_append {h : List H} {k : List K} (hk : HeapSim Hd h k) {a : H} {b : K} (hab : Hd a b) : HeapSim Hd (h ++ [a]) (k ++ [b]) := by
  refine ⟨by simp [hk.1], fun i x y hx hy => ?_⟩
  by_cases hi : i < h.length
  · rw [List.getElem?_append_left hi] at hx
    rw [List.getElem?_append_left (hk.1 ▸ hi)] at hy
    exact hk.2 i x y hx hy
  · rw [List.getElem?_append_right (by omega)] at hx
    rw [List.getElem?_append_right (by have := hk.1; omega), ← hk.1] at hy
    generalize i - h.length = j at hx hy
    cases j with
    | zero => simp at hx hy; rw [← hx, ← hy]; exact hab
    | succ j => simp at hx

theorem heap_set {h : List H} {k : List K} (hk : HeapSim Hd h k) {a : H} {b : K} (hab : Hd a b) (i : Nat) : HeapSim Hd (h.set i a) (k.set i b) := by
  refine ⟨by simp [hk.1], fun j x y hx hy => ?_⟩
  rw [List.getElem?_set] at hx hy
  by_cases e : i = j
  · rw [if_pos e] at hx hy
    split at hx
    · split at hy
      · simp at hx hy; rw [← hx, ← hy]; exact hab
      · cases hy
    · cases hx
  · rw [if_neg e] at hx hy
    exact hk.2 j x y hx hy

theorem op_sim (P : Prog) (S : PartSim L N Hd) {C : Calls H} {D : Calls K} (hC : ∀ m vs s t, StSim Hd s t → Sim Hd (C m vs s) (D m vs t)) (o : Option Op) (ho : P.GoodOp o) {s : St H} {t : St K}
    (hs : StSim Hd s t) : Sim Hd (P.op L C s o) (P.op N D t o) := by
  rcases o with _ | o
  · show Sim Hd (.ok s.vars s) (.ok t.vars t)
    rw [hs.1]; exact .ok _ hs
  · cases o with
    | call callee reads args result =>
      simp only [Prog.op]
      rw [hs.1]
      refine andThen_sim (look_sim hs ((reads_sim S hs.2 reads _ ho.1).bind fun env _ e => e ▸ args_sim S env _ _ ho.2)) fun vs s t hs => andThen_sim (hC _ _ _ _ hs) fun r s t hs => ?_
      rw [hs.1]; exact .ok _ hs
    | new ty reads sizes result =>
      simp only [Prog.op]
      rw [hs.1]
      have key : ∀ env, ResSim Hd (L.index env sizes >>= fun i => L.M.new ty (shapeOf i)) (N.index env sizes >>= fun i => N.M.new ty (shapeOf i)) :=
        fun env => (index_sim S env sizes ho.2).bind fun i _ e => by subst e; exact S.M.new ty _
      refine look_then hs ((reads_sim S hs.2 reads _ ho.1).bind fun env _ e => by subst e; exact key env) fun a b hab => ?_
      rw [hs.2.1, hs.1]; exact .ok _ ⟨rfl, heap_append hs.2 hab⟩

theorem piece_sim {α : Type} (P : Prog) (S : PartSim L N Hd) {C : Calls H} {D : Calls K} (hC : ∀ m vs s t, StSim Hd s t → Sim Hd (C m vs s) (D m vs t)) (p : Piece) {ok : X → Prop} (hp : P.GoodPiece p ok)
    {f g : Env → X → Res α} (hf : ∀ s e, ok e → f s e = .ub ∨ f s e = g s e) {s : St H} {t : St K} (hs : StSim Hd s t) : Sim Hd (P.piece L C p f s) (P.piece N D p g t) :=
  andThen_sim (op_sim P S hC p.op hp.1 hs) fun env _ _ hs => look_sim hs (rx_sim S hs.2 env p.rx hp.2.1 fun s => .of (hf s _ hp.2.2))

theorem refPiece_sim (P : Prog) (S : PartSim L N Hd) {C : Calls H} {D : Calls K} (hC : ∀ m vs s t, StSim Hd s t → Sim Hd (C m vs s) (D m vs t)) (p : RefPiece) (hp : P.GoodOp p.op)
    {s : St H} {t : St K} (hs : StSim Hd s t) : Sim Hd (P.refPiece L C p s) (P.refPiece N D p t) :=
  andThen_sim (op_sim P S hC p.op hp hs) fun _ _ _ hs => .ok _ hs

theorem checked_sim (S : PartSim L N Hd) {s : St H} {t : St K} (hs : StSim Hd s t) (ty : Ty) (arr : Nat) (i : Idx) : ResSim Eq (L.checked s ty arr i) (N.checked t ty arr i) := by
  unfold Lang.checked
  rw [hs.1]
  exact (deref_sim S hs.2 _).bind fun a b hab => S.M.check a b ty i hab

theorem write_sim (S : PartSim L N Hd) {s : St H} {t : St K} (hs : StSim Hd s t) (ty : Ty) (arr : Nat) (i : Idx) (v : Int) : ResSim (HeapSim Hd) (L.write s ty arr i v) (N.write t ty arr i v) := by
  unfold Lang.write
  rw [hs.1]
  exact (deref_sim S hs.2 _).bind fun a b hab => (S.M.set a b ty i v hab).bind fun a b hab => .ok (heap_set hs.2 hab _)

/-- The parts of the assignment to an element on the two sides. -/
theorem setElem_sim (S : PartSim L N Hd) (hL : L.order = .stopped) (hN : N.order = .source ∨ N.order = .early ∨ N.order = .late)
    (hw : ∀ (s : St H) ty arr i v e, L.checked s ty arr i = .throw e → L.write s ty arr i v = .throw e)
    {s : St H} {t : St K} (hs : StSim Hd s t) (ty : Ty) (arr : Nat) (ixReads : List Read) (ix : Xs) (value : RX)
    (h1 : GoodReads ixReads) (h2 : ix.Good) (h3 : GoodReads value.reads) (h4 : Storable ty value.expr) :
    ResSim (HeapSim Hd) (L.setElem s ty arr ixReads ix value) (N.setElem t ty arr ixReads ix value) := by
  have a1 : ResSim Eq (L.target s ixReads ix) (N.target t ixReads ix) := by
    unfold Lang.target; rw [hs.1]
    exact (reads_sim S hs.2 ixReads _ h1).bind fun env _ e => e ▸ index_sim S env ix h2
  have a2 : ResSim Eq (L.rx s.heap s.vars value fun env e => L.E.store env ty e) (N.rx t.heap t.vars value fun env e => N.E.store env ty e) := by
    rw [hs.1]; exact rx_sim S hs.2 _ value h3 fun s => .of (S.E.store s ty _ h4)
  have a3 := checked_sim S hs ty arr
  have a4 := write_sim S hs ty arr
  have hw := hw s ty arr
  unfold Lang.setElem
  rw [hL]
  simp only []
  revert a1 a2 a3 a4 hw
  generalize L.target s ixReads ix = T
  generalize N.target t ixReads ix = T'
  generalize (L.rx s.heap s.vars value fun env e => L.E.store env ty e) = V
  generalize (N.rx t.heap t.vars value fun env e => N.E.store env ty e) = V'
  generalize L.checked s ty arr = c
  generalize N.checked t ty arr = c'
  generalize L.write s ty arr = w
  generalize N.write t ty arr = w'
  intro a1 a2 a3 a4 hw
  cases a1 with
  | ub => exact .ub
  | throw e =>
    simp only [Res.bind_throw]
    cases a2 with
    | ub => exact .ub
    | ok h => rcases hN with h | h | h <;> simp only [h, Res.bind_throw, Res.bind_ok] <;> exact .throw e
    | throw e' =>
      simp only []
      by_cases he : e = e'
      · subst he
        rw [if_pos rfl]
        rcases hN with h | h | h <;> simp only [h, Res.bind_throw] <;> exact .throw e
      · rw [if_neg he]; exact .ub
  | @ok i i' h =>
    subst h
    simp only [Res.bind_ok]
    have b3 := a3 i
    have hw := hw i
    revert b3 hw
    generalize c i = ci
    generalize hci : c' i = ci'
    intro b3 hw
    cases b3 with
    | ub => exact .ub
    | throw e =>
      cases a2 with
      | ub => exact .ub
      | @ok v v' h =>
        subst h
        simp only [Res.bind_ok]
        have h5 := a4 i v
        rw [hw v e rfl] at h5 ⊢
        rcases hN with h | h | h <;> simp only [h, Res.bind_throw, Res.bind_ok, hci]
        · exact h5
        · exact .throw e
        · exact h5
      | throw e' =>
        simp only []
        by_cases he : e = e'
        · subst he
          rw [if_pos rfl]
          rcases hN with h | h | h <;> simp only [h, Res.bind_throw, hci] <;> exact .throw e
        · rw [if_neg he]; exact .ub
    | ok h5 =>
      cases a2 with
      | ub => exact .ub
      | @ok v v' h =>
        subst h
        simp only [Res.bind_ok]
        rcases hN with h | h | h <;> simp only [h, Res.bind_ok, hci] <;> exact a4 i v
      | throw e' =>
        simp only [Res.bind_throw]
        rcases hN with h | h | h <;> simp only [h, Res.bind_throw, Res.bind_ok, hci] <;> exact .throw e'

/-- What is needed of the two sides. -/
structure LangSim (L : Lang H) (N : Lang K) (Hd : H → K → Prop) : Prop extends PartSim L N Hd where
  stopped : L.order = .stopped
  order : N.order = .source ∨ N.order = .early ∨ N.order = .late
  checks : ∀ (s : St H) ty arr i v e, L.checked s ty arr i = .throw e → L.write s ty arr i v = .throw e

theorem interp_sim (P : Prog) (hP : P.Good) (S : LangSim L N Hd) {C : Calls H} {D : Calls K} (hC : ∀ m vs s t, StSim Hd s t → Sim Hd (C m vs s) (D m vs t)) (m : Nat) :
    Simulates (StSim Hd) Bad (P.interp L C m) (P.interp N D m) where
  act k s t hs := by
    unfold Prog.interp
    simp only []
    cases hk : (P.meth m).stmt k with
    | assign x ty p =>
      exact andThen_sim (piece_sim P S.toPartSim hC p ((hP m).assign k x ty p hk) (fun s e h => S.E.store s ty e h) hs) fun v s t hs => .ok () ⟨by simp [hs.1], hs.2⟩
    | refer x p => exact andThen_sim (refPiece_sim P S.toPartSim hC p ((hP m).refer k x p hk) hs) fun v s t hs => .ok () ⟨by simp [hs.1], hs.2⟩
    | setElem ty arr ixReads ix value =>
      obtain ⟨h1, h2, h3, h4⟩ := (hP m).setElem k ty arr ixReads ix value hk
      exact look_then hs (setElem_sim S.toPartSim S.stopped S.order S.checks hs ty arr ixReads ix value h1 h2 h3 h4) fun a b hab => .ok () ⟨hs.1, hab⟩
    | throw x => exact .raise _ hs
  cond c s t hs := by
    unfold Prog.interp
    simp only []
    cases hk : (P.meth m).cond c with
    | test p => exact piece_sim P S.toPartSim hC p ((hP m).cond c p hk) (fun s e h => S.E.test s e h) hs
    | isNull x => simp only []; rw [hs.1]; exact .ok _ hs
  val v s t hs := piece_sim P S.toPartSim hC _ ((hP m).val v) (fun s e h => S.E.val s e h) hs
  ret v s t hs := by
    unfold Prog.interp
    simp only []
    cases hk : (P.meth m).ret v with
    | val p => exact piece_sim P S.toPartSim hC p ((hP m).retVal v p hk) (fun s e h => S.E.store s _ e h) hs
    | ref p => exact refPiece_sim P S.toPartSim hC p ((hP m).retRef v p hk) hs
  catches h x := rfl
  bad h x hx := by rw [hx]; rfl
  bind h x s t hs := hs

/-! ## Calls -/

theorem enter_sim (P : Prog) (fresh : Env) (vs : List Int) {s : St H} {t : St K} (hs : StSim Hd s t) : StSim Hd (P.enter fresh vs s) (P.enter fresh vs t) := ⟨by simp [Prog.enter, hs.1], hs.2⟩

theorem back_sim (P : Prog) {s s' : St H} {t t' : St K} (hs : StSim Hd s t) (hs' : StSim Hd s' t') : StSim Hd (P.back s s') (P.back t t') := ⟨by simp [Prog.back, hs.1, hs'.1], hs'.2⟩

theorem finish_sim (P : Prog) {s : St H} {t : St K} (hs : StSim Hd s t) {a : Out (St H) Fault} {b : Out (St K) Fault} (h : OutSim (StSim Hd) Bad a b) : Sim Hd (P.finish s a) (P.finish t b) := by
  cases h with
  | bad h => exact .bad h
  | ret v h => exact .ok _ (back_sim P hs h)
  | uncaught x h => exact .raise _ (back_sim P hs h)
  | timeout h => exact .raise _ (back_sim P hs h)
  | stuck => exact .bad rfl

end

/-! ## The source and the source stopped -/

theorem eq_res {α : Type} (x : Res α) : ResSim Eq x x := .of (.inr rfl)

theorem mem_source : MemSim stoppedMem sourceMem Eq where
  null := .inl rfl
  new t sh := by
    show ResSim Eq (if Makes t sh then sourceMem.new t sh else .ub) _
    split
    · exact eq_res _
    · exact .ub
  get a b t ix h := by subst h; exact eq_res _
  check a b t ix h := by subst h; exact eq_res _
  set a b t ix v h := by subst h; exact eq_res _
  len a b h := by subst h; rfl

theorem stopped_checks (E : ExprSem) (o : Order) (s : St SArr) (ty : Ty) (arr : Nat) (i : Idx) (v : Int) (e : Exc) (h : (⟨E, stoppedMem, o⟩ : Lang SArr).checked s ty arr i = .throw e) :
    (⟨E, stoppedMem, o⟩ : Lang SArr).write s ty arr i v = .throw e := by
  unfold Lang.checked at h
  unfold Lang.write
  revert h
  generalize Lang.deref _ s.heap (s.vars arr) = d
  intro h
  cases d with
  | ub => cases h
  | throw x => simp only [Res.bind_throw] at h ⊢; cases h; rfl
  | ok a =>
    simp only [Res.bind_ok] at h ⊢
    have h' : a.check ty i = .throw e := h
    show ((a.check ty i >>= fun _ => _) >>= _) = _
    rw [h']; rfl

theorem lang_source : LangSim ⟨Program.stopped, stoppedMem, .stopped⟩ ⟨Program.source, sourceMem, .source⟩ Eq where
  E := below_source
  M := mem_source
  stopped := rfl
  order := .inl rfl
  checks := stopped_checks _ _

/-! ## The C++ and the source stopped -/

theorem size_pos (t : Ty) : 1 ≤ tySize t := by cases t <;> decide

theorem get_cell {sh : Shape} {c : Arr} {t : Ty} (h : HasShape sh c) (ht : c.ty = .int t) (ix : Idx) (hb : InBounds sh ix) :
    cppGet c t ix = .ok (ArrModel.loadInt t (ArrSpec.cell c (rowMajor sh ix).toNat)) := by
  obtain ⟨h1, h2, h3⟩ := ArrProps.addressOf_ok h hb
  have hc := ArrProps.inBounds_cells hb
  have hz : c.ty.size = tySize t := by rw [ht]; rfl
  unfold cppGet
  unfold ArrSpec.addressOf at h1
  rw [h1, Res.bind_ok, ← hz, SBModel.peek_some h2 (by omega) h3]
  simp only []
  unfold ArrSpec.cell
  have e : (rowMajor sh ix * (c.ty.size : Int)).toNat = (rowMajor sh ix).toNat * c.ty.size := by
    rw [Int.toNat_mul hc.1 (by omega)]; simp
  rw [e]; simp

theorem zero_cell {c : Arr} (h : ∀ b ∈ c.data, b = 0) (t : Ty) (m : Nat) (hl : 1 ≤ (ArrSpec.cell c m).length) : ArrModel.loadInt t (ArrSpec.cell c m) = 0 := by
  have hz : ∀ bs : List Nat, (∀ b ∈ bs, b = 0) → leNat bs = 0 := by
    intro bs
    induction bs with
    | nil => intro _; rfl
    | cons b bs ih =>
      intro hb
      have h1 := ih fun x hx => hb x (by simp [hx])
      have h2 := hb b (by simp)
      simp [leNat, h1, h2]
  have h0 := hz (ArrSpec.cell c m) fun b hb => h b (List.mem_of_mem_drop (List.mem_of_mem_take hb))
  have hp : (0 : Int) < 256 ^ (ArrSpec.cell c m).length / 2 := by
    revert hl
    cases (ArrSpec.cell c m).length with
    | zero => intro h; omega
    | succ n =>
      intro _
      have : (0 : Int) < 256 ^ n := Int.pow_pos (by decide)
      rw [Int.pow_succ]; omega
  have hi : leInt (ArrSpec.cell c m) = 0 := by
    unfold leInt
    rw [h0, if_pos hp]
  cases t <;> simp [ArrModel.loadInt, h0, hi]

theorem check_cpp {a : SArr} {c : Arr} (h : Holds a c) (t : Ty) (ix : Idx) :
    a.check t ix = .ub ∨ (a.ty = t ∧ InBounds a.sh ix ∧ a.check t ix = .ok () ∧ ArrSpec.addressOf c ix = .ok (rowMajor a.sh ix * c.ty.size)) ∨
      (a.check t ix = .throw .indexOutOfRange ∧ ArrSpec.addressOf c ix = .throw .indexOutOfRange) := by
  unfold SArr.check
  by_cases h1 : a.ty ≠ t ∨ ix.rank ≠ a.sh.rank
  · rw [if_pos h1]; exact .inl rfl
  · rw [if_neg h1]
    have h2 : a.ty = t ∧ ix.rank = a.sh.rank := by simpa using h1
    by_cases h3 : InBounds a.sh ix
    · rw [if_pos h3]; exact .inr (.inl ⟨h2.1, h3, rfl, (ArrProps.addressOf_ok h.shape h3).1⟩)
    · rw [if_neg h3]; exact .inr (.inr ⟨rfl, (ArrProps.C40_addressing a.sh c h.shape).2.2.2 ix h2.2 h3⟩)

theorem set_cpp {a : SArr} {c : Arr} (h : Holds a c) (ix : Idx) (hb : InBounds a.sh ix) (v : Int) :
    ∃ c', cppSet c a.ty ix v = .ok c' ∧ Holds { a with elem := fun jx => if jx = ix then a.ty.wrap v else a.elem jx } c' := by
  obtain ⟨h1, h2, h3⟩ := ArrProps.addressOf_ok h.shape hb
  have hc := ArrProps.inBounds_cells hb
  have hz : c.ty.size = tySize a.ty := by rw [h.type]; rfl
  have hl : (leBytes (tySize a.ty) v).length = c.ty.size := by rw [leBytes_length, hz]
  obtain ⟨d, hd, hdl, hdg⟩ := SBModel.poke_some (buf := c.data) (i := rowMajor a.sh ix * c.ty.size) (xs := leBytes (tySize a.ty) v) h2 (by rw [hl]; exact h3)
  have hs : HasShape a.sh { c with data := d } := ⟨h.shape.nonneg, h.shape.d1, h.shape.d2, h.shape.d3, h.shape.dims, h.shape.total, by rw [hdl]; exact h.shape.bytes, h.shape.fits, h.shape.fitsBytes⟩
  refine ⟨{ c with data := d }, ?_, hs, h.type, fun jx hj => ?_⟩
  · unfold cppSet
    unfold ArrSpec.addressOf at h1
    rw [h1, Res.bind_ok, hd]
  · have hj : InBounds a.sh jx := hj
    have e : (rowMajor a.sh ix * (c.ty.size : Int)).toNat = (rowMajor a.sh ix).toNat * c.ty.size := by
      rw [Int.toNat_mul hc.1 (by omega)]; simp
    rw [e] at hdg
    have key := ArrProps.cell_poke_one hl hdg (rowMajor a.sh jx).toNat
    rw [get_cell hs h.type jx hj]
    show Res.ok (ArrModel.loadInt a.ty ((d.drop ((rowMajor a.sh jx).toNat * c.ty.size)).take c.ty.size)) = _
    rw [key]
    by_cases hji : jx = ix
    · subst hji
      rw [if_pos rfl, ArrProps.load_int]
      simp
    · have hne : (rowMajor a.sh jx).toNat ≠ (rowMajor a.sh ix).toNat := fun e => by
        have c2 := ArrProps.inBounds_cells hj
        exact hji (ArrProps.rowMajor_inj hj hb (by omega))
      rw [if_neg hne]
      simp only [if_neg hji]
      have := h.elem jx hj
      rw [get_cell h.shape h.type jx hj] at this
      exact this

theorem mem_cpp : MemSim stoppedMem cppMem Holds where
  null := .inl rfl
  new t sh := by
    show ResSim Holds (if Makes t sh then sourceMem.new t sh else .ub) _
    by_cases h : Makes t sh
    · rw [if_pos h]
      have h0 : sh.cells ≤ 2147483647 := by
        have h1 : 0 ≤ sh.cells := by
          cases sh with
          | one x => exact h.1
          | two x y => exact Int.mul_nonneg h.1.1 h.1.2
          | three x y z => exact Int.mul_nonneg (Int.mul_nonneg h.1.1 h.1.2.1) h.1.2.2
        have h2 := h.2.1
        have h3 := Int.mul_le_mul_of_nonneg_left (show (1 : Int) ≤ tySize t from by have := size_pos t; omega) h1
        omega
      obtain ⟨c, h1, h2, h3, h4⟩ := ArrProps.newArr_ok (.int t) sh h.1 h0 h.2.1 h.2.2
      show ResSim Holds (if sh.NonNeg then _ else _) (ArrModel.newArr _ _ _ _)
      rw [if_pos h.1, h1]
      refine .ok ⟨h3, h2, fun ix hb => ?_⟩
      rw [get_cell h3 h2 ix hb, zero_cell h4]
      have c1 : 0 ≤ rowMajor sh ix ∧ rowMajor sh ix < sh.cells := ArrProps.inBounds_cells hb
      rw [ArrProps.cell_length h3 (by omega), h2]
      exact size_pos t
    · rw [if_neg h]; exact .ub
  get a c t ix h := by
    show ResSim Eq (a.check t ix >>= fun _ => .ok (a.elem ix)) (cppGet c t ix)
    rcases check_cpp h t ix with e | ⟨e1, e2, e3, e4⟩ | ⟨e1, e2⟩
    · rw [e]; exact .ub
    · subst e1; rw [e3, h.elem ix e2]; exact .ok rfl
    · rw [e1]
      unfold cppGet
      unfold ArrSpec.addressOf at e2
      rw [e2]; exact .throw _
  check a c t ix h := by
    show ResSim Eq (a.check t ix) (ArrSpec.addressOf c ix >>= fun _ => .ok ())
    rcases check_cpp h t ix with e | ⟨e1, e2, e3, e4⟩ | ⟨e1, e2⟩
    · rw [e]; exact .ub
    · rw [e3, e4]; exact .ok rfl
    · rw [e1, e2]; exact .throw _
  set a c t ix v h := by
    show ResSim Holds (a.check t ix >>= fun _ => .ok _) (cppSet c t ix v)
    rcases check_cpp h t ix with e | ⟨e1, e2, e3, e4⟩ | ⟨e1, e2⟩
    · rw [e]; exact .ub
    · subst e1
      obtain ⟨c', h1, h2⟩ := set_cpp h ix e2 v
      rw [e3, h1]; exact .ok h2
    · rw [e1]
      unfold cppSet
      unfold ArrSpec.addressOf at e2
      rw [e2]; exact .throw _
  len a c h := h.shape.total.symm

theorem lang_cpp (first : Bool) : LangSim ⟨Program.stopped, stoppedMem, .stopped⟩ ⟨Program.cpp, cppMem, if first then .early else .late⟩ Holds where
  E := below_cpp
  M := mem_cpp
  stopped := rfl
  order := by cases first <;> simp
  checks := stopped_checks _ _

/-! ## Calls -/

theorem st_eq {s t : St SArr} (h : StSim Eq s t) : s = t := by
  obtain ⟨h1, h2, h3⟩ := h
  cases s; cases t
  simp only at h1 h2 h3
  subst h1
  congr 1
  apply List.ext_getElem h2
  intro i a b
  exact h3 i _ _ (List.getElem?_eq_getElem a) (List.getElem?_eq_getElem b)

theorem st_refl (s : St SArr) : StSim Eq s s := ⟨rfl, rfl, fun i a b h1 h2 => by rw [h1] at h2; exact Option.some.inj h2⟩

theorem ev_eq {α : Type} {a b : Ev (St SArr) Fault α} (h : Sim Eq a b) : a = b ∨ ∃ x s, a = .raise x s ∧ Bad x := by
  cases h with
  | bad h => exact .inr ⟨_, _, rfl, h⟩
  | ok v h => rw [st_eq h]; exact .inl rfl
  | raise x h => rw [st_eq h]; exact .inl rfl

theorem eq_ev {α : Type} {a b : Ev (St SArr) Fault α} (h : a = b ∨ ∃ x s, a = .raise x s ∧ Bad x) : Sim Eq a b := by
  rcases h with h | ⟨x, s, h, hb⟩
  · subst h
    cases a with
    | ok v s => exact .ok _ (st_refl s)
    | raise x s => exact .raise _ (st_refl s)
  · rw [h]; exact .bad hb

theorem source_sim (P : Prog) (hP : P.Good) (fresh : Env) (n : Nat) : ∀ d m vs s, Sim Eq (P.runStopped fresh n d m vs s) (P.runSource fresh n d m vs s)
  | 0, _, _, s => .raise _ (st_refl s)
  | d + 1, m, vs, s => by
    have ih := source_sim P hP fresh n d
    have S := interp_sim P hP lang_source (C := P.runStopped fresh n d) (D := P.runSource fresh n d) (fun m vs s t hs => by rw [← st_eq hs]; exact ih m vs s) m
    have R : Refines Bad (P.interp ⟨Program.stopped, stoppedMem, .stopped⟩ (P.runStopped fresh n d) m) (P.interp ⟨Program.source, sourceMem, .source⟩ (P.runSource fresh n d) m) :=
      ⟨fun k s => ev_eq (S.act k s s (st_refl s)), fun k s => ev_eq (S.cond k s s (st_refl s)), fun k s => ev_eq (S.val k s s (st_refl s)), fun k s => ev_eq (S.ret k s s (st_refl s)),
        S.catches, S.bad, fun h x s => rfl⟩
    show Sim Eq (P.finish s (runIL (P.interp ⟨Program.stopped, stoppedMem, .stopped⟩ (P.runStopped fresh n d) m) _ _ n _))
      (P.finish s (runIL (P.interp ⟨Program.source, sourceMem, .source⟩ (P.runSource fresh n d) m) _ _ n _))
    rcases runIL_ref R (P.meth m).main (P.meth m).blocks n (P.enter fresh vs s) with ⟨x, s', hx, e⟩ | e
    · rw [e]; exact .bad hx
    · rw [e]; exact eq_ev (.inl rfl)

theorem cpp_sim (P : Prog) (hP : P.Good) (first : Bool) (body : Nat → CS)
    (hflow : ∀ m (I : Interp (St SArr) Fault) n s, runIL I (P.meth m).main (P.meth m).blocks n s = .stuck ∨ runC I (body m) n s = runIL I (P.meth m).main (P.meth m).blocks n s)
    (fresh : Env) (n : Nat) : ∀ d m vs s c, StSim Holds s c → Sim Holds (P.runStopped fresh n d m vs s) (P.runCpp first body fresh n d m vs c)
  | 0, _, _, _, _, h => .raise _ h
  | d + 1, m, vs, s, c, h => by
    have ih := cpp_sim P hP first body hflow fresh n d
    show Sim Holds (P.finish s (runIL (P.interp ⟨Program.stopped, stoppedMem, .stopped⟩ (P.runStopped fresh n d) m) _ _ n _)) (P.finish c (runC (P.interp _ (P.runCpp first body fresh n d) m) (body m) n _))
    rcases hflow m (P.interp ⟨Program.stopped, stoppedMem, .stopped⟩ (P.runStopped fresh n d) m) n (P.enter fresh vs s) with e | e
    · rw [e]; exact .bad rfl
    · rw [← e]
      exact finish_sim P h (runC_sim (interp_sim P hP (lang_cpp first) ih m) (body m) n _ _ (enter_sim P fresh vs h))

/-- **C158** (partial: the programs of C157 with arrays of integers, of one to three dimensions, that are created, indexed, assigned to, measured, passed, returned and kept in variables and static fields). A translated
program does what the program does: for each method there is exactly one way to read what is written as a function body, and a call of any method, from states in which the library's arrays hold what the source's hold,
returns the same value (or the reference of the same array) or ends with the same exception (IndexOutOfRangeException included), and leaves the static fields and all arrays with the same contents; whichever side of an
assignment to an element the C++ compiler evaluates first; however deep the calls are nested, however often the methods jump and however many arrays they create; unless on the way some C++ is undefined, the source raises
OverflowException, an array needs more than 2^31-1 bytes, a null reference is used, or the two sides of an assignment to an element raise different exceptions. -/
theorem C158_arrays_partial (P : Prog) (hP : P.Good) :
    ∃ body : Nat → CS, (∀ m, (body m).WF ∧ (body m).flat = emitMain (P.meth m).main false (P.meth m).blocks ∧
        ∀ b : CS, b.WF → b.flat = emitMain (P.meth m).main false (P.meth m).blocks → b = body m) ∧
      ∀ (first : Bool) (fresh : Env) (n d m : Nat) (vs : List Int) (s : St SArr) (c : St Arr), Same s c → (∀ s', P.runStopped fresh n d m vs s ≠ .raise .undefined s') →
        SameEnd (P.runSource fresh n d m vs s) (P.runCpp first body fresh n d m vs c) := by
  have ex := fun m => C101_flow_partial (P.meth m).main (P.meth m).blocks (hP m).shape (hP m).inner (hP m).ids (hP m).jumps
  refine ⟨fun m => (ex m).choose, fun m => ⟨(ex m).choose_spec.1, (ex m).choose_spec.2.1, (ex m).choose_spec.2.2.1⟩, fun first fresh n d m vs s c hs hns => ?_⟩
  have a := ev_eq (source_sim P hP fresh n d m vs s)
  have b := cpp_sim P hP first (fun m => (ex m).choose) (fun m I n s => (ex m).choose_spec.2.2.2 _ _ I n s) fresh n d m vs s c hs
  rcases a with a | ⟨x, s', a, hx⟩
  · rw [← a]
    revert b hns
    generalize P.runStopped fresh n d m vs s = x
    generalize P.runCpp first (fun m => (ex m).choose) fresh n d m vs c = y
    intro hns b
    cases b with
    | @bad x s' b hb => rw [hb] at hns; exact absurd rfl (hns s')
    | ok v h => exact .ok v h
    | raise x h => exact .raise x h
  · rw [hx] at a; exact absurd a (hns s')

/-! ## A program with an array -/

/-- `static void Fill(short[] a, int k) { int i = 0; while (i < a.Length) { a[i] = (short)(i * k); i = i + 1; } }` (method 0) and
`static long At(int n, int k, int at) { short[] a = new short[n]; Fill(a, k); long s; try { s = a[at]; } catch (IndexOutOfRangeException) { s = -1; } return s; }` (method 1, and all others). -/
def fillProg : Prog where
  static _ := false
  meth m := if m = 0 then {
      params := [.ref, .val .int32], retType := .int32, main := 9
      blocks := .bcons 0 (.cons (.act 1) (.cons (.container 1 (.bcons 5 (.cons (.ite 7 (.block (.cons (.act 2) (.cons (.act 3) .nil))) (.leave 1 5 none)) (.cons (.branch 5) .nil)) .bnil))
        (.cons (.leave 9 0 none) .nil))) .bnil
      stmt := fun k => if k = 1 then .assign 2 .int32 ⟨none, [], .i4 0⟩ else if k = 2 then .setElem .int16 0 [] (.one (.var .int32 2)) ⟨[], .bin (.arith .mul) false false (.var .int32 2) (.var .int32 1)⟩
        else .assign 2 .int32 ⟨none, [], .bin (.arith .add) false false (.var .int32 2) (.i4 1)⟩
      cond := fun _ => .test ⟨none, [.len 0 3], .comp .lt false (.var .int32 2) (.var .int32 3)⟩
      val := fun _ => ⟨none, [], .i4 0⟩
      ret := fun _ => .val ⟨none, [], .i4 0⟩
      catches := fun _ _ => false }
    else {
      params := [.val .int32, .val .int32, .val .int32], retType := .int64, main := 9
      blocks := .bcons 0 (.cons (.act 1) (.cons (.act 2) (.cons (.tryCatch 1 6 (.cons (.act 3) (.cons (.leave 1 6 none) .nil)) .bnil (.hcons 2 7 (.cons (.act 4) (.cons (.leave 2 7 none) .nil)) .bnil .hnil))
        (.cons (.leave 9 0 (some 1)) .nil)))) .bnil
      stmt := fun k => if k = 1 then .refer 3 ⟨some (.new .int16 [] (.one (.var .int32 0)) 5), some 5⟩
        else if k = 2 then .assign 8 .int32 ⟨some (.call 0 [] [.ref 3, .val (.var .int32 1)] 6), [], .i4 0⟩
        else if k = 3 then .assign 4 .int64 ⟨none, [.elem .int16 3 (.one (.var .int32 2)) 7], .conv .int64 false false (.var .int16 7)⟩
        else .assign 4 .int64 ⟨none, [], .i8 (-1)⟩
      cond := fun _ => .isNull 3
      val := fun _ => ⟨none, [], .i4 0⟩
      ret := fun _ => .val ⟨none, [], .var .int64 4⟩
      catches := fun _ x => x == .indexOutOfRange }

theorem fill_good : fillProg.Good := by
  intro m
  by_cases hm : m = 0
  · subst hm
    refine ⟨?_, ?_, ?_, ?_, ?_, ?_, ?_, by simp [fillProg, Stmt.Shape], by simp [fillProg, Innermost], by decide, ?_⟩
    · intro k x ty p hk
      by_cases h1 : k = 1
      · simp [fillProg, h1] at hk
        obtain ⟨rfl, rfl, rfl⟩ := hk
        simp [Prog.GoodPiece, Prog.GoodOp, GoodReads, Storable, Agree, cty, Sem.tr, constX, CX.ty, common, promote, CT.bits, CT.signed, X.width, tyW, W.bits, sx, ux, I32]
      · by_cases h2 : k = 2
        · simp [fillProg, h2] at hk
        · simp [fillProg, h1, h2] at hk
          obtain ⟨rfl, rfl, rfl⟩ := hk
          simp [Prog.GoodPiece, Prog.GoodOp, GoodReads, Storable, Agree, cty, Sem.tr, constX, CX.ty, common, promote, CT.bits, CT.signed, X.width, tyW, W.bits, sx, ux, I32]
    · intro k x p hk
      simp [fillProg] at hk
      split at hk <;> try split at hk
      all_goals cases hk
    · intro k t arr ixr ix value hk
      by_cases h2 : k = 2
      · simp [fillProg, h2] at hk
        obtain ⟨rfl, rfl, rfl, rfl, rfl⟩ := hk
        simp [GoodReads, Xs.Good, GoodIndex, Storable, Agree, cty, Sem.tr, constX, CX.ty, common, promote, CT.bits, CT.signed, X.width, tyW, W.bits, sx, ux, I32]
      · simp [fillProg, h2] at hk
        split at hk <;> cases hk
    · intro c p hk
      simp [fillProg] at hk
      subst hk
      simp [Prog.GoodPiece, Prog.GoodOp, GoodReads, Read.Good, Testable, isIte, Agree, cty, Sem.tr, constX, CX.ty, common, promote, CT.bits, CT.signed, X.width, tyW, W.bits, sx, ux, I32]
    · intro v
      simp [fillProg, Prog.GoodPiece, Prog.GoodOp, GoodReads, Switchable, Agree, cty, Sem.tr, constX, CX.ty, common, promote, CT.bits, CT.signed, X.width, tyW, W.bits, sx, ux, I32]
    · intro v p hk
      simp [fillProg] at hk
      subst hk
      simp [fillProg, Prog.GoodPiece, Prog.GoodOp, GoodReads, Storable, Agree, cty, Sem.tr, constX, CX.ty, common, promote, CT.bits, CT.signed, X.width, tyW, W.bits, sx, ux, I32]
    · intro v p hk
      simp [fillProg] at hk
    · intro l hl b hb
      simp [fillProg, branches] at hl
      subst hl
      simp [fillProg, visited] at hb
      rw [hb]
      rintro ⟨_, _, _, e⟩
      simp at e
  · refine ⟨?_, ?_, ?_, ?_, ?_, ?_, ?_, by simp [fillProg, hm, Stmt.Shape], by simp [fillProg, hm, Innermost, handlerIds], by simp only [fillProg, hm, if_false]; decide, by simp [fillProg, hm, branches]⟩
    · intro k x ty p hk
      by_cases h1 : k = 1
      · simp [fillProg, hm, h1] at hk
      · by_cases h2 : k = 2
        · simp [fillProg, hm, h2] at hk
          obtain ⟨rfl, rfl, rfl⟩ := hk
          simp [fillProg, Prog.GoodPiece, Prog.GoodOp, GoodArgs, GoodReads, Storable, Agree, cty, Sem.tr, constX, CX.ty, common, promote, CT.bits, CT.signed, X.width, tyW, W.bits, sx, ux, I32]
        · by_cases h3 : k = 3
          · simp [fillProg, hm, h3] at hk
            obtain ⟨rfl, rfl, rfl⟩ := hk
            simp [Prog.GoodPiece, Prog.GoodOp, GoodReads, Read.Good, Xs.Good, GoodIndex, Storable, Agree, cty, Sem.tr, constX, CX.ty, common, promote, CT.bits, CT.signed, X.width, tyW, W.bits, sx, ux, I32, I64]
          · simp [fillProg, hm, h1, h2, h3] at hk
            obtain ⟨rfl, rfl, rfl⟩ := hk
            simp [Prog.GoodPiece, Prog.GoodOp, GoodReads, Storable, Agree, cty, Sem.tr, constX, CX.ty, common, promote, CT.bits, CT.signed, X.width, tyW, W.bits, sx, ux, I32, I64]
    · intro k x p hk
      by_cases h1 : k = 1
      · simp [fillProg, hm, h1] at hk
        obtain ⟨rfl, rfl⟩ := hk
        simp [Prog.GoodOp, GoodReads, Xs.Good, GoodIndex, Storable, Agree, X.width, tyW]
      · simp [fillProg, hm, h1] at hk
        split at hk <;> try split at hk
        all_goals cases hk
    · intro k t arr ixr ix value hk
      simp [fillProg, hm] at hk
      split at hk <;> try split at hk
      all_goals try split at hk
      all_goals cases hk
    · intro c p hk
      simp [fillProg, hm] at hk
    · intro v
      simp [fillProg, hm, Prog.GoodPiece, Prog.GoodOp, GoodReads, Switchable, Agree, cty, Sem.tr, constX, CX.ty, common, promote, CT.bits, CT.signed, X.width, tyW, W.bits, sx, ux, I32]
    · intro v p hk
      simp [fillProg, hm] at hk
      subst hk
      simp [fillProg, hm, Prog.GoodPiece, Prog.GoodOp, GoodReads, Storable, Agree, X.width, tyW]
    · intro v p hk
      simp [fillProg, hm] at hk

/-- What a call returned. -/
def returned {H : Type} : Ev (St H) Fault (Option Int) → Option (Option Int)
  | .ok v _ => some v
  | .raise _ _ => none

/-- The fault a call ended with. -/
def fault {H : Type} : Ev (St H) Fault (Option Int) → Option Fault
  | .ok _ _ => none
  | .raise x _ => some x

theorem SameEnd.same {a : Ev (St SArr) Fault (Option Int)} {b : Ev (St Arr) Fault (Option Int)} (h : SameEnd a b) : returned b = returned a ∧ fault b = fault a := by
  cases h <;> exact ⟨rfl, rfl⟩

/-- In C++ `At(5, 10000, 4)` returns 40000 as a Short; `At(5, 3, 5)` catches the exception of the index and returns -1. -/
example (first : Bool) : ∃ body : Nat → CS, (∀ m, (body m).flat = emitMain (fillProg.meth m).main false (fillProg.meth m).blocks) ∧
    ∀ fresh : Env, fresh = (fun _ => 77) → returned (fillProg.runCpp first body fresh 20 20 1 [5, 10000, 4] ⟨fun _ => 0, []⟩) = some (some (-25536)) ∧
      returned (fillProg.runCpp first body fresh 20 20 1 [5, 3, 5] ⟨fun _ => 0, []⟩) = some (some (-1)) := by
  obtain ⟨body, h1, h2⟩ := C158_arrays_partial fillProg fill_good
  refine ⟨body, fun m => (h1 m).2.1, fun fresh hf => ?_⟩
  subst hf
  have h0 : Same ⟨fun _ => 0, []⟩ ⟨fun _ => 0, []⟩ := ⟨rfl, rfl, fun k a b h => by simp at h⟩
  refine ⟨(h2 first _ 20 20 1 [5, 10000, 4] _ _ h0 ?_).same.1.trans ?_, (h2 first _ 20 20 1 [5, 3, 5] _ _ h0 ?_).same.1.trans ?_⟩
  · intro s' h
    have : fault (fillProg.runStopped (fun _ => 77) 20 20 1 [5, 10000, 4] ⟨fun _ => 0, []⟩) = none := by decide +kernel
    rw [h] at this; cases this
  · decide +kernel
  · intro s' h
    have : fault (fillProg.runStopped (fun _ => 77) 20 20 1 [5, 3, 5] ⟨fun _ => 0, []⟩) = none := by decide +kernel
    rw [h] at this; cases this
  · decide +kernel

/-! ## Programs that are not translated faithfully -/

/-- `static int First(int[] a, int z) { return a[0]; }` (method 0) and `static int Both(int[] a, int z) { a[1 / z] = a[5]; return 0; }` (method 1, and all others). -/
def firstProg : Prog where
  static _ := false
  meth m := {
      params := [.ref, .val .int32], retType := .int32, main := 9
      blocks := if m = 0 then .bcons 0 (.cons (.leave 9 0 (some 1)) .nil) .bnil else .bcons 0 (.cons (.act 1) (.cons (.leave 9 0 (some 2)) .nil)) .bnil
      stmt := fun _ => .setElem .int32 0 [] (.one (.bin .div false false (.i4 1) (.var .int32 1))) ⟨[.elem .int32 0 (.one (.i4 5)) 3], .var .int32 3⟩
      cond := fun _ => .isNull 0
      val := fun _ => ⟨none, [], .i4 0⟩
      ret := fun v => if v = 1 then .val ⟨none, [.elem .int32 0 (.one (.i4 0)) 3], .var .int32 3⟩ else .val ⟨none, [], .i4 0⟩
      catches := fun _ _ => false }

/-- **C158**, the rest refuted: an element of a null array raises NullReferenceException in the source and is undefined in C++; and when both sides of an assignment to an element raise exceptions, the source raises that
of the index and the C++ of a compiler that evaluates the right side first raises that of the value. -/
theorem C158_refuted (fresh : Env) :
    fault (firstProg.runSource fresh 5 5 0 [0, 0] ⟨fun _ => 0, []⟩) = some (.exc .nullReference) ∧
    fault (firstProg.runSource fresh 5 5 1 [1, 0] ⟨fun _ => 0, [⟨.int32, .one 1, fun _ => 0⟩]⟩) = some (.exc .divideByZero) ∧
    ∀ body : Nat → CS, (∀ m, (body m).WF ∧ (body m).flat = emitMain (firstProg.meth m).main false (firstProg.meth m).blocks) →
      (∀ first, fault (firstProg.runCpp first body fresh 5 5 0 [0, 0] ⟨fun _ => 0, []⟩) = some .undefined) ∧
      fault (firstProg.runCpp false body fresh 5 5 1 [1, 0] ⟨fun _ => 0, [⟨.int .int32, 1, -1, -1, 1, 1, [0, 0, 0, 0]⟩]⟩) = some (.exc .indexOutOfRange) := by
  refine ⟨rfl, rfl, fun body hb => ?_⟩
  have hs : ∀ m, Stmt.Shape .blocks (firstProg.meth m).blocks := by
    intro m
    by_cases hm : m = 0 <;> simp [firstProg, hm, Stmt.Shape]
  have key : body = fun m => Stmt.tr 9 (firstProg.meth m).blocks [1] ⟨1, 9⟩ .nil := by
    funext m
    have hwf := (tr_wf 9 (firstProg.meth m).blocks .blocks (hs m) [1] ⟨1, 9⟩ .nil).1 trivial trivial
    have hfl : (Stmt.tr 9 (firstProg.meth m).blocks [1] ⟨1, 9⟩ .nil).flat = emitMain 9 false (firstProg.meth m).blocks := by rw [tr_flat, emitMain_eq]; simp [CS.flat]
    exact C101_one_reading _ _ (hb m).1 hwf ((hb m).2.trans hfl.symm)
  rw [key]
  exact ⟨fun first => by cases first <;> rfl, rfl⟩

/-- The two states of the second counterexample are the same. -/
example : Same ⟨fun _ => 0, [⟨.int32, .one 1, fun _ => 0⟩]⟩ ⟨fun _ => 0, [⟨.int .int32, 1, -1, -1, 1, 1, [0, 0, 0, 0]⟩]⟩ := by
  refine ⟨rfl, rfl, fun k a b ha hb => ?_⟩
  rcases k with _ | k
  · simp at ha hb
    subst ha hb
    refine ⟨⟨by decide, rfl, rfl, rfl, rfl, rfl, by decide, by decide, by decide⟩, rfl, fun ix hi => ?_⟩
    cases ix with
    | one i =>
      have : i = 0 := by simp only [InBounds] at hi; omega
      subst this; decide +kernel
    | two i j => exact hi.elim
    | three i j k => exact hi.elim
  · simp at ha

end Verif.ArrProg
