import Verif.ObjProgModel
import Verif.ArrProgProps
/-!
# C159: programs with objects
-/
namespace Verif.ObjProg
open Verif.Stmt Verif.Sem
open Verif.Method hiding Fault look assign
open Verif.IntVal (Ty)
open Verif.Program (Fault ExprSem set Storable Testable Switchable Below Bad)
open Verif.ArrModel (Arr)
open Verif.ArrProg (Xs Arg Param Mem SArr Order Holds andThen GoodArgs ResSim HeapSim PartSim LangSim shapeOf)

/-! ## The programs of the theorem -/

/-- The field of the source is the nearest one of its name: no class between the static type and the declaring class hides it. -/
def Prog.GoodFld (P : Prog) (f : Fld) : Prop := P.nearest f.stat f.name = some f.decl

/-- The calls of C120: the method is declared where the source says, it is a `callvirt` or the method is not virtual, and nothing hides the method. -/
structure Prog.GoodSite (P : Prog) (k : Site) : Prop where
  decl : k.decl ∈ P.chain k.stat
  found : ∃ m, Dispatch.find (P.cls k.decl).decls k.name k.params = some m ∧ (k.virt = true ∨ m.kind = .plain)
  unhidden : ∀ c, k.stat ∈ P.chain c → Dispatch.NoHiding k.name k.params (P.declsOf (P.chain c))
  overload : Dispatch.NoOverloadHiding k.name k.params (P.declsOf (P.above k.stat k.decl))

def Prog.GoodRead (P : Prog) : Read → Prop
  | .arr r => r.Good
  | .fld r => P.GoodFld r.f

def Prog.GoodReads (P : Prog) (rs : List Read) : Prop := ∀ r ∈ rs, P.GoodRead r
def Prog.GoodPre (P : Prog) (rs : List FRead) : Prop := ∀ r ∈ rs, P.GoodFld r.f

def Prog.GoodOp (P : Prog) : Option Op → Prop
  | none => True
  | some (.call callee reads args _) => P.GoodReads reads ∧ GoodArgs (P.meth callee).params args
  | some (.inst site _ reads args _) => P.GoodReads reads ∧ GoodArgs (P.sig site.params) args ∧ P.GoodSite site
  | some (.newArr _ reads sizes _) => P.GoodReads reads ∧ sizes.Good
  | some (.newObj k reads args _) => P.GoodReads reads ∧ GoodArgs (P.ctor k).params args

def Prog.GoodPiece (P : Prog) (p : Piece) (ok : X → Prop) : Prop := P.GoodOp p.op ∧ P.GoodReads p.rx.reads ∧ ok p.rx.expr
def Prog.GoodRef (P : Prog) (p : RefPiece) : Prop := P.GoodOp p.op ∧ P.GoodReads p.reads

/-- Arguments of a base constructor that are translated (C108): variables, numbers, null. -/
def SimpleArg : Arg → Prop
  | .val (.var _ _) | .val (.i4 _) | .val (.i8 _) | .ref _ | .null => True
  | _ => False

/-- Constructors: those that call the constructor of the nearest base. -/
def Prog.GoodCtor (P : Prog) : Ctor → Prop
  | .root c _ _ => (P.cls c).bases = []
  | .derived c _ base args _ => (P.cls c).bases.head? = some base.cls ∧ GoodArgs base.params args ∧ (∀ a ∈ args, SimpleArg a) ∧ P.GoodCtor base

def Prog.GoodStmt (P : Prog) : Stmt → Prop
  | .assign _ ty p => P.GoodPiece p (Storable ty)
  | .refer _ p => P.GoodRef p
  | .setElem pre t _ ixReads ix value => P.GoodPre pre ∧ ArrProg.GoodReads ixReads ∧ ix.Good ∧ ArrProg.GoodReads value.reads ∧ Storable t value.expr
  | .setField pre _ f ty p => P.GoodPre pre ∧ P.GoodFld f ∧ P.GoodPiece p (Storable ty)
  | .setRef pre _ f p => P.GoodPre pre ∧ P.GoodFld f ∧ P.GoodRef p
  | .throw _ => True

def Prog.GoodCond (P : Prog) : Cond → Prop
  | .test p => P.GoodPiece p Testable
  | .isNull p => P.GoodRef p
  | .same p _ => P.GoodRef p

def Prog.GoodRet (P : Prog) (ty : Ty) : Ret → Prop
  | .val p => P.GoodPiece p (Storable ty)
  | .ref p => P.GoodRef p

structure Prog.GoodMeth (P : Prog) (m : Meth) : Prop where
  stmt : ∀ k, P.GoodStmt (m.stmt k)
  cond : ∀ c, P.GoodCond (m.cond c)
  val : ∀ v, P.GoodPiece (m.val v) Switchable
  ret : ∀ v, P.GoodRet m.retType (m.ret v)
  shape : Stmt.Shape .blocks m.blocks
  inner : Innermost m.main [] m.blocks
  ids : (m.main :: ids m.blocks).Nodup
  jumps : ∀ l ∈ branches m.blocks, ∀ b, (l, b) ∈ visited m.blocks → ¬ LoneLeave b

structure Prog.Good (P : Prog) : Prop where
  meth : ∀ m, P.GoodMeth (P.meth m)
  ctor : ∀ k, P.GoodCtor (P.ctor k)
  /-- the bases of a base are the rest of the bases -/
  bases : ∀ c d pre b, P.chain c = pre ++ d :: b → (P.cls d).bases = b
  once : ∀ c, Dispatch.Once (P.cls c).decls

/-! ## Objects on the two sides -/

/-- The first is undefined, or they are the same. -/
structure ObjSim (O O' : ObjSem) (P : Prog) : Prop where
  field : ∀ o f, P.GoodFld f → O.field o f = none ∨ O.field o f = O'.field o f
  target : ∀ o k, P.GoodSite k → O.target o k = none ∨ O.target o k = O'.target o k
  cast : ∀ o c, O.cast o c = .ub ∨ O.cast o c = O'.cast o c

theorem obj_source (P : Prog) : ObjSim P.stoppedObj P.sourceObj P where
  field o f _ := by
    simp only [Prog.stoppedObj, Prog.sourceObj]
    by_cases h : o.live = true ∧ f.stat ∈ P.chain o.now ∧ f.decl ∈ P.chain o.cls
    · rw [if_pos h, if_pos h.2.2]; exact .inr rfl
    · rw [if_neg h]; exact .inl rfl
  target o k _ := by
    simp only [Prog.stoppedObj, Prog.sourceObj]
    split
    · exact .inr rfl
    · exact .inl rfl
  cast o c := by
    simp only [Prog.stoppedObj, Prog.sourceObj]
    by_cases h : o.live = true ∧ c ∈ P.chain o.now ∧ c ∈ P.chain o.cls
    · rw [if_pos h, if_pos h.2.2]; exact .inr rfl
    · rw [if_neg h]; exact .inl rfl

/-- A class with its bases, split at one of them. -/
theorem chain_split (P : Prog) (hP : P.Good) {c d : Nat} (h : d ∈ P.chain c) : P.chain c = P.above c d ++ P.chain d := by
  have key : ∀ l : List Nat, d ∈ l → ∃ b, l = l.takeWhile (· ≠ d) ++ d :: b := by
    intro l
    induction l with
    | nil => intro h; simp at h
    | cons x l ih =>
      intro h
      by_cases e : x = d
      · subst e; exact ⟨l, by simp⟩
      · have h' : d ∈ l := by simpa [Ne.symm e] using h
        obtain ⟨b, hb⟩ := ih h'
        refine ⟨b, ?_⟩
        rw [List.takeWhile_cons_of_pos (by simpa using e), List.cons_append, ← hb]
  obtain ⟨b, hb⟩ := key _ h
  have h2 := hP.bases c d _ b hb
  unfold Prog.above
  conv => lhs; rw [hb]
  rw [Prog.chain.eq_1 P d, h2]

theorem called_reached (P : Prog) (hP : P.Good) (c : Nat) (k : Site) (hk : P.GoodSite k) (hc : k.stat ∈ P.chain c) : P.reached c k = P.called c k := by
  have h1 := chain_split P hP hc
  have h2 := chain_split P hP hk.decl
  have h3 : k.decl ∈ P.chain c := by rw [h1]; exact List.mem_append_right _ hk.decl
  have h4 := chain_split P hP h3
  have h5 : P.above c k.decl = P.above c k.stat ++ P.above k.stat k.decl := by
    have : P.above c k.decl ++ P.chain k.decl = (P.above c k.stat ++ P.above k.stat k.decl) ++ P.chain k.decl := by
      rw [← h4, List.append_assoc, ← h2, ← h1]
    exact List.append_cancel_right this
  unfold Prog.reached Prog.called
  rw [if_pos hc, if_pos h3]
  obtain ⟨m, hm, hv⟩ := hk.found
  have hsplit : ∀ a b, P.declsOf (a ++ b) = P.declsOf a ++ P.declsOf b := fun a b => by simp [Prog.declsOf]
  have hchain : P.declsOf (P.chain k.decl) = (P.cls k.decl).decls :: P.declsOf (P.cls k.decl).bases := rfl
  have hfull : P.declsOf (P.chain c) = P.declsOf (P.above c k.stat) ++ P.declsOf (P.above k.stat k.decl) ++ (P.cls k.decl).decls :: P.declsOf (P.cls k.decl).bases := by
    rw [h4, h5, hsplit, hsplit, hchain]
  have key := Dispatch.C120_dispatch_partial ⟨k.virt, k.name, k.params⟩ (P.declsOf (P.above c k.stat)) (P.declsOf (P.above k.stat k.decl)) (P.cls k.decl).decls (P.declsOf (P.cls k.decl).bases) m hm
    (by
      rw [← hfull]
      intro x hx
      obtain ⟨y, _, rfl⟩ := List.mem_map.1 hx
      exact hP.once y)
    (by rw [← hfull]; exact hk.unhidden c hc) hk.overload hv
  rw [h5, hsplit, hchain, ← key]
  congr 2
  rw [h2, hsplit, hchain]

theorem obj_cpp (P : Prog) (hP : P.Good) : ObjSim P.stoppedObj P.cppObj P where
  field o f hf := by
    simp only [Prog.stoppedObj, Prog.cppObj]
    by_cases h : o.live = true ∧ f.stat ∈ P.chain o.now ∧ f.decl ∈ P.chain o.cls
    · rw [if_pos h, if_pos ⟨h.1, h.2.1⟩, hf]; exact .inr rfl
    · rw [if_neg h]; exact .inl rfl
  target o k hk := by
    simp only [Prog.stoppedObj, Prog.cppObj]
    by_cases h : o.live = true ∧ k.stat ∈ P.chain o.now ∧ P.called o.cls k = P.called o.now k
    · rw [if_pos h, if_pos h.1, called_reached P hP _ k hk h.2.1, h.2.2]; exact .inr rfl
    · rw [if_neg h]; exact .inl rfl
  cast o c := by
    simp only [Prog.stoppedObj, Prog.cppObj]
    by_cases h : o.live = true ∧ c ∈ P.chain o.now ∧ c ∈ P.chain o.cls
    · rw [if_pos h, if_pos ⟨h.1, h.2.1⟩]; exact .inr rfl
    · rw [if_neg h]; exact .inl rfl

/-! ## Expressions -/

section
variable {H K : Type} {Hd : H → K → Prop}

def StSim (Hd : H → K → Prop) (s : St H) (t : St K) : Prop := s.vars = t.vars ∧ s.objs = t.objs ∧ HeapSim Hd s.heap t.heap

/-- What is needed of the two sides. -/
structure Sims (P : Prog) (L : Lang H) (N : Lang K) (Hd : H → K → Prop) : Prop where
  A : LangSim L.A N.A Hd
  null : L.A.M.null = none
  O : ObjSim L.O N.O P

variable {P : Prog} {L : Lang H} {N : Lang K}

/-- What corresponds to a value is that value. -/
theorem res_ok {α : Type} {x y : Res α} {a : α} (h : ResSim Eq x y) (e : x = .ok a) : y = .ok a := by
  cases h with
  | ub => cases e
  | ok h => rw [← h]; exact e
  | throw _ => cases e

theorem obj_sim (S : Sims P L N Hd) (objs : List Obj) (r : Int) : ResSim Eq (L.obj objs r) (N.obj objs r) := by
  apply ResSim.of
  unfold Lang.obj
  by_cases h0 : r = 0
  · rw [if_pos h0, S.null]; exact .inl rfl
  · rw [if_neg h0, if_neg h0]; exact .inr rfl

theorem slot_sim (S : Sims P L N Hd) (objs : List Obj) (r : Int) (f : Fld) (hf : P.GoodFld f) : ResSim Eq (L.slot objs r f) (N.slot objs r f) := by
  refine (obj_sim S objs r).bind fun o _ e => ?_
  subst e
  rcases S.O.field o f hf with e | e
  · rw [e]; exact .ub
  · rw [e]; exact ArrProg.eq_res _

theorem fread_sim (S : Sims P L N Hd) (objs : List Obj) (s : Env) (r : FRead) (hf : P.GoodFld r.f) : ResSim Eq (L.fread objs s r) (N.fread objs s r) :=
  (slot_sim S objs _ r.f hf).bind fun p _ e => by subst e; exact .ok rfl

theorem freads_sim (S : Sims P L N Hd) (objs : List Obj) : ∀ (rs : List FRead) (s : Env), P.GoodPre rs → ResSim Eq (L.freads objs s rs) (N.freads objs s rs)
  | [], _, _ => .ok rfl
  | r :: rs, s, h => (fread_sim S objs s r (h r (by simp))).bind fun s' _ e => by subst e; exact freads_sim S objs rs s' fun r hr => h r (by simp [hr])

theorem reads_sim (S : Sims P L N Hd) {h : List H} {k : List K} (hk : HeapSim Hd h k) (objs : List Obj) : ∀ (rs : List Read) (s : Env), P.GoodReads rs → ResSim Eq (L.reads h objs s rs) (N.reads k objs s rs)
  | [], _, _ => .ok rfl
  | r :: rs, s, hr => by
    have h1 : ResSim Eq (L.read h objs s r) (N.read k objs s r) := by
      have := hr r (by simp)
      cases r with
      | arr r => exact ArrProg.read_sim S.A.toPartSim hk s r this
      | fld r => exact fread_sim S objs s r this
    exact h1.bind fun s' _ e => by subst e; exact reads_sim S hk objs rs s' fun r h => hr r (by simp [h])

/-! ## Statements -/

abbrev Sim (Hd : H → K → Prop) {α : Type} (a : Ev (St H) Fault α) (b : Ev (St K) Fault α) : Prop := EvSim (StSim Hd) Bad a b

theorem look_sim {α : Type} {s : St H} {t : St K} (hs : StSim Hd s t) {x y : Res α} (h : ResSim Eq x y) : Sim Hd (look s x) (look t y) := by
  cases h with
  | ub => exact .bad rfl
  | ok h => subst h; exact .ok _ hs
  | throw e => exact .raise _ hs

theorem andThen_sim {α β : Type} {a : Ev (St H) Fault α} {b : Ev (St K) Fault α} (h : Sim Hd a b) {f : α → St H → Ev (St H) Fault β} {g : α → St K → Ev (St K) Fault β}
    (hf : ∀ v s t, StSim Hd s t → Sim Hd (f v s) (g v t)) : Sim Hd (andThen a f) (andThen b g) := by
  cases h with
  | bad h => exact .bad h
  | ok v h => exact hf _ _ _ h
  | raise x h => exact .raise _ h

theorem look_then {α α' β : Type} {Q : α → α' → Prop} {s : St H} {t : St K} (hs : StSim Hd s t) {x : Res α} {y : Res α'} (h : ResSim Q x y) {f : α → St H → Ev (St H) Fault β}
    {g : α' → St K → Ev (St K) Fault β} (hf : ∀ a b, Q a b → Sim Hd (f a s) (g b t)) : Sim Hd (andThen (look s x) f) (andThen (look t y) g) := by
  cases h with
  | ub => exact .bad rfl
  | ok h => exact hf _ _ h
  | throw e => exact .raise _ hs

abbrev CallSim (Hd : H → K → Prop) (C : Calls H) (D : Calls K) : Prop := ∀ m vs s t, StSim Hd s t → Sim Hd (C m vs s) (D m vs t)

theorem become_sim {s : St H} {t : St K} (hs : StSim Hd s t) (r : Int) (c : Nat) : StSim Hd (become r c s) (become r c t) := ⟨hs.1, by simp only [become]; rw [hs.2.1], hs.2.2⟩
theorem abandon_sim {s : St H} {t : St K} (hs : StSim Hd s t) (r : Int) : StSim Hd (abandon r s) (abandon r t) := ⟨hs.1, by simp only [abandon]; rw [hs.2.1], hs.2.2⟩
theorem enter_sim (P : Prog) (fresh : Env) (vs : List Int) {s : St H} {t : St K} (hs : StSim Hd s t) : StSim Hd (P.enter fresh vs s) (P.enter fresh vs t) := ⟨by simp [Prog.enter, hs.1], hs.2⟩

theorem body_sim {C : Calls H} {D : Calls K} (hC : CallSim Hd C D) (r : Int) (vs : List Int) (body : Option Nat) {s : St H} {t : St K} (hs : StSim Hd s t) :
    Sim Hd (runBody C r vs body s) (runBody D r vs body t) := by
  cases body with
  | none => exact .ok _ hs
  | some m => exact andThen_sim (hC _ _ _ _ hs) fun _ _ _ hs => .ok _ hs

theorem construct_sim (S : Sims P L N Hd) {C : Calls H} {D : Calls K} (hC : CallSim Hd C D) (r : Int) : ∀ (k : Ctor), P.GoodCtor k → ∀ (vs : List Int) (s : St H) (t : St K), StSim Hd s t →
    Sim Hd (P.construct L C r k vs s) (P.construct N D r k vs t)
  | .root c ps body, _, vs, s, t, hs => body_sim hC r vs body (become_sim hs r c)
  | .derived c ps base args body, hk, vs, s, t, hs => by
    unfold Prog.construct
    rw [(enter_sim P (fun _ => 0) (r :: vs) hs).1]
    exact andThen_sim (look_sim hs (ArrProg.args_sim S.A.toPartSim _ _ _ hk.2.1)) fun ws s t hs =>
      andThen_sim (construct_sim S hC r base hk.2.2.2 ws s t hs) fun _ s t hs => body_sim hC r vs body (become_sim hs r c)

theorem op_sim (hP : P.Good) (S : Sims P L N Hd) {C : Calls H} {D : Calls K} (hC : CallSim Hd C D) (o : Option Op) (ho : P.GoodOp o) {s : St H} {t : St K}
    (hs : StSim Hd s t) : Sim Hd (P.op L C s o) (P.op N D t o) := by
  have hres : ∀ result (r : Option Int) (s : St H) (t : St K), StSim Hd s t →
      Sim Hd (.ok (match r with | some v => set s.vars result v | none => s.vars) s) (.ok (match r with | some v => set t.vars result v | none => t.vars) t) := by
    intro result r s t hs
    rw [hs.1]; exact .ok _ hs
  rcases o with _ | o
  · show Sim Hd (.ok s.vars s) (.ok t.vars t)
    rw [hs.1]; exact .ok _ hs
  · cases o with
    | call callee reads args result =>
      simp only [Prog.op]
      rw [hs.1, hs.2.1]
      exact andThen_sim (look_sim hs ((reads_sim S hs.2.2 _ reads _ ho.1).bind fun env _ e => by subst e; exact ArrProg.args_sim S.A.toPartSim env _ _ ho.2)) fun vs s t hs =>
        andThen_sim (hC _ _ _ _ hs) (hres result)
    | inst site recv reads args result =>
      simp only [Prog.op]
      rw [hs.1, hs.2.1]
      refine andThen_sim (look_sim hs ((reads_sim S hs.2.2 _ reads _ ho.1).bind fun env _ e => by
        subst e; exact (ArrProg.args_sim S.A.toPartSim env _ _ ho.2.1).bind fun vs _ e => by subst e; exact .ok rfl)) fun vs s t hs => ?_
      rw [hs.2.1]
      refine andThen_sim (look_sim hs ((obj_sim S _ _).bind fun o _ e => ?_)) fun c s t hs => andThen_sim (hC _ _ _ _ hs) (hres result)
      subst e
      rcases S.O.target o site ho.2.2 with e | e
      · rw [e]; exact .ub
      · rw [e]; exact ArrProg.eq_res _
    | newArr ty reads sizes result =>
      simp only [Prog.op]
      rw [hs.1, hs.2.1]
      have key : ∀ env, ResSim Hd (L.A.index env sizes >>= fun i => L.A.M.new ty (shapeOf i)) (N.A.index env sizes >>= fun i => N.A.M.new ty (shapeOf i)) :=
        fun env => (ArrProg.index_sim S.A.toPartSim env sizes ho.2).bind fun i _ e => by subst e; exact S.A.M.new ty _
      refine look_then hs ((reads_sim S hs.2.2 _ reads _ ho.1).bind fun env _ e => by subst e; exact key env) fun a b hab => ?_
      rw [hs.2.2.1, hs.1]; exact .ok _ ⟨rfl, hs.2.1, ArrProg.heap_append hs.2.2 hab⟩
    | newObj k reads args result =>
      simp only [Prog.op]
      rw [hs.1, hs.2.1]
      refine andThen_sim (look_sim hs ((reads_sim S hs.2.2 _ reads _ ho.1).bind fun env _ e => by subst e; exact ArrProg.args_sim S.A.toPartSim env _ _ ho.2)) fun vs s t hs => ?_
      rw [hs.2.1]
      have key := construct_sim S hC (t.objs.length + 1) (P.ctor k) (hP.ctor k) vs { s with objs := t.objs ++ [⟨(P.ctor k).cls, (P.ctor k).cls, true, fun _ _ => 0⟩] }
        { t with objs := t.objs ++ [⟨(P.ctor k).cls, (P.ctor k).cls, true, fun _ _ => 0⟩] } ⟨hs.1, rfl, hs.2.2⟩
      revert key
      generalize P.construct L C (t.objs.length + 1) (P.ctor k) vs _ = e1
      generalize P.construct N D (t.objs.length + 1) (P.ctor k) vs _ = e2
      intro key
      cases key with
      | bad h => exact .bad h
      | ok v h => simp only []; rw [h.1]; exact .ok _ h
      | raise x h => exact .raise x (abandon_sim h _)

theorem piece_sim {α : Type} (hP : P.Good) (S : Sims P L N Hd) {C : Calls H} {D : Calls K} (hC : CallSim Hd C D) (p : Piece) {ok : X → Prop} (hp : P.GoodPiece p ok)
    {f g : Env → X → Res α} (hf : ∀ s e, ok e → f s e = .ub ∨ f s e = g s e) {s : St H} {t : St K} (hs : StSim Hd s t) : Sim Hd (P.piece L C p f s) (P.piece N D p g t) :=
  andThen_sim (op_sim hP S hC p.op hp.1 hs) fun env s t hs => look_sim hs (by
    rw [hs.2.1]; exact (reads_sim S hs.2.2 _ p.rx.reads env hp.2.1).bind fun s _ e => by subst e; exact .of (hf s _ hp.2.2))

theorem cast_sim (S : Sims P L N Hd) (objs : List Obj) (r : Int) (c : Option Nat) : ResSim Eq (L.cast objs r c) (N.cast objs r c) := by
  cases c with
  | none => exact .ok rfl
  | some c =>
    simp only [Lang.cast]
    by_cases h0 : r = 0
    · rw [if_pos h0, if_pos h0]; exact .ok rfl
    · rw [if_neg h0, if_neg h0]
      refine (obj_sim S objs r).bind fun o _ e => ?_
      subst e
      exact (ResSim.of (S.O.cast o c)).bind fun _ _ _ => .ok rfl

theorem refPiece_sim (hP : P.Good) (S : Sims P L N Hd) {C : Calls H} {D : Calls K} (hC : CallSim Hd C D) (p : RefPiece) (hp : P.GoodRef p)
    {s : St H} {t : St K} (hs : StSim Hd s t) : Sim Hd (P.refPiece L C p s) (P.refPiece N D p t) :=
  andThen_sim (op_sim hP S hC p.op hp.1 hs) fun env s t hs => look_sim hs (by
    rw [hs.2.1]; exact (reads_sim S hs.2.2 _ p.reads env hp.2).bind fun s _ e => by subst e; exact cast_sim S _ _ _)

theorem ref_sim (S : Sims P L N Hd) (pre : List FRead) (hp : P.GoodPre pre) (obj : Nat) {s : St H} {t : St K} (hs : StSim Hd s t) : ResSim Eq (L.ref pre obj s) (N.ref pre obj t) := by
  unfold Lang.ref
  rw [hs.1, hs.2.1]
  exact (freads_sim S _ pre _ hp).bind fun env _ e => by subst e; exact .ok rfl

theorem put_sim (S : Sims P L N Hd) (r : Int) (f : Fld) (hf : P.GoodFld f) (v : Int) {s : St H} {t : St K} (hs : StSim Hd s t) : ResSim Eq (L.put r f v s) (N.put r f v t) := by
  unfold Lang.put
  rw [hs.2.1]
  exact (slot_sim S _ r f hf).bind fun p _ e => by subst e; exact .ok rfl

theorem store_sim (S : Sims P L N Hd) (pre : List FRead) (hp : P.GoodPre pre) (obj : Nat) (f : Fld) (hf : P.GoodFld f) {val : St H → Ev (St H) Fault Int} {val' : St K → Ev (St K) Fault Int}
    (hv : ∀ s t, StSim Hd s t → Sim Hd (val s) (val' t)) {s : St H} {t : St K} (hs : StSim Hd s t) : Sim Hd (L.store pre obj f val s) (N.store pre obj f val' t) := by
  -- the left side as the stopped program sees it
  have hnull : ∀ r f (s : St H), (∃ p, L.slot s.objs r f = .ok p) ∨ L.slot s.objs r f = .ub := by
    intro r f s
    unfold Lang.slot Lang.obj
    rw [S.null]
    split
    · exact .inr rfl
    · split
      · exact .inr rfl
      · split
        · rw [Res.bind_ok]
          split
          · exact .inl ⟨_, rfl⟩
          · exact .inr rfl
        · exact .inr rfl
  have hread : ∀ (rs : List FRead) (objs : List Obj) (env : Env), (∃ p, L.freads objs env rs = .ok p) ∨ L.freads objs env rs = .ub := by
    intro rs objs
    induction rs with
    | nil => intro env; exact .inl ⟨_, rfl⟩
    | cons r rs ih =>
      intro env
      unfold Lang.freads Lang.fread
      rcases hnull (env r.obj) r.f ⟨env, [], objs⟩ with ⟨p, e⟩ | e
      · simp only [] at e; rw [e, Res.bind_ok, Res.bind_ok]; exact ih _
      · simp only [] at e; rw [e, Res.bind_ub, Res.bind_ub]; exact .inr rfl
  have href : ∀ s : St H, (∃ r, L.ref pre obj s = .ok r) ∨ L.ref pre obj s = .ub := by
    intro s
    unfold Lang.ref
    rcases hread pre s.objs s.vars with ⟨p, e⟩ | e
    · rw [e]; exact .inl ⟨_, rfl⟩
    · rw [e]; exact .inr rfl
  unfold Lang.store
  rw [S.A.stopped]
  simp only []
  rcases href s with ⟨r, e⟩ | e
  case inr => rw [e]; exact .bad rfl
  rw [e]
  have h1 : N.ref pre obj t = .ok r := res_ok (ref_sim S pre hp obj hs) e
  simp only [look, andThen]
  rcases hnull r f s with ⟨p, e2⟩ | e2
  case inr => rw [e2]; exact .bad rfl
  have h2 : N.slot t.objs r f = .ok p := by rw [← hs.2.1]; exact res_ok (slot_sim S s.objs r f hf) e2
  rw [e2]
  simp only []
  have tail : ∀ v (s : St H) (t : St K), StSim Hd s t →
      Sim Hd (if L.ref pre obj s = .ok r then look s (L.put r f v s) else .raise .undefined s) (look t (N.put r f v t)) ∧
      Sim Hd (if L.ref pre obj s = .ok r then look s (L.put r f v s) else .raise .undefined s) (andThen (look t (N.ref pre obj t)) fun r s => look s (N.put r f v s)) := by
    intro v s t hs
    by_cases e3 : L.ref pre obj s = .ok r
    · rw [if_pos e3]
      refine ⟨look_sim hs (put_sim S r f hf v hs), ?_⟩
      have h3 : N.ref pre obj t = .ok r := res_ok (ref_sim S pre hp obj hs) e3
      rw [h3]
      exact look_sim hs (put_sim S r f hf v hs)
    · rw [if_neg e3]; exact ⟨.bad rfl, .bad rfl⟩
  rcases S.A.order with h | h | h <;> simp only [h]
  · rw [h1]
    exact andThen_sim (hv s t hs) fun v s t hs => (tail v s t hs).1
  · rw [h1]
    show Sim Hd _ (andThen (look t (N.slot t.objs r f)) _)
    rw [h2]
    exact andThen_sim (hv s t hs) fun v s t hs => (tail v s t hs).1
  · exact andThen_sim (hv s t hs) fun v s t hs => (tail v s t hs).2

theorem interp_sim (hP : P.Good) (S : Sims P L N Hd) {C : Calls H} {D : Calls K} (hC : CallSim Hd C D) (m : Nat) : Simulates (StSim Hd) Bad (P.interp L C m) (P.interp N D m) where
  act k s t hs := by
    unfold Prog.interp
    simp only []
    have hg := (hP.meth m).stmt k
    revert hg
    cases (P.meth m).stmt k with
    | assign x ty p =>
      intro hg
      exact andThen_sim (piece_sim hP S hC p hg (fun s e h => S.A.E.store s ty e h) hs) fun v s t hs => .ok () ⟨by simp [hs.1], hs.2⟩
    | refer x p => intro hg; exact andThen_sim (refPiece_sim hP S hC p hg hs) fun v s t hs => .ok () ⟨by simp [hs.1], hs.2⟩
    | setElem pre ty arr ixReads ix value =>
      rintro ⟨h0, h1, h2, h3, h4⟩
      have key : ResSim (HeapSim Hd) (L.freads s.objs s.vars pre >>= fun env => L.A.setElem ⟨env, s.heap⟩ ty arr ixReads ix value)
          (N.freads t.objs t.vars pre >>= fun env => N.A.setElem ⟨env, t.heap⟩ ty arr ixReads ix value) := by
        rw [hs.1, hs.2.1]
        exact (freads_sim S _ pre _ h0).bind fun env _ e => by
          subst e
          exact ArrProg.setElem_sim S.A.toPartSim S.A.stopped S.A.order S.A.checks (s := ⟨env, s.heap⟩) (t := ⟨env, t.heap⟩) ⟨rfl, hs.2.2⟩ ty arr ixReads ix value h1 h2 h3 h4
      exact look_then hs key fun a b hab => .ok () ⟨hs.1, hs.2.1, hab⟩
    | setField pre obj f ty p =>
      rintro ⟨h1, h2, h3⟩
      exact andThen_sim (store_sim S pre h1 obj f h2 (fun s t hs => piece_sim hP S hC p h3 (fun s e h => S.A.E.store s ty e h) hs) hs) fun v s t hs => .ok () ⟨hs.1, rfl, hs.2.2⟩
    | setRef pre obj f p =>
      rintro ⟨h1, h2, h3⟩
      exact andThen_sim (store_sim S pre h1 obj f h2 (fun s t hs => refPiece_sim hP S hC p h3 hs) hs) fun v s t hs => .ok () ⟨hs.1, rfl, hs.2.2⟩
    | throw x => intro _; exact .raise _ hs
  cond c s t hs := by
    unfold Prog.interp
    simp only []
    have hg := (hP.meth m).cond c
    revert hg
    cases (P.meth m).cond c with
    | test p => intro hg; exact piece_sim hP S hC p hg (fun s e h => S.A.E.test s e h) hs
    | isNull p => intro hg; exact andThen_sim (refPiece_sim hP S hC p hg hs) fun v s t hs => .ok _ hs
    | same p x => intro hg; exact andThen_sim (refPiece_sim hP S hC p hg hs) fun v s t hs => by rw [hs.1]; exact .ok _ hs
  val v s t hs := piece_sim hP S hC _ ((hP.meth m).val v) (fun s e h => S.A.E.val s e h) hs
  ret v s t hs := by
    unfold Prog.interp
    simp only []
    have hg := (hP.meth m).ret v
    revert hg
    cases (P.meth m).ret v with
    | val p => intro hg; exact piece_sim hP S hC p hg (fun s e h => S.A.E.store s _ e h) hs
    | ref p => intro hg; exact refPiece_sim hP S hC p hg hs
  catches h x := rfl
  bad h x hx := by rw [hx]; rfl
  bind h x s t hs := hs

theorem back_sim (P : Prog) {s s' : St H} {t t' : St K} (hs : StSim Hd s t) (hs' : StSim Hd s' t') : StSim Hd (P.back s s') (P.back t t') := ⟨by simp [Prog.back, hs.1, hs'.1], hs'.2⟩

theorem finish_sim (P : Prog) {s : St H} {t : St K} (hs : StSim Hd s t) {a : Out (St H) Fault} {b : Out (St K) Fault} (h : OutSim (StSim Hd) Bad a b) : Sim Hd (P.finish s a) (P.finish t b) := by
  cases h with
  | bad h => exact .bad h
  | ret v h => exact .ok _ (back_sim P hs h)
  | uncaught x h => exact .raise _ (back_sim P hs h)
  | timeout h => exact .raise _ (back_sim P hs h)
  | stuck => exact .bad rfl

end

/-! ## Programs -/

theorem sims_source (P : Prog) : Sims P P.stoppedLang P.sourceLang Eq := ⟨ArrProg.lang_source, rfl, obj_source P⟩
theorem sims_cpp (P : Prog) (hP : P.Good) (first : Bool) : Sims P P.stoppedLang (P.cppLang first) Holds := ⟨ArrProg.lang_cpp first, rfl, obj_cpp P hP⟩

theorem st_eq {s t : St SArr} (h : StSim Eq s t) : s = t := by
  obtain ⟨h1, h2, h3, h4⟩ := h
  cases s; cases t
  simp only at h1 h2 h3 h4
  subst h1 h2
  congr 1
  apply List.ext_getElem h3
  intro i a b
  exact h4 i _ _ (List.getElem?_eq_getElem a) (List.getElem?_eq_getElem b)

theorem st_refl (s : St SArr) : StSim Eq s s := ⟨rfl, rfl, rfl, fun i a b h1 h2 => by rw [h1] at h2; exact Option.some.inj h2⟩

theorem ev_eq {α : Type} {a b : Ev (St SArr) Fault α} (h : Sim Eq a b) : a = b ∨ ∃ x s, a = .raise x s ∧ Bad x := by
  cases h with
  | bad h => exact .inr ⟨_, _, rfl, h⟩
  | ok v h => rw [st_eq h]; exact .inl rfl
  | raise x h => rw [st_eq h]; exact .inl rfl

theorem eq_ev {α : Type} {a b : Ev (St SArr) Fault α} (h : a = b) : Sim Eq a b := by
  subst h
  cases a with
  | ok v s => exact .ok _ (st_refl s)
  | raise x s => exact .raise _ (st_refl s)

theorem source_sim (P : Prog) (hP : P.Good) (fresh : Env) (n : Nat) : ∀ d m vs s, Sim Eq (P.runStopped fresh n d m vs s) (P.runSource fresh n d m vs s)
  | 0, _, _, s => .raise _ (st_refl s)
  | d + 1, m, vs, s => by
    have ih := source_sim P hP fresh n d
    have S := interp_sim hP (sims_source P) (C := P.runStopped fresh n d) (D := P.runSource fresh n d) (fun m vs s t hs => by rw [← st_eq hs]; exact ih m vs s) m
    have R : Refines Bad (P.interp P.stoppedLang (P.runStopped fresh n d) m) (P.interp P.sourceLang (P.runSource fresh n d) m) :=
      ⟨fun k s => ev_eq (S.act k s s (st_refl s)), fun k s => ev_eq (S.cond k s s (st_refl s)), fun k s => ev_eq (S.val k s s (st_refl s)), fun k s => ev_eq (S.ret k s s (st_refl s)),
        S.catches, S.bad, fun h x s => rfl⟩
    show Sim Eq (P.finish s (runIL (P.interp P.stoppedLang (P.runStopped fresh n d) m) _ _ n _)) (P.finish s (runIL (P.interp P.sourceLang (P.runSource fresh n d) m) _ _ n _))
    rcases runIL_ref R (P.meth m).main (P.meth m).blocks n (P.enter fresh vs s) with ⟨x, s', hx, e⟩ | e
    · rw [e]; exact .bad hx
    · rw [e]; exact eq_ev rfl

theorem cpp_sim (P : Prog) (hP : P.Good) (first : Bool) (body : Nat → CS)
    (hflow : ∀ m (I : Interp (St SArr) Fault) n s, runIL I (P.meth m).main (P.meth m).blocks n s = .stuck ∨ runC I (body m) n s = runIL I (P.meth m).main (P.meth m).blocks n s)
    (fresh : Env) (n : Nat) : ∀ d m vs s c, StSim Holds s c → Sim Holds (P.runStopped fresh n d m vs s) (P.runCpp first body fresh n d m vs c)
  | 0, _, _, _, _, h => .raise _ h
  | d + 1, m, vs, s, c, h => by
    have ih := cpp_sim P hP first body hflow fresh n d
    show Sim Holds (P.finish s (runIL (P.interp P.stoppedLang (P.runStopped fresh n d) m) _ _ n _)) (P.finish c (runC (P.interp (P.cppLang first) (P.runCpp first body fresh n d) m) (body m) n _))
    rcases hflow m (P.interp P.stoppedLang (P.runStopped fresh n d) m) n (P.enter fresh vs s) with e | e
    · rw [e]; exact .bad rfl
    · rw [← e]
      exact finish_sim P h (runC_sim (interp_sim hP (sims_cpp P hP first) ih m) (body m) n _ _ (enter_sim P fresh vs h))

/-- **C159** (partial: the programs of C158 with classes, single inheritance, constructors, fields of integer and reference types, virtual and other instance methods, casts and comparisons of references; no field or method
hides another and no `base.Method()` of a virtual method; arguments of base constructors are variables, numbers or null). A translated program does what the program does: for each method there is exactly one way to read
what is written as a function body, and a call of any method, from states with the same objects and arrays, returns the same value or reference or ends with the same exception, and leaves the same objects, of the same
classes with the same fields, the same arrays and the same static fields; whichever side of an assignment the C++ compiler evaluates first; however deep calls are nested and whatever methods are called through
whatever classes; unless on the way (as in C158) some C++ is undefined, the source raises OverflowException, an array needs too many bytes, a null reference is used or the two sides of an assignment to an element raise
different exceptions; or a cast fails, an object is used whose constructor raised an exception, a method is called on an object under construction that a class overrides whose constructor has not begun, or a call in the
value of an assignment to a field changes which object's field is assigned. -/
theorem C159_objects_partial (P : Prog) (hP : P.Good) :
    ∃ body : Nat → CS, (∀ m, (body m).WF ∧ (body m).flat = emitMain (P.meth m).main false (P.meth m).blocks ∧
        ∀ b : CS, b.WF → b.flat = emitMain (P.meth m).main false (P.meth m).blocks → b = body m) ∧
      ∀ (first : Bool) (fresh : Env) (n d m : Nat) (vs : List Int) (s : St SArr) (c : St Arr), Same s c → (∀ s', P.runStopped fresh n d m vs s ≠ .raise .undefined s') →
        SameEnd (P.runSource fresh n d m vs s) (P.runCpp first body fresh n d m vs c) := by
  have ex := fun m => C101_flow_partial (P.meth m).main (P.meth m).blocks (hP.meth m).shape (hP.meth m).inner (hP.meth m).ids (hP.meth m).jumps
  refine ⟨fun m => (ex m).choose, fun m => ⟨(ex m).choose_spec.1, (ex m).choose_spec.2.1, (ex m).choose_spec.2.2.1⟩, fun first fresh n d m vs s c hs hns => ?_⟩
  have a := ev_eq (source_sim P hP fresh n d m vs s)
  have b := cpp_sim P hP first (fun m => (ex m).choose) (fun m I n s => (ex m).choose_spec.2.2.2 _ _ I n s) fresh n d m vs s c hs
  rcases a with a | ⟨x, s', a, hx⟩
  · rw [← a]
    revert b hns
    generalize P.runStopped fresh n d m vs s = x
    generalize P.runCpp first (fun m => (ex m).choose) fresh n d m vs c = y
    intro hns b
    cases b with
    | @bad x s' b hb => rw [hb] at hns; exact absurd rfl (hns s')
    | ok v h => exact .ok v h
    | raise x h => exact .raise x h
  · rw [hx] at a; exact absurd a (hns s')

/-! ## A program with objects -/

/-- A method whose body is the statements and the return. -/
def straight (params : List Param) (stmts : List Stmt) (r : Option Ret) : Meth where
  params := params
  retType := .int32
  main := 9
  blocks := .bcons 0 (match stmts with
    | [] => .cons (.leave 9 0 (r.map fun _ => 1)) .nil
    | [_] => .cons (.act 0) (.cons (.leave 9 0 (r.map fun _ => 1)) .nil)
    | _ => .cons (.act 0) (.cons (.act 1) (.cons (.leave 9 0 (r.map fun _ => 1)) .nil))) .bnil
  stmt k := (stmts[k]?).getD (.throw .overflow)
  cond _ := .isNull ⟨none, [], none, none⟩
  val _ := ⟨none, ⟨[], .i4 0⟩⟩
  ret _ := r.getD (.ref ⟨none, [], none, none⟩)
  catches _ _ := false

theorem straight_good (P : Prog) (params : List Param) (stmts : List Stmt) (r : Option Ret) (h1 : ∀ s ∈ stmts, P.GoodStmt s) (h2 : ∀ x ∈ r, P.GoodRet .int32 x) : P.GoodMeth (straight params stmts r) where
  stmt k := by
    show P.GoodStmt ((stmts[k]?).getD (.throw .overflow))
    cases e : stmts[k]? with
    | none => exact trivial
    | some s => exact h1 s (List.mem_of_getElem? e)
  cond c := ⟨trivial, fun r h => by simp [straight] at h⟩
  val v := by simp [straight, Prog.GoodPiece, Prog.GoodOp, Prog.GoodReads, Switchable, Agree, cty, Sem.tr, constX, CX.ty, common, promote, CT.bits, CT.signed, X.width, tyW, W.bits, sx, ux, I32]
  ret v := by
    show P.GoodRet .int32 (r.getD _)
    cases r with
    | none => exact ⟨trivial, fun r h => by simp at h⟩
    | some x => exact h2 x rfl
  shape := by rcases stmts with _ | ⟨_, _ | ⟨_, _⟩⟩ <;> simp [straight, Stmt.Shape]
  inner := by rcases stmts with _ | ⟨_, _ | ⟨_, _⟩⟩ <;> simp [straight, Innermost]
  ids := by rcases stmts with _ | ⟨_, _ | ⟨_, _⟩⟩ <;> simp [straight, ids]
  jumps := by rcases stmts with _ | ⟨_, _ | ⟨_, _⟩⟩ <;> simp [straight, branches]

/-- `class A { int v; A(int x) { v = x; } virtual int F() { return v; } }` (class 0, methods 0 and 2), `class B : A { int k; B(int x, int y) : base(x) { k = y; } override int F() { return v * k; } }` (class 1, methods 1 and 3),
and (method 4, and all others) `static int Run(int x, int y) { A a = new B(x, y); a.v = a.F() + 1; return a.F(); }`. -/
def virtProg : Prog where
  cls c := if c = 0 then ⟨[], [0], [⟨0, 0, .virt⟩], fun _ _ => 2⟩ else if c = 1 then ⟨[0], [1], [⟨0, 0, .override⟩], fun _ _ => 3⟩ else ⟨[], [], [], fun _ _ => 0⟩
  ctor k := if k = 0 then .root 0 [.val .int32] (some 0) else .derived 1 [.val .int32, .val .int32] (.root 0 [.val .int32] (some 0)) [.val (.var .int32 1)] (some 1)
  sig _ := []
  static _ := false
  meth m :=
    if m = 0 then straight [] [.setField [] 0 ⟨0, 0, 0⟩ .int32 ⟨none, ⟨[], .var .int32 1⟩⟩] none
    else if m = 1 then straight [] [.setField [] 0 ⟨1, 1, 1⟩ .int32 ⟨none, ⟨[], .var .int32 2⟩⟩] none
    else if m = 2 then straight [] [] (some (.val ⟨none, ⟨[.fld ⟨0, ⟨0, 0, 0⟩, 5⟩], .var .int32 5⟩⟩))
    else if m = 3 then straight [] [] (some (.val ⟨none, ⟨[.fld ⟨0, ⟨1, 0, 0⟩, 5⟩, .fld ⟨0, ⟨1, 1, 1⟩, 6⟩], .bin (.arith .mul) false false (.var .int32 5) (.var .int32 6)⟩⟩))
    else straight [.val .int32, .val .int32]
      [.refer 2 ⟨some (.newObj 1 [] [.val (.var .int32 0), .val (.var .int32 1)] 5), [], some 5, none⟩,
       .setField [] 2 ⟨0, 0, 0⟩ .int32 ⟨some (.inst ⟨true, 0, 0, 0, 0⟩ 2 [] [] 6), ⟨[], .bin (.arith .add) false false (.var .int32 6) (.i4 1)⟩⟩]
      (some (.val ⟨some (.inst ⟨true, 0, 0, 0, 0⟩ 2 [] [] 6), ⟨[], .var .int32 6⟩⟩))

theorem virt_site : virtProg.GoodSite ⟨true, 0, 0, 0, 0⟩ where
  decl := by simp [Prog.chain]
  found := ⟨⟨0, 0, .virt⟩, by decide, .inl rfl⟩
  unhidden c hc := by
    by_cases h0 : c = 0
    · subst h0; simp [Prog.chain, virtProg, Prog.declsOf, Dispatch.NoHiding, Dispatch.find]
    · by_cases h1 : c = 1
      · subst h1; simp [Prog.chain, virtProg, Prog.declsOf, Dispatch.NoHiding, Dispatch.find]
      · simp [Prog.chain, virtProg, h0, h1] at hc
        exact absurd hc.symm h0
  overload c hc := by simp [Prog.above, Prog.chain, Prog.declsOf] at hc

theorem virt_good : virtProg.Good where
  meth m := by
    show virtProg.GoodMeth (if m = 0 then _ else if m = 1 then _ else if m = 2 then _ else if m = 3 then _ else _)
    have hs := virt_site
    split
    · exact straight_good _ _ _ _ (by simp [Prog.GoodStmt, Prog.GoodPre, Prog.GoodFld, Prog.nearest, Prog.chain, virtProg, Prog.GoodPiece, Prog.GoodOp, Prog.GoodReads, Storable, Agree, X.width, tyW]) (by simp)
    split
    · exact straight_good _ _ _ _ (by simp [Prog.GoodStmt, Prog.GoodPre, Prog.GoodFld, Prog.nearest, Prog.chain, virtProg, Prog.GoodPiece, Prog.GoodOp, Prog.GoodReads, Storable, Agree, X.width, tyW]) (by simp)
    split
    · exact straight_good _ _ _ _ (by simp) (by simp [Prog.GoodRet, Prog.GoodFld, Prog.nearest, Prog.chain, virtProg, Prog.GoodPiece, Prog.GoodOp, Prog.GoodReads, Prog.GoodRead, Storable, Agree, X.width, tyW])
    split
    · refine straight_good _ _ _ _ (by simp) ?_
      simp [Prog.GoodRet, Prog.GoodFld, Prog.nearest, Prog.chain, virtProg, Prog.GoodPiece, Prog.GoodOp, Prog.GoodReads, Prog.GoodRead, Storable, Agree, cty, Sem.tr, constX, CX.ty, common, promote, CT.bits,
        CT.signed, X.width, tyW, W.bits, sx, ux, I32]
    · refine straight_good _ _ _ _ ?_ ?_
      · intro s h
        simp at h
        rcases h with rfl | rfl
        · simp [Prog.GoodStmt, Prog.GoodRef, Prog.GoodOp, Prog.GoodReads, GoodArgs, Ctor.params, virtProg, Storable, Agree, X.width, tyW]
        · simp [Prog.GoodStmt, Prog.GoodPre, Prog.GoodFld, Prog.nearest, Prog.chain, Prog.GoodPiece, Prog.GoodOp, Prog.GoodReads, GoodArgs, hs, virtProg, Storable, Agree, cty, Sem.tr, constX, CX.ty, common, promote,
            CT.bits, CT.signed, X.width, tyW, W.bits, sx, ux, I32]
          exact hs
      · simp [Prog.GoodRet, Prog.GoodPiece, Prog.GoodOp, Prog.GoodReads, GoodArgs, virtProg, Storable, Agree, X.width, tyW]
        exact hs
  ctor k := by
    show virtProg.GoodCtor (if k = 0 then _ else _)
    split
    · rfl
    · simp [Prog.GoodCtor, virtProg, Ctor.cls, Ctor.params, GoodArgs, SimpleArg, Storable, Agree, X.width, tyW]
  bases c d pre b h := by
    by_cases h0 : c = 0
    · subst h0
      rcases pre with _ | ⟨x, pre⟩ <;> simp [Prog.chain, virtProg] at h
      obtain ⟨rfl, rfl⟩ := h; rfl
    · by_cases h1 : c = 1
      · subst h1
        rcases pre with _ | ⟨x, _ | ⟨y, pre⟩⟩ <;> simp [Prog.chain, virtProg] at h
        · obtain ⟨rfl, rfl⟩ := h; rfl
        · obtain ⟨_, rfl, rfl⟩ := h; rfl
      · rcases pre with _ | ⟨x, pre⟩ <;> simp [Prog.chain, virtProg, h0, h1] at h
        obtain ⟨rfl, rfl⟩ := h; simp [virtProg, h0, h1]
  once c := by
    show Dispatch.Once (if c = 0 then _ else if c = 1 then _ else _ : Class).decls
    split
    · simp [Dispatch.Once]
    · split <;> simp [Dispatch.Once]

/-- What a call returned. -/
def returned {H : Type} : Ev (St H) Fault (Option Int) → Option (Option Int)
  | .ok v _ => some v
  | .raise _ _ => none

/-- The fault a call ended with. -/
def fault {H : Type} : Ev (St H) Fault (Option Int) → Option Fault
  | .ok _ _ => none
  | .raise x _ => some x

theorem SameEnd.same {a : Ev (St SArr) Fault (Option Int)} {b : Ev (St Arr) Fault (Option Int)} (h : SameEnd a b) : returned b = returned a ∧ fault b = fault a := by
  cases h <;> exact ⟨rfl, rfl⟩

/-- In C++ `Run(5, 7)` returns `(5 * 7 + 1) * 7`. -/
example (first : Bool) : ∃ body : Nat → CS, (∀ m, (body m).flat = emitMain (virtProg.meth m).main false (virtProg.meth m).blocks) ∧
    ∀ fresh : Env, fresh = (fun _ => 77) → returned (virtProg.runCpp first body fresh 20 20 4 [5, 7] ⟨fun _ => 0, [], []⟩) = some (some 252) := by
  obtain ⟨body, h1, h2⟩ := C159_objects_partial virtProg virt_good
  refine ⟨body, fun m => (h1 m).2.1, fun fresh hf => ?_⟩
  subst hf
  have h0 : Same ⟨fun _ => 0, [], []⟩ ⟨fun _ => 0, [], []⟩ := ⟨rfl, rfl, rfl, fun k a b h => by simp at h⟩
  refine (h2 first _ 20 20 4 [5, 7] _ _ h0 ?_).same.1.trans ?_
  · intro s' h
    have : fault (virtProg.runStopped (fun _ => 77) 20 20 4 [5, 7] ⟨fun _ => 0, [], []⟩) = none := by decide +kernel
    rw [h] at this; cases this
  · decide +kernel

/-! ## Programs that are not translated faithfully -/

/-- `class A { int v; A() { v = F(); } virtual int F() { return 1; } }` (class 0, methods 0 and 2), `class B : A { new int v; override int F() { return 2; } }` (class 1, method 3), and
`static int Made() { A a = new B(); return a.v; }` (method 4), `static int Hidden() { B b = new B(); b.v = 7; return ((A)b).v; }` (method 5), `static int Cast() { A a = new A(); B b = (B)a; return 0; }` (method 6),
`static int Null() { A a = null; return a.F(); }` (method 7, and all others). -/
def oddProg : Prog where
  cls c := if c = 0 then ⟨[], [0], [⟨0, 0, .virt⟩], fun _ _ => 2⟩ else if c = 1 then ⟨[0], [0], [⟨0, 0, .override⟩], fun _ _ => 3⟩ else ⟨[], [], [], fun _ _ => 0⟩
  ctor k := if k = 0 then .root 0 [] (some 0) else .derived 1 [] (.root 0 [] (some 0)) [] none
  sig _ := []
  static _ := false
  meth m :=
    if m = 0 then straight [] [.setField [] 0 ⟨0, 0, 0⟩ .int32 ⟨some (.inst ⟨true, 0, 0, 0, 0⟩ 0 [] [] 5), ⟨[], .var .int32 5⟩⟩] none
    else if m = 2 then straight [] [] (some (.val ⟨none, ⟨[], .i4 1⟩⟩))
    else if m = 3 then straight [] [] (some (.val ⟨none, ⟨[], .i4 2⟩⟩))
    else if m = 4 then straight [] [.refer 2 ⟨some (.newObj 1 [] [] 5), [], some 5, none⟩] (some (.val ⟨none, ⟨[.fld ⟨2, ⟨0, 0, 0⟩, 5⟩], .var .int32 5⟩⟩))
    else if m = 5 then straight [] [.refer 2 ⟨some (.newObj 1 [] [] 5), [], some 5, none⟩, .setField [] 2 ⟨1, 1, 0⟩ .int32 ⟨none, ⟨[], .i4 7⟩⟩]
      (some (.val ⟨none, ⟨[.fld ⟨2, ⟨1, 0, 0⟩, 5⟩], .var .int32 5⟩⟩))
    else if m = 6 then straight [] [.refer 2 ⟨some (.newObj 0 [] [] 5), [], some 5, none⟩, .refer 3 ⟨none, [], some 2, some 1⟩] (some (.val ⟨none, ⟨[], .i4 0⟩⟩))
    else straight [] [.refer 2 ⟨none, [], none, none⟩] (some (.val ⟨some (.inst ⟨true, 0, 0, 0, 0⟩ 2 [] [] 6), ⟨[], .var .int32 6⟩⟩))

/-- **C159**, the rest refuted: a virtual call in a constructor reaches the most derived class's method in the source and the method of the class under construction in C++; a field that a class hides with `new` cannot be
reached through the derived type in C++; a cast that fails raises InvalidCastException in the source, and a call on null raises NullReferenceException, and both are undefined in C++. -/
theorem C159_refuted (fresh : Env) :
    returned (oddProg.runSource fresh 9 9 4 [] ⟨fun _ => 0, [], []⟩) = some (some 2) ∧
    returned (oddProg.runSource fresh 9 9 5 [] ⟨fun _ => 0, [], []⟩) = some (some 2) ∧
    fault (oddProg.runSource fresh 9 9 6 [] ⟨fun _ => 0, [], []⟩) = some (.exc .invalidCast) ∧
    fault (oddProg.runSource fresh 9 9 7 [] ⟨fun _ => 0, [], []⟩) = some (.exc .nullReference) ∧
    ∀ body : Nat → CS, (∀ m, (body m).WF ∧ (body m).flat = emitMain (oddProg.meth m).main false (oddProg.meth m).blocks) → ∀ first,
      returned (oddProg.runCpp first body fresh 9 9 4 [] ⟨fun _ => 0, [], []⟩) = some (some 1) ∧
      returned (oddProg.runCpp first body fresh 9 9 5 [] ⟨fun _ => 0, [], []⟩) = some (some 7) ∧
      fault (oddProg.runCpp first body fresh 9 9 6 [] ⟨fun _ => 0, [], []⟩) = some .undefined ∧
      fault (oddProg.runCpp first body fresh 9 9 7 [] ⟨fun _ => 0, [], []⟩) = some .undefined := by
  refine ⟨rfl, rfl, rfl, rfl, fun body hb => ?_⟩
  have hmain : ∀ m, (oddProg.meth m).main = 9 := by
    intro m
    show Meth.main (if m = 0 then _ else if m = 2 then _ else if m = 3 then _ else if m = 4 then _ else if m = 5 then _ else if m = 6 then _ else _) = 9
    repeat' split
    all_goals rfl
  have hs : ∀ m, Stmt.Shape .blocks (oddProg.meth m).blocks := by
    intro m
    show Stmt.Shape .blocks (Meth.blocks (if m = 0 then _ else if m = 2 then _ else if m = 3 then _ else if m = 4 then _ else if m = 5 then _ else if m = 6 then _ else _))
    repeat' split
    all_goals simp [straight, Stmt.Shape]
  have key : body = fun m => Stmt.tr 9 (oddProg.meth m).blocks [1] ⟨1, 9⟩ .nil := by
    funext m
    have hwf := (tr_wf 9 (oddProg.meth m).blocks .blocks (hs m) [1] ⟨1, 9⟩ .nil).1 trivial trivial
    have hfl : (Stmt.tr 9 (oddProg.meth m).blocks [1] ⟨1, 9⟩ .nil).flat = emitMain 9 false (oddProg.meth m).blocks := by rw [tr_flat, emitMain_eq]; simp [CS.flat]
    have := (hb m).2
    rw [hmain m] at this
    exact C101_one_reading _ _ (hb m).1 hwf (this.trans hfl.symm)
  rw [key]
  intro first
  cases first <;> exact ⟨rfl, rfl, rfl, rfl⟩

end Verif.ObjProg
