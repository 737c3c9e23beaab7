import Verif.ProgTextLemmas
/-!
# C173: the characters written for the methods of a program are, for a C++ compiler, functions that call each other and do what the methods do
-/
namespace Verif.Text
open Cpp Sem Read Stmt
open Verif.Method (Env)
open Verif.Program (Calls Prog Storable Testable Switchable)
open Verif.IntVal (Ty)

/-- The methods C173 is about: all simple statements are stores to variables and static fields, calls and `throw` statements; each variable that is not a parameter is declared at the start. -/
structure PText.MethOk (C : PText) (m : Nat) : Prop where
  source : Source (C.src m)
  params : ((C.src m).map (·.2)).take (C.P.meth m).params.length = (C.P.meth m).params
  stmt : ∀ k x ty p, (C.P.meth m).stmt k = .assign x ty p → C.Var m ty x ∧ C.PieceOk m p
  calls : ∀ k c, (C.P.meth m).stmt k = .call c → c.callee < C.count ∧ c.args.length = (C.P.meth c.callee).params.length ∧ ∀ e ∈ c.args, Typed (C.Var m) e
  thrown : ∀ k x, (C.P.meth m).stmt k = .throw x → CppLex.isIdent (C.exc x) = true ∧ isKw (C.exc x) = false
  cond : ∀ c, C.PieceOk m ((C.P.meth m).cond c)
  val : ∀ v, C.PieceOk m ((C.P.meth m).val v)
  ret : ∀ v, C.PieceOk m ((C.P.meth m).ret v)
  returns : ∀ v ∈ rets (C.P.meth m).blocks, v.isNone = C.void m
  handler : ∀ h, CppLex.isIdent (C.handler m h) = true ∧ C.handler m h ≠ w "this" ∧ C.handler m h ≠ w "Void"
  exVar : ∀ h, CppLex.isIdent (C.exVar m h) = true ∧ C.exVar m h ≠ w "this" ∧ C.exVar m h ≠ w "Void" ∧ C.exVar m h ∉ (C.src m).map (·.1)
  blocks : ∃ lbl b r, (C.P.meth m).blocks = .bcons lbl b r ∧
    (C.src m).drop (C.P.meth m).params.length = news (C.cfg m) (stores b) (((C.src m).take (C.P.meth m).params.length).map (·.1))

/-- A class and a member of it: names as C++ has them. -/
def Scoped (cls member : WStr) : Prop := CppLex.isIdent cls = true ∧ isKw cls = false ∧ CppLex.isIdent member = true

/-- The programs C173 is about: the methods and static fields are called by different names that are not those of the library. (The numbers of static fields are larger than those of all variables of methods, and there is
a number between them for the value of a call.) -/
structure PText.Ok (C : PText) : Prop where
  nl : IsNl C.nl
  static : ∀ k, C.P.static k = C.fields.any (·.place == k)
  heads : ∀ m, m < C.count → Scoped (written C.ci (C.cls m)) (C.meth m)
  names : ∀ f ∈ C.fields, Scoped (written C.ci f.cls) (written C.ci f.name)
  distinct : (C.funs.map (·.name)).Nodup
  free : ∀ p ∈ C.funs, ∀ e ∈ library, p.name ≠ e.1
  places : (C.fields.map (·.place)).Nodup
  above : ∀ m, m < C.count → ∀ f ∈ C.fields, (C.src m).length < f.place
  meth : ∀ m, m < C.count → C.MethOk m

theorem PText.Ok.funs {C : PText} (hC : C.Ok) : Funs C.funs where
  parts p hp := by
    rcases List.mem_append.mp hp with h | h
    · obtain ⟨m, hm, rfl⟩ := List.mem_map.mp h
      obtain ⟨h1, _, h2⟩ := hC.heads m (List.mem_range.mp hm)
      exact ⟨_, _, h1, h2, rfl⟩
    · obtain ⟨f, hf, rfl⟩ := List.mem_map.mp h
      obtain ⟨h1, _, h2⟩ := hC.names f hf
      exact ⟨_, _, h1, h2, rfl⟩
  distinct := hC.distinct
  free := hC.free

theorem PText.Ok.fieldsOk {C : PText} (hC : C.Ok) {m : Nat} (hm : m < C.count) : C.FieldsOk m := ⟨hC.places, hC.above m hm⟩

/-! ## Pieces -/

/-- No condition in the arguments of the call is itself a choice. -/
def CallPlain : Option Program.Call → Prop
  | none => True
  | some c => ∀ e ∈ c.args, NoCond e

/-- The methods whose characters are read: no condition is itself a choice (`a && b`), and the blocks have the shape the translator gets them in. Nothing is asked of the values the expressions have. -/
structure PText.PlainMeth (C : PText) (m : Nat) : Prop where
  stmt : ∀ k x ty p, (C.P.meth m).stmt k = .assign x ty p → NoCond p.expr ∧ CallPlain p.call
  call : ∀ k c, (C.P.meth m).stmt k = .call c → CallPlain (some c)
  cond : ∀ c, (NoCond ((C.P.meth m).cond c).expr ∧ isIte ((C.P.meth m).cond c).expr = false) ∧ CallPlain ((C.P.meth m).cond c).call
  val : ∀ v, NoCond ((C.P.meth m).val v).expr ∧ CallPlain ((C.P.meth m).val v).call
  ret : ∀ v, NoCond ((C.P.meth m).ret v).expr ∧ CallPlain ((C.P.meth m).ret v).call
  shape : Shape .blocks (C.P.meth m).blocks

def PText.Plain (C : PText) : Prop := ∀ m, m < C.count → C.PlainMeth m

theorem good_args {C : PText} {m : Nat} {p : Program.Piece} (h : C.PieceOk m p) (hg : C.P.GoodCall p.call) : CallPlain p.call := by
  unfold PText.PieceOk at h
  cases hc : p.call with
  | none => trivial
  | some c =>
    rw [hc] at h hg
    intro e he
    obtain ⟨_, _, _, h3, _⟩ := h
    obtain ⟨i, hi, rfl⟩ := List.getElem_of_mem he
    exact agree_noCond _ (hg i _ _ (List.getElem?_eq_getElem (by omega)) (List.getElem?_eq_getElem hi)).1

theorem PText.Ok.plain {C : PText} (hC : C.Ok) (hP : C.P.Good) : C.Plain := fun m hm => {
  stmt := fun k x ty p hk => ⟨agree_noCond _ ((hP m).stmt k x ty p hk).1.1, good_args ((hC.meth m hm).stmt k x ty p hk).2 ((hP m).stmt k x ty p hk).2⟩
  call := fun k c hk => by
    obtain ⟨_, h2, _⟩ := (hC.meth m hm).calls k c hk
    intro e he
    obtain ⟨i, hi, rfl⟩ := List.getElem_of_mem he
    exact agree_noCond _ ((hP m).call k c hk i _ _ (List.getElem?_eq_getElem (by omega)) (List.getElem?_eq_getElem hi)).1
  cond := fun c => ⟨⟨agree_noCond _ ((hP m).cond c).1.1, ((hP m).cond c).1.2.1⟩, good_args ((hC.meth m hm).cond c) ((hP m).cond c).2⟩
  val := fun c => ⟨agree_noCond _ ((hP m).val c).1.1, good_args ((hC.meth m hm).val c) ((hP m).val c).2⟩
  ret := fun c => ⟨agree_noCond _ ((hP m).ret c).1.1, good_args ((hC.meth m hm).ret c) ((hP m).ret c).2⟩
  shape := (hP m).shape }

theorem CallPlain.args {o : Option Program.Call} (h : CallPlain o) : ∀ c, o = some c → ∀ e ∈ c.args, NoCond e := by
  intro c hc
  subst hc
  exact h

theorem store_reads {C : PText} (hC : C.Ok) (hP : C.Plain) {m : Nat} (hm : m < C.count) {k x : Nat} {ty : Ty} {p : Program.Piece} (hk : (C.P.meth m).stmt k = .assign x ty p) (hp : C.PieceOk m p) :
    C.PieceRead m p :=
  piece_reads C (hC.meth m hm).source hC.funs (hC.fieldsOk hm) hp ((hP m hm).stmt k x ty p hk).1 ((hP m hm).stmt k x ty p hk).2.args

theorem cond_reads {C : PText} (hC : C.Ok) (hP : C.Plain) {m : Nat} (hm : m < C.count) (c : Nat) : C.PieceRead m ((C.P.meth m).cond c) :=
  piece_reads C (hC.meth m hm).source hC.funs (hC.fieldsOk hm) ((hC.meth m hm).cond c) ((hP m hm).cond c).1.1 ((hP m hm).cond c).2.args

theorem val_reads {C : PText} (hC : C.Ok) (hP : C.Plain) {m : Nat} (hm : m < C.count) (c : Nat) : C.PieceRead m ((C.P.meth m).val c) :=
  piece_reads C (hC.meth m hm).source hC.funs (hC.fieldsOk hm) ((hC.meth m hm).val c) ((hP m hm).val c).1 ((hP m hm).val c).2.args

theorem callStmt_reads {C : PText} (hC : C.Ok) (hP : C.Plain) {m : Nat} (hm : m < C.count) {k : Nat} {c : Program.Call} (hk : (C.P.meth m).stmt k = .call c) : C.CallRead m c := by
  obtain ⟨h1, h2, h3⟩ := (hC.meth m hm).calls k c hk
  exact call_reads C (hC.meth m hm).source hC.funs (hC.fieldsOk hm) h1 ⟨(hC.heads _ h1).1, (hC.heads _ h1).2.2⟩ h2 h3 ((hP m hm).call k c hk)

/-- What is returned, with its conversion. -/
def PText.retP (C : PText) (m v : Nat) : Program.Piece := ⟨((C.P.meth m).ret v).call, .conv (retFor (C.P.meth m).retType ((C.P.meth m).ret v)) false false ((C.P.meth m).ret v).expr⟩

theorem ret_text (C : PText) (m v : Nat) : C.ret m v = C.piece m (C.retP m v) := by
  show w "(" ++ (w "(" ++ tyName _ ++ w ")" ++ C.piece m ((C.P.meth m).ret v) ++ w ")") = w "(" ++ castText _ ++ textB (C.atom m ((C.P.meth m).ret v).call) false ((C.P.meth m).ret v).expr ++ w ")"
  rw [castText_eq]
  simp only [List.append_assoc]
  rfl

theorem ret_reads {C : PText} (hC : C.Ok) (hP : C.Plain) {m : Nat} (hm : m < C.count) (v : Nat) : C.PieceRead m (C.retP m v) := by
  have hok : C.PieceOk m (C.retP m v) := (hC.meth m hm).ret v
  exact piece_reads C (hC.meth m hm).source hC.funs (hC.fieldsOk hm) hok (show NoCond ((C.P.meth m).ret v).expr from ((hP m hm).ret v).1) ((hP m hm).ret v).2.args

/-! ## Bodies -/

theorem target_ident {C : PText} (hC : C.Ok) {m : Nat} (hm : m < C.count) {x : Nat} {n : WStr} {ty : Ty} (hx : (C.src m)[x]? = some (n, ty)) : CppLex.isIdent (C.name m x) = true := by
  unfold PText.name
  rw [hx]
  show CppLex.isIdent (written C.ci n) = true
  exact written_ident _ ((hC.meth m hm).source.ident _ (List.mem_of_getElem? hx))

theorem store_lx {C : PText} (hC : C.Ok) (hP : C.Plain) {m : Nat} (hm : m < C.count) {k x : Nat} {ty : Ty} {p : Program.Piece} (hk : (C.P.meth m).stmt k = .assign x ty p)
    (hx : ∃ n, (C.src m)[x]? = some (n, ty)) (hp : C.PieceOk m p) : Lx (C.store m k) (lexOf (C.store m k)) ∧
    (lexOf (C.store m k) = .word (C.name m x) :: pt "=" :: lexOf (C.piece m p) ∨
     (lexOf (C.store m k) = [pt "++", .word (C.name m x)] ∧ ∃ un chk ty', p.expr = .bin (.arith .add) un chk (.var ty' x) (.i4 1)) ∨
     (lexOf (C.store m k) = [pt "--", .word (C.name m x)] ∧ ∃ un chk ty', p.expr = .bin (.arith .sub) un chk (.var ty' x) (.i4 1))) := by
  obtain ⟨n, hx⟩ := hx
  have hi := target_ident hC hm hx
  have hlt : x < (C.src m).length := (List.getElem?_eq_some_iff.mp hx).1
  rcases stloc_cases x p.expr with h | ⟨un, chk, ty', e, h⟩ | ⟨un, chk, ty', e, h⟩
  · have hl : Lx (C.store m k) (.word (C.name m x) :: pt "=" :: lexOf (C.piece m p)) := by
      unfold PText.store; simp only [hk, h, if_pos hlt]
      exact assign_lx hi (store_reads hC hP hm hk hp).lx
    exact ⟨Lx.self hl, .inl (Lx.lexOf hl)⟩
  · have hl : Lx (C.store m k) [pt "++", .word (C.name m x)] := by
      unfold PText.store; simp only [hk, h, if_pos hlt]
      exact inc_lx hi
    exact ⟨Lx.self hl, .inr (.inl ⟨Lx.lexOf hl, un, chk, ty', e⟩)⟩
  · have hl : Lx (C.store m k) [pt "--", .word (C.name m x)] := by
      unfold PText.store; simp only [hk, h, if_pos hlt]
      exact dec_lx hi
    exact ⟨Lx.self hl, .inr (.inr ⟨Lx.lexOf hl, un, chk, ty', e⟩)⟩

theorem target_eq {C : PText} {m k x : Nat} {ty : Ty} {p : Program.Piece} (hk : (C.P.meth m).stmt k = .assign x ty p) : (C.cfg m).target k = x := by
  show (match (C.P.meth m).stmt k with | .assign x _ _ => x | _ => 0) = x
  rw [hk]

theorem throws_eq {C : PText} {m k : Nat} (x : Exc) (hk : (C.P.meth m).stmt k = .throw x) : (C.cfg m).throws k = true := by
  show (match (C.P.meth m).stmt k with | .throw _ => true | _ => false) = true
  rw [hk]

theorem throws_not {C : PText} {m k x : Nat} {ty : Ty} {p : Program.Piece} (hk : (C.P.meth m).stmt k = .assign x ty p) : (C.cfg m).throws k = false := by
  show (match (C.P.meth m).stmt k with | .throw _ => true | _ => false) = false
  rw [hk]

theorem throws_call {C : PText} {m k : Nat} {c : Program.Call} (hk : (C.P.meth m).stmt k = .call c) : (C.cfg m).throws k = false := by
  show (match (C.P.meth m).stmt k with | .throw _ => true | _ => false) = false
  rw [hk]

theorem other_eq {C : PText} {m k x : Nat} {ty : Ty} {p : Program.Piece} (hk : (C.P.meth m).stmt k = .assign x ty p) : (C.cfg m).other k = decide ((C.src m).length ≤ x) := by
  show (match (C.P.meth m).stmt k with | .assign x _ _ => decide ((C.src m).length ≤ x) | .call _ => true | .throw _ => false) = _
  rw [hk]

theorem other_call {C : PText} {m k : Nat} {c : Program.Call} (hk : (C.P.meth m).stmt k = .call c) : (C.cfg m).other k = true := by
  show (match (C.P.meth m).stmt k with | .assign x _ _ => decide ((C.src m).length ≤ x) | .call _ => true | .throw _ => false) = _
  rw [hk]

/-- The name of a static field in a method. -/
theorem field_name {C : PText} (hC : C.Ok) {m : Nat} (hm : m < C.count) {f : FieldText} (hf : f ∈ C.fields) : C.name m f.place = C.fieldName f := by
  unfold PText.name
  rw [List.getElem?_eq_none (Nat.le_of_lt (hC.above m hm f hf)), find_unique _ hC.places hf]
  rfl

theorem field_lx {C : PText} (hC : C.Ok) (hP : C.Plain) {m : Nat} (hm : m < C.count) {k : Nat} {ty : Ty} {p : Program.Piece} {f : FieldText} (hf : f ∈ C.fields)
    (hk : (C.P.meth m).stmt k = .assign f.place ty p) (hp : C.PieceOk m p) : Lx (C.store m k) (lexOf (C.store m k)) ∧
    lexOf (C.store m k) = .word (written C.ci f.cls) :: pt "::" :: .word (written C.ci f.name) :: pt "=" :: lexOf (C.piece m p) := by
  have e : C.store m k = written C.ci f.cls ++ w "::" ++ written C.ci f.name ++ 32 :: (w "= " ++ C.piece m p) := by
    unfold PText.store
    rw [hk]
    show (if _ then _ else _) = _
    rw [if_neg (by have := hC.above m hm f hf; omega), field_name hC hm hf]
    rfl
  have hl := scoped_lx (hC.names f hf).1 (hC.names f hf).2.2 (c := 32) (by decide) (r := w "= " ++ C.piece m p) (ls := pt "=" :: lexOf (C.piece m p))
    (ly_assign.lx_append (store_reads hC hP hm hk hp).lx)
  rw [← e] at hl
  exact ⟨Lx.self hl, Lx.lexOf hl⟩

theorem throw_lx {T : WStr} (hT : CppLex.isIdent T = true) : Lx (w "throw (" ++ (w "(new " ++ (T ++ (w "(" ++ w ")") ++ w ")")) ++ w ")") (wd "throw" :: thrownOf T) := by
  have h1 : Ly (w "throw (") [wd "throw", pt "("] := (ly_word_space (s := w "throw") (by decide)).append ly_lp
  have h2 : Ly (w "(new ") [pt "(", wd "new"] := ly_lp.append (ly_word_space (s := w "new") (by decide))
  have h3 : Ly (T ++ (w "(" ++ (w ")" ++ (w ")" ++ w ")")))) [.word T, pt "(", pt ")", pt ")", pt ")"] :=
    ly_word_then hT (c := 40) (by decide) (ly_lp.append (ly_rp.append (ly_rp.append ly_rp)))
  have h4 := (h1.append (h2.append h3)).lx
  simp only [List.append_assoc] at h4 ⊢
  exact h4

theorem PText.cfg_ok {C : PText} (hC : C.Ok) (hP : C.Plain) {m : Nat} (hm : m < C.count) : (C.cfg m).Ok where
  nl := hC.nl
  source := (hC.meth m hm).source
  target k ht ho := by
    cases hk : (C.P.meth m).stmt k with
    | throw x => rw [throws_eq x hk] at ht; cases ht
    | call c => rw [other_call hk] at ho; cases ho
    | assign x ty p =>
      rw [other_eq hk] at ho
      rcases ((hC.meth m hm).stmt k x ty p hk).1 with ⟨n, hx⟩ | ⟨f, hf, rfl, _⟩
      · rw [target_eq hk]
        exact ⟨n, ty, hx⟩
      · have := hC.above m hm f hf
        rw [decide_eq_false_iff_not] at ho
        omega
  store k := by
    cases hk : (C.P.meth m).stmt k with
    | throw x =>
      obtain ⟨h1, h2⟩ := (hC.meth m hm).thrown k x hk
      have e : (C.cfg m).store k = w "throw (" ++ (w "(new " ++ (C.exc x ++ (w "(" ++ w ")") ++ w ")")) ++ w ")" := by
        show C.store m k = _
        unfold PText.store; rw [hk]
      have hl := throw_lx h1
      rw [← e] at hl
      rw [throws_eq x hk, if_pos rfl]
      exact ⟨Lx.self hl, _, Lx.lexOf hl, h2⟩
    | call c =>
      have e : (C.cfg m).store k = callText (C.name m) (C.fname c.callee) (C.P.meth c.callee).params c.args := by
        show C.store m k = _
        unfold PText.store; rw [hk]
      have hr := callStmt_reads hC hP hm hk
      rw [throws_call hk, if_neg (by simp), other_call hk, if_pos rfl, e]
      obtain ⟨le, hle⟩ := hr.parts
      have hb := hr.bal
      refine ⟨hr.lx, _, _, hle, (hC.heads _ ((hC.meth m hm).calls k c hk).1).2.1, ?_⟩
      rw [hle] at hb
      exact bal_tail (bal_tail hb (by simp [isEnd]) (by simp) (by simp)) (by decide) (by decide) (by decide)
    | assign x ty p =>
    obtain ⟨hx, hp⟩ := (hC.meth m hm).stmt k x ty p hk
    rcases hx with hx | ⟨f, hf, rfl, _⟩
    · obtain ⟨h1, h2⟩ := store_lx hC hP hm hk hx hp
      have hlt : ¬ (C.src m).length ≤ x := by
        obtain ⟨n, hx⟩ := hx
        have := (List.getElem?_eq_some_iff.mp hx).1
        omega
      rw [target_eq hk, throws_not hk, if_neg (by simp), other_eq hk, decide_eq_false hlt, if_neg (by simp)]
      have hcn : (C.cfg m).name x = C.name m x := by
        obtain ⟨n, hx⟩ := hx
        show written C.ci ((((C.src m)[x]?).map (·.1)).getD []) = C.name m x
        unfold PText.name
        rw [hx]
        rfl
      rw [hcn]
      refine ⟨h1, ?_⟩
      rcases h2 with h | ⟨h, _⟩ | ⟨h, _⟩
      · exact .inl ⟨_, h, (store_reads hC hP hm hk hp).bal⟩
      · exact .inr (.inl h)
      · exact .inr (.inr h)
    · obtain ⟨h1, h2⟩ := field_lx hC hP hm hf hk hp
      have hlt : (C.src m).length ≤ f.place := Nat.le_of_lt (hC.above m hm f hf)
      rw [throws_not hk, if_neg (by simp), other_eq hk, decide_eq_true hlt, if_pos rfl]
      refine ⟨h1, _, _, h2, (hC.names f hf).2.1, ?_⟩
      have hb := (store_reads hC hP hm hk hp).bal
      intro d
      rw [walk_word]
      show walk d (lexOf (C.piece m p)) = some d
      exact hb d
  cond c := ⟨(cond_reads hC hP hm c).lx, (cond_reads hC hP hm c).bal⟩
  val v := ⟨(val_reads hC hP hm v).lx, (val_reads hC hP hm v).bal⟩
  ret v := by
    have := ret_reads hC hP hm v
    have h1 := this.lx
    have h2 := this.bal
    rw [← ret_text C m v] at h1 h2
    exact ⟨h1, h2, _, rfl⟩
  cls := (hC.meth m hm).handler
  exVar := (hC.meth m hm).exVar

/-- The value returned. -/
theorem ret_same (R : Ty) (p : Program.Piece) (s : Env) : ((trK (.conv (retFor R p) false false p.expr) none).eval s >>= fun v => (.ok (R.wrap v) : Res Int)) = cppStore s R p.expr := by
  unfold retFor
  cases p.call with
  | none => exact ret_value R p.expr _ s rfl
  | some c =>
    show ((trK p.expr none).eval s >>= fun v => (.ok (R.wrap v) : Res Int)) >>= _ = (trK p.expr none).eval s >>= _
    cases (trK p.expr none).eval s with
    | ub => rfl
    | throw e => rfl
    | ok v => show Res.ok (R.wrap (R.wrap v)) = Res.ok (R.wrap v); rw [wrap_twice]

theorem piece_congr {α : Type} (P : Prog) (E : Program.ExprSem) (C : Calls) {p q : Program.Piece} (hc : p.call = q.call) {f g : Env → X → Res α} (h : ∀ s, f s p.expr = g s q.expr) (s : Env) :
    P.piece E C p f s = P.piece E C q g s := by
  unfold Program.Prog.piece
  rw [hc]
  simp only [h]

theorem cond_plain {e : X} (h : isIte e = false) : trTest e = trK e none := by
  cases e <;> first | rfl | cases h

theorem act_assign (P : Prog) (E : Program.ExprSem) (calls : Calls) {m k x : Nat} {ty : Ty} {p : Program.Piece} (hk : (P.meth m).stmt k = .assign x ty p) (s : Env) :
    (P.interp E calls m).act k s = Program.Ev.then (P.piece E calls p (fun s e => E.store s ty e) s) fun v s => .ok () (Program.set s x v) := by
  unfold Program.Prog.interp; simp only [hk]

theorem act_throw (P : Prog) (E : Program.ExprSem) (calls : Calls) {m k : Nat} {x : Exc} (hk : (P.meth m).stmt k = .throw x) (s : Env) : (P.interp E calls m).act k s = .raise (.exc x) s := by
  unfold Program.Prog.interp; simp only [hk]

theorem act_call (P : Prog) (E : Program.ExprSem) (calls : Calls) {m k : Nat} {c : Program.Call} (hk : (P.meth m).stmt k = .call c) (s : Env) :
    (P.interp E calls m).act k s = Program.Ev.then (Program.look s (Program.evalArgs E s (P.meth c.callee).params c.args)) fun vs s => Program.Ev.then (calls c.callee vs s) fun _ s => .ok () s := by
  unfold Program.Prog.interp; simp only [hk]

theorem PText.reads_item {C : PText} (hC : C.Ok) (hP : C.Plain) (classes : WStr → Exc → Bool) (exn : WStr → Option Exc) {m : Nat} (hm : m < C.count)
    (hex : ∀ k x, (C.P.meth m).stmt k = .throw x → exn (C.exc x) = some x) (hcl : ∀ h x, (C.P.meth m).catches h x = classes (written C.ci (C.handler m h)) x) (i : Item) (hi : GoodItem i) :
    ∃ p, ReadPiece (writtenVars C.ci (C.src m)) C.funs (rawOf (C.cfg m) i) p ∧ ∀ calls calls' : Calls, (∀ f, f < C.count → calls f = calls' f) →
      Means (C.P.interp Program.cpp calls m) (meaningP classes exn C.funs calls' (C.P.meth m).retType) i p := by
  by_cases hd : Depends i
  case neg =>
    obtain ⟨p, h1, h2⟩ := reads_plain (C.cfg m) C.funs i hi hd
    exact ⟨p, h1, fun _ _ _ => h2 _ _ _⟩
  cases i with
  | text k =>
    cases hk : (C.P.meth m).stmt k with
    | throw x =>
      have hst := ((PText.cfg_ok hC hP hm).store k).2
      rw [throws_eq x hk, if_pos rfl] at hst
      obtain ⟨h1, h2⟩ := (hC.meth m hm).thrown k x hk
      have e : (C.cfg m).store k = w "throw (" ++ (w "(new " ++ (C.exc x ++ (w "(" ++ w ")") ++ w ")")) ++ w ")" := by
        show C.store m k = _
        unfold PText.store; rw [hk]
      have hl := throw_lx h1
      rw [← e] at hl
      refine ⟨.thr (C.exc x), ?_, fun calls calls' _ ps j hj => .text ?_⟩
      · rw [rawOf_text, throws_eq x hk, if_pos rfl, Lx.lexOf hl]
        exact ⟨rfl, h2⟩
      · funext s
        rw [act_throw _ _ _ hk]
        unfold meaningP
        simp only [hj, hex k x hk]
    | call c =>
      have hst := callStmt_reads hC hP hm hk
      have hc := ((hC.meth m hm).calls k c hk).1
      obtain ⟨cs, h1, h2⟩ := hst.reads
      have e : (C.cfg m).store k = callText (C.name m) (C.fname c.callee) (C.P.meth c.callee).params c.args := by
        show C.store m k = _
        unfold PText.store; rw [hk]
      refine ⟨.callP c.callee cs, ?_, fun calls calls' hcc ps j hj => .text ?_⟩
      · rw [rawOf_text, throws_call hk, if_neg (by simp), e]
        obtain ⟨le, hle⟩ := hst.parts
        exact ⟨⟨_, _, le, hle⟩, h1⟩
      · funext s
        rw [act_call _ _ _ hk]
        unfold meaningP
        simp only [hj, funs_get C hc, PText.head]
        rw [h2 s, hcc _ hc]
    | assign x ty p =>
    obtain ⟨hx, hp⟩ := (hC.meth m hm).stmt k x ty p hk
    have same : ∀ (r : RX) (calls calls' : Calls), (∀ s, r.run C.funs calls' ty.wrap s = C.P.piece Program.cpp calls p (fun s e => (trK e none).eval s >>= fun v => .ok (ty.wrap v)) s) → ∀ s,
        (C.P.interp Program.cpp calls m).act k s = Program.Ev.then (r.run C.funs calls' ty.wrap s) fun v s => .ok () (Program.set s x v) := by
      intro r calls calls' hr s
      rw [act_assign _ _ _ hk, hr s]
      rfl
    rcases hx with hx | ⟨f, hf, rfl, rfl⟩
    case inr =>
      obtain ⟨r, h1, h2⟩ := (store_reads hC hP hm hk hp).reads
      refine ⟨.asgF f.place f.ty r, ?_, fun calls calls' hcc ps j hj => .text ?_⟩
      · rw [rawOf_text, throws_not hk, if_neg (by simp)]
        have hmem : ({ name := C.fieldName f, params := [], ret := f.ty, place := some f.place } : Fun) ∈ C.funs := List.mem_append.mpr (.inr (List.mem_map.mpr ⟨f, hf, rfl⟩))
        exact ⟨_, _, _, _, (field_lx hC hP hm hf hk hp).2, find_member hC.distinct hmem, rfl, rfl, h1⟩
      · funext s
        rw [same r calls calls' (fun s => h2 calls calls' hcc f.ty.wrap s) s]
        unfold meaningP
        simp only [hj]
    have hv : (writtenVars C.ci (C.src m))[x]? = some (C.name m x, ty) := by
      obtain ⟨n, hx⟩ := hx
      unfold writtenVars PText.name
      rw [List.getElem?_map, hx]; rfl
    have fin : ∀ r : RX, (∀ calls calls' : Calls, (∀ f, f < C.count → calls f = calls' f) → ∀ s, r.run C.funs calls' ty.wrap s =
        C.P.piece Program.cpp calls p (fun s e => (trK e none).eval s >>= fun v => .ok (ty.wrap v)) s) →
        ∀ calls calls' : Calls, (∀ f, f < C.count → calls f = calls' f) → Means (C.P.interp Program.cpp calls m) (meaningP classes exn C.funs calls' (C.P.meth m).retType) (.text k) (.asg x ty r) := by
      intro r hr calls calls' hcc ps j hj
      refine .text ?_
      funext s
      rw [same r calls calls' (fun s => hr calls calls' hcc s) s]
      unfold meaningP
      simp only [hj]
    have noCall : ∀ {o un chk ty'}, p.expr = .bin (.arith o) un chk (.var ty' x) (.i4 1) → p.call = none ∧ ty' = ty := by
      intro o un chk ty' e
      obtain ⟨n, hx⟩ := hx
      have hlt : x < (C.src m).length := (List.getElem?_eq_some_iff.mp hx).1
      have hp := hp
      unfold PText.PieceOk at hp
      cases hc : p.call with
      | none =>
        rw [hc, e] at hp
        rcases hp.1 with ⟨n', hn'⟩ | ⟨f, hf, rfl, _⟩
        · rw [hx, Option.some.injEq] at hn'
          exact ⟨rfl, (Prod.mk.inj hn').2.symm⟩
        · have := hC.above m hm f hf
          omega
      | some c =>
        rw [hc, e] at hp
        obtain ⟨_, _, _, _, _, _, hf⟩ := hp
        simp [first] at hf
        omega
    have incDec : ∀ (o : AOp) (un chk ty'), p.expr = .bin (.arith o) un chk (.var ty' x) (.i4 1) → ∀ calls calls' : Calls, (∀ f, f < C.count → calls f = calls' f) → ∀ s,
        (⟨none, .arith o (.var ty x) (.lit 1)⟩ : RX).run C.funs calls' ty.wrap s = C.P.piece Program.cpp calls p (fun s e => (trK e none).eval s >>= fun v => .ok (ty.wrap v)) s := by
      intro o un chk ty' e calls calls' _ s
      obtain ⟨h1, rfl⟩ := noCall e
      unfold RX.run Program.Prog.piece
      rw [h1, e]
      rfl
    rw [rawOf_text, throws_not hk, if_neg (by simp)]
    rcases (store_lx hC hP hm hk hx hp).2 with h | ⟨h, un, chk, ty', e⟩ | ⟨h, un, chk, ty', e⟩
    · obtain ⟨r, h1, h2⟩ := (store_reads hC hP hm hk hp).reads
      exact ⟨.asg x ty r, ⟨_, hv, .inl ⟨_, h, h1⟩⟩, fin r fun calls calls' hcc s => h2 calls calls' hcc ty.wrap s⟩
    · exact ⟨.asg x ty ⟨none, .arith .add (.var ty x) (.lit 1)⟩, ⟨_, hv, .inr (.inl ⟨h, rfl⟩)⟩, fin _ (incDec .add un chk ty' e)⟩
    · exact ⟨.asg x ty ⟨none, .arith .sub (.var ty x) (.lit 1)⟩, ⟨_, hv, .inr (.inr ⟨h, rfl⟩)⟩, fin _ (incDec .sub un chk ty' e)⟩
  | ifHead c =>
    obtain ⟨r, h1, h2⟩ := (cond_reads hC hP hm c).reads
    refine ⟨.ifP r, h1, fun calls calls' hcc ps j hj => .ifHead ?_⟩
    funext s
    show C.P.piece Program.cpp calls ((C.P.meth m).cond c) cppTest s = (match ps[j]? with
      | some (.ifP c) => c.run C.funs calls' (fun v => decide (v ≠ 0)) s
      | _ => nothing s)
    rw [hj]
    simp only []
    rw [h2 calls calls' hcc]
    refine piece_congr _ _ _ rfl (fun s => ?_) s
    unfold cppTest
    rw [cond_plain ((hP m hm).cond c).1.2]
  | switchHead v =>
    obtain ⟨r, h1, h2⟩ := (val_reads hC hP hm v).reads
    refine ⟨.switchP r, h1, fun calls calls' hcc ps j hj => .switchHead ?_⟩
    funext s
    show C.P.piece Program.cpp calls ((C.P.meth m).val v) (fun s e => (trK e none).eval s) s = (match ps[j]? with
      | some (.switchP c) => c.run C.funs calls' id s
      | _ => nothing s)
    rw [hj]
    simp only []
    rw [h2 calls calls' hcc]
    refine piece_congr _ _ _ rfl (fun s => ?_) s
    cases (trK _ none).eval s <;> rfl
  | ret t v =>
    cases v with
    | none => exact hd.elim
    | some v =>
      have hr := ret_reads hC hP hm v
      obtain ⟨r, h1, h2⟩ := hr.reads
      have hne := hr.ne
      rw [← ret_text C m v] at h1 hne
      refine ⟨.ret (some r), ⟨hne, h1⟩, fun calls calls' hcc ps j hj => .retSome ?_⟩
      funext s
      show C.P.piece Program.cpp calls ((C.P.meth m).ret v) (fun s e => cppStore s (C.P.meth m).retType e) s = (match ps[j]? with
        | some (.ret (some c)) => c.run C.funs calls' (C.P.meth m).retType.wrap s
        | _ => nothing s)
      rw [hj]
      simp only []
      rw [h2 calls calls' hcc]
      exact piece_congr C.P Program.cpp calls (p := C.retP m v) (q := (C.P.meth m).ret v) (f := fun s e => (trK e none).eval s >>= fun v => .ok ((C.P.meth m).retType.wrap v))
        (g := fun s e => cppStore s (C.P.meth m).retType e) rfl (fun s => ret_same _ _ s) s |>.symm
  | catchHead h =>
    refine ⟨_, reads_catch (C.cfg_ok hC hP hm) C.funs h, fun calls calls' _ ps j hj => .catchHead ?_ rfl⟩
    funext x
    show (C.P.meth m).handles h x = (match ps[j]?, x with | some (.catchP T), .exc x => classes T x | _, _ => false)
    rw [hj]
    cases x with
    | exc x => exact hcl h x
    | undefined => rfl
    | cut => rfl
  | _ => exact hd.elim

/-! ## The property -/

theorem static_eq {C : PText} (hC : C.Ok) (k : Nat) : C.P.static k = isField C.fieldFuns k := by
  rw [hC.static]
  unfold isField PText.fieldFuns
  rw [List.any_map]
  congr 1

theorem finish_eq {C : PText} (hC : C.Ok) (s : Env) (o : Out Env Program.Fault) : C.P.finish s o = finish C.fieldFuns s o := by
  have hb : ∀ s', C.P.back s s' = fun k => if isField C.fieldFuns k then s' k else s k := by intro s'; funext k; unfold Program.Prog.back; rw [static_eq hC]
  cases o <;> simp only [Program.Prog.finish, finish, hb]

theorem enter_eq {C : PText} (hC : C.Ok) (fresh : Env) (vs : List Int) (s : Env) : C.P.enter fresh vs s = fun k => if isField C.fieldFuns k then s k else (vs[k]?).getD (fresh k) := by
  funext k; unfold Program.Prog.enter; rw [static_eq hC]

/-- Only a `return` statement is read as one, and with a value if it has one. -/
theorem means_ret {F : Type} {I : Interp Env F} {mean : List RP → Interp Env F} {i : Item} {v : Option RX} (h : Means I mean i (.ret v)) : ∃ t u, i = .ret t u ∧ u.isNone = v.isNone := by
  have := h [.ret v] 0 rfl
  cases v with
  | none =>
    have h : IR I (mean [.ret none]) JR LR i (.ret 0 none) := this
    cases h with
    | retNone => exact ⟨_, _, rfl, rfl⟩
    | jump _ h _ => rcases h with ⟨_, _, h⟩ | ⟨_, h⟩ <;> cases h
    | label _ h _ => rcases h with ⟨_, h⟩ | ⟨_, _, h⟩ <;> cases h
  | some r =>
    have h : IR I (mean [.ret (some r)]) JR LR i (.ret 0 (some 0)) := this
    cases h with
    | retSome _ => exact ⟨_, _, rfl, rfl⟩
    | jump _ h _ => rcases h with ⟨_, _, h⟩ | ⟨_, h⟩ <;> cases h
    | label _ h _ => rcases h with ⟨_, h⟩ | ⟨_, _, h⟩ <;> cases h

theorem list_of {α : Type} (Q : Nat → α → Prop) : ∀ n : Nat, (∀ m, m < n → ∃ a, Q m a) → ∃ l : List α, l.length = n ∧ ∀ m, m < n → ∃ a, l[m]? = some a ∧ Q m a
  | 0, _ => ⟨[], rfl, fun m h => by omega⟩
  | n + 1, h => by
    obtain ⟨l, hl, hq⟩ := list_of Q n fun m hm => h m (by omega)
    obtain ⟨a, ha⟩ := h n (by omega)
    refine ⟨l ++ [a], by simp [hl], fun m hm => ?_⟩
    by_cases e : m = n
    · subst e
      exact ⟨a, by rw [List.getElem?_append_right (by omega), hl]; simp, ha⟩
    · obtain ⟨b, hb, hqb⟩ := hq m (by omega)
      exact ⟨b, by rw [List.getElem?_append_left (by omega)]; exact hb, hqb⟩

/-- The characters of methods whose blocks are translated to `body` are read as functions that do what `body` does. -/
theorem functions_read (C : PText) (hC : C.Ok) (hP : C.Plain) (classes : WStr → Exc → Bool) (exn : WStr → Option Exc) (hex : ∀ m k x, m < C.count → (C.P.meth m).stmt k = .throw x → exn (C.exc x) = some x)
    (hcl : ∀ m, m < C.count → ∀ h x, (C.P.meth m).catches h x = classes (written C.ci (C.handler m h)) x) (fs : Nat → Fmt.St) (body : Nat → CS)
    (hbody : ∀ m, m < C.count → (body m).WF ∧ (body m).flat = emitMain (C.P.meth m).main false (C.P.meth m).blocks) :
    (∃ m, m < C.count ∧ C.body m (fs m) = .throw .argumentOutOfRange) ∨
    ∃ defs : List Def, defs.map (·.head) = (List.range C.count).map C.head ∧
      (∀ m, m < C.count → ∃ t D, C.body m (fs m) = .ok t ∧ defs[m]? = some D ∧ D.Returns ∧
        ReadsBody (writtenVars C.ci ((C.src m).take (C.P.meth m).params.length)) t D.pieces D.body C.funs ∧
        ∀ ps b, ReadsBody (writtenVars C.ci ((C.src m).take (C.P.meth m).params.length)) t ps b C.funs → ps = D.pieces ∧ b = D.body) ∧
      ∀ (fresh : Env) (n d m : Nat), m < C.count → callDef classes exn defs C.fieldFuns fresh n d m = C.P.runCpp body fresh n d m := by
  by_cases hthrow : ∃ m, m < C.count ∧ C.body m (fs m) = .throw .argumentOutOfRange
  · exact .inl hthrow
  right
  let R : Nat → Item → RP → Prop := fun m i p => ∀ calls calls' : Calls, (∀ f, f < C.count → calls f = calls' f) →
    Means (C.P.interp Program.cpp calls m) (meaningP classes exn C.funs calls' (C.P.meth m).retType) i p
  have per : ∀ m, m < C.count → ∃ D : Def, D.head = C.head m ∧ (∃ t, C.body m (fs m) = .ok t ∧
      ReadsBody (writtenVars C.ci ((C.src m).take (C.P.meth m).params.length)) t D.pieces D.body C.funs) ∧
      List.Forall₂ (R m) (body m).flat D.pieces ∧ D.body.WF ∧ D.body.flat = itemsFrom 0 D.pieces := by
    intro m hm
    obtain ⟨lbl, b, r, hbl, hnum⟩ := (hC.meth m hm).blocks
    have hs := (hP m hm).shape
    rw [hbl] at hs
    have hread := method_read (PText.cfg_ok hC hP hm) (R := R m) (fun i hi => PText.reads_item hC hP classes exn hm (fun k x => hex m k x hm) (hcl m hm) i hi) (C.P.meth m).params.length lbl b r hs hnum (fs m)
    rw [← hbl] at hread
    rcases hread with h | ⟨t, ps, ht, h2, h3⟩
    · exact absurd ⟨m, hm, h⟩ hthrow
    · rw [show emitMain (C.cfg m).main false (C.P.meth m).blocks = (body m).flat from (hbody m hm).2.symm] at h2
      have h2' : List.Forall₂ (Means (C.P.interp Program.cpp (fun _ _ s => .raise .cut s) m) (meaningP classes exn C.funs (fun _ _ s => .raise .cut s) (C.P.meth m).retType)) (body m).flat ps :=
        h2.imp fun i p hip => hip _ _ fun _ _ => rfl
      obtain ⟨b', f1, f2, _⟩ := read_runs (hbody m hm).1 h2'
      exact ⟨⟨_, ps, b'⟩, rfl, ⟨t, ht, h3 b' f1 f2⟩, h2, f1, f2⟩
  obtain ⟨defs, hlen, hdefs⟩ := list_of _ C.count per
  have hheads : defs.map (·.head) = (List.range C.count).map C.head := by
    apply List.ext_getElem?
    intro m
    by_cases hm : m < C.count
    · obtain ⟨D, hD, hh, _⟩ := hdefs m hm
      rw [heads_get C hm, List.getElem?_map, hD]
      exact congrArg some hh
    · rw [List.getElem?_eq_none (by simp; omega), List.getElem?_eq_none (by simp; omega)]
  refine ⟨defs, hheads, fun m hm => ?_, ?_⟩
  · obtain ⟨D, hD, hh, ⟨t, ht, hr⟩, hR, _⟩ := hdefs m hm
    refine ⟨t, D, ht, hD, fun v hv => ?_, hr, fun ps b h' => ReadsBody.unique hr h'⟩
    obtain ⟨j, hj⟩ := List.getElem?_of_mem hv
    have hjlen := (List.getElem?_eq_some_iff.mp hj).1
    have hjl : j < (body m).flat.length := by rw [hR.length_eq]; exact hjlen
    have hm' : Means (C.P.interp Program.cpp (fun _ _ s => .raise .cut s) m) (meaningP classes exn C.funs (fun _ _ s => .raise .cut s) (C.P.meth m).retType) ((body m).flat[j]) (.ret v) := by
      have h0 := (List.forall₂_iff_get.mp hR).2 j hjl hjlen
      rw [List.getElem?_eq_getElem hjlen, Option.some.injEq] at hj
      have := h0 (fun _ _ s => .raise .cut s) (fun _ _ s => .raise .cut s) fun _ _ => rfl
      simp only [List.get_eq_getElem, hj] at this
      exact this
    obtain ⟨t', u, e1, e2⟩ := means_ret hm'
    have hmem : .ret t' u ∈ (body m).flat := by rw [← e1]; exact List.getElem_mem hjl
    rw [(hbody m hm).2, emitMain_eq] at hmem
    rw [← e2, hh]
    exact (hC.meth m hm).returns u (rets_emit _ _ _ _ _ _ _ hmem)
  · intro fresh n d
    induction d with
    | zero => intro m _; rfl
    | succ d ih =>
      intro m hm
      obtain ⟨D, hD, hh, _, hR, hwf, hfl⟩ := hdefs m hm
      funext vs s
      have hR' : List.Forall₂ (Means (C.P.interp Program.cpp (C.P.runCpp body fresh n d) m) (meaningP classes exn C.funs (callDef classes exn defs C.fieldFuns fresh n d) (C.P.meth m).retType)) (body m).flat D.pieces :=
        hR.imp fun i p hip => hip _ _ fun f hf => (ih f hf).symm
      obtain ⟨b', f1, f2, f3⟩ := read_runs (hbody m hm).1 hR'
      have hb' := C101_one_reading b' D.body f1 hwf (f2.trans hfl.symm)
      subst hb'
      unfold callDef
      rw [hD, hheads]
      simp only [hh]
      show finish C.fieldFuns s (runC (meaningP classes exn C.funs _ (C.P.meth m).retType D.pieces) _ _ _) = _
      rw [← f3 n]
      show finish C.fieldFuns s _ = C.P.finish s (runC (C.P.interp Program.cpp (C.P.runCpp body fresh n d) m) (body m) n (C.P.enter fresh vs s))
      rw [finish_eq hC, enter_eq hC]

/-- **C173** (partial: the methods of C156, also void ones, with static fields, with calls of static methods, one in an expression or as statements, and with `throw` statements for new objects made without arguments). The
characters written for the bodies of the methods of a program are for a C++ compiler, that knows functions and static fields by their declarations, exactly one body each, void functions return without a value and the others
with one; and the functions with these bodies, which call each other by their names and share the static fields, do what the methods do: a call of any method with any arguments and any contents of the static fields returns
the same value or ends with the same exception, and leaves the same values in the static fields, however deep the calls are nested and however often the methods jump; unless on the way some C++ is undefined or the source
raises OverflowException. -/
theorem C173_program_partial (C : PText) (hC : C.Ok) (hP : C.P.Good) (classes : WStr → Exc → Bool) (exn : WStr → Option Exc) (hex : ∀ m k x, m < C.count → (C.P.meth m).stmt k = .throw x → exn (C.exc x) = some x)
    (hcl : ∀ m, m < C.count → ∀ h x, (C.P.meth m).catches h x = classes (written C.ci (C.handler m h)) x) (fs : Nat → Fmt.St) :
    (∃ m, m < C.count ∧ C.body m (fs m) = .throw .argumentOutOfRange) ∨
    ∃ defs : List Def, defs.map (·.head) = (List.range C.count).map C.head ∧
      (∀ m, m < C.count → ∃ t D, C.body m (fs m) = .ok t ∧ defs[m]? = some D ∧ D.Returns ∧
        ReadsBody (writtenVars C.ci ((C.src m).take (C.P.meth m).params.length)) t D.pieces D.body C.funs ∧
        ∀ ps b, ReadsBody (writtenVars C.ci ((C.src m).take (C.P.meth m).params.length)) t ps b C.funs → ps = D.pieces ∧ b = D.body) ∧
      ∀ (fresh : Env) (n d m : Nat) (vs : List Int) (s : Env), m < C.count → (∀ s', C.P.runStopped fresh n d m vs s ≠ .raise .undefined s') →
        callDef classes exn defs C.fieldFuns fresh n d m vs s = C.P.runSource fresh n d m vs s := by
  obtain ⟨body, hbody, hrun⟩ := Program.C157_program_partial C.P hP
  refine (functions_read C hC (hC.plain hP) classes exn hex hcl fs body fun m _ => ⟨(hbody m).1, (hbody m).2.1⟩).imp id fun ⟨defs, h1, h2, h3⟩ => ⟨defs, h1, h2, fun fresh n d m vs s hm hns => ?_⟩
  rw [h3 fresh n d m hm]
  exact hrun fresh n d m vs s hns

/-! ## A recursive program -/

/-- `static long Fac(int N) { if (N < 0) throw new ArgumentException(); if (N <= 1) return 1; return (long)N * Fac(N - 1); }` -/
def facM : Program.Meth where
  params := [.int32]
  retType := .int64
  main := 9
  blocks := .bcons 0 (.cons (.ite 0 (.act 0) .nop) (.cons (.ite 1 (.leave 9 0 (some 1)) .nop) (.cons (.leave 9 0 (some 2)) .nil))) .bnil
  stmt := fun _ => .throw .argument
  cond := fun c => if c = 1 then ⟨none, .comp .le false (.var .int32 0) (.i4 1)⟩ else ⟨none, .comp .lt false (.var .int32 0) (.i4 0)⟩
  val := fun _ => ⟨none, .i4 0⟩
  ret := fun v => if v = 1 then ⟨none, .i8 1⟩ else
    ⟨some ⟨0, [.bin (.arith .sub) false false (.var .int32 0) (.i4 1)], 1⟩, .bin (.arith .mul) false false (.conv .int64 false false (.var .int32 0)) (.var .int64 1)⟩
  catches := fun _ _ => true

/-- `static long Sum(int N) { long total; Tick(N); try { total = Fac(N); } catch (Exception e) { total = -1; } return total + Fac(N + 1); }` -/
def sumM : Program.Meth where
  params := [.int32]
  retType := .int64
  main := 9
  blocks := .bcons 0 (.cons (.act 0) (.cons (.tryCatch 1 6 (.cons (.act 1) (.cons (.leave 1 6 none) .nil)) .bnil (.hcons 2 7 (.cons (.act 2) (.cons (.leave 2 7 none) .nil)) .bnil .hnil))
    (.cons (.leave 9 0 (some 1)) .nil))) .bnil
  stmt := fun k => if k = 0 then .call ⟨2, [.var .int32 0], 2⟩ else if k = 1 then .assign 1 .int64 ⟨some ⟨0, [.var .int32 0], 2⟩, .var .int64 2⟩ else .assign 1 .int64 ⟨none, .i8 (-1)⟩
  cond := fun _ => ⟨none, .comp .gt false (.var .int32 0) (.i4 1)⟩
  val := fun _ => ⟨none, .i4 0⟩
  ret := fun _ => ⟨some ⟨0, [.bin (.arith .add) false false (.var .int32 0) (.i4 1)], 2⟩, .bin (.arith .add) false false (.var .int64 1) (.var .int64 2)⟩
  catches := fun _ _ => true

/-- `static void Tick(int N) { if (N > limit) return; ticks = ticks + N; }` with the static fields `ticks`, variable 10, and `limit`, variable 11. -/
def tickM : Program.Meth where
  params := [.int32]
  retType := .int32
  main := 9
  blocks := .bcons 0 (.cons (.ite 0 (.leave 9 0 none) .nop) (.cons (.act 0) (.cons (.leave 9 0 none) .nil))) .bnil
  stmt := fun _ => .assign 10 .int32 ⟨none, .bin (.arith .add) false false (.var .int32 10) (.var .int32 0)⟩
  cond := fun _ => ⟨none, .comp .gt false (.var .int32 0) (.var .int32 11)⟩
  val := fun _ => ⟨none, .i4 0⟩
  ret := fun _ => ⟨none, .i4 0⟩
  catches := fun _ _ => true

def sumProg : Prog where
  static k := k == 10 || k == 11
  meth m := if m = 0 then facM else if m = 1 then sumM else tickM

/-- The names. -/
def sumText : PText where
  P := sumProg
  count := 3
  ci := Fmt.asciiInfo
  nl := [13, 10]
  cls _ := w "Series"
  meth m := if m = 0 then w "Fac" else if m = 1 then w "Sum" else w "Tick"
  src m := if m = 1 then [(w "N", .int32), (w "total", .int64)] else [(w "N", .int32)]
  handler _ _ := w "Exception"
  exVar _ _ := w "e"
  exc
    | .argument => w "ArgumentException"
    | _ => w "Exception"
  void m := m != 0 && m != 1
  fields := [⟨w "Series", w "ticks", .int32, 10⟩, ⟨w "Series", w "limit", .int32, 11⟩]

theorem sum_params (m : Nat) : (sumProg.meth m).params = [.int32] := by
  unfold sumProg
  simp only []
  split
  · rfl
  · split <;> rfl

theorem sum_call (n : Nat) {a : X} (h : Storable .int32 a) (r : Nat) : sumProg.GoodCall (some ⟨n, [a], r⟩) := by
  intro i ty e h1 h2
  rw [sum_params] at h1
  rcases i with _ | i
  · simp at h1 h2; subst h1 h2; exact h
  · simp at h1

theorem facM_good : sumProg.GoodMeth facM := by
  refine ⟨fun k x ty p hk => by simp [facM] at hk, fun k c hk => by simp [facM] at hk, fun c => ?_, fun v => ?_, fun v => ?_, by simp [facM, Shape], by simp [facM, Innermost], by decide, by simp [facM, branches]⟩
  · by_cases h : c = 1 <;> simp [facM, h, Program.Prog.GoodCall, Testable, isIte, Agree, cty, Sem.tr, constX, CX.ty, common, promote, CT.bits, CT.signed, X.width, tyW, W.bits, sx, ux, I32]
  · simp [facM, Program.Prog.GoodCall, Switchable, Agree, cty, Sem.tr, constX, CX.ty, common, promote, CT.bits, CT.signed, X.width, tyW, W.bits, sx, ux, I32]
  · by_cases h : v = 1
    · simp [facM, h, Program.Prog.GoodCall, Storable, Agree, cty, Sem.tr, constX, CX.ty, common, promote, CT.bits, CT.signed, X.width, tyW, W.bits, sx, ux, I32, I64]
    · simp only [facM, h, if_false]
      exact ⟨by simp [Storable, Agree, cty, Sem.tr, constX, CX.ty, common, promote, CT.bits, CT.signed, X.width, tyW, W.bits, sx, ux, I32, I64],
        sum_call 0 (by simp [Storable, Agree, cty, Sem.tr, constX, CX.ty, common, promote, CT.bits, CT.signed, X.width, tyW, W.bits, sx, ux, I32, I64]) 1⟩

theorem sumM_good : sumProg.GoodMeth sumM := by
  refine ⟨fun k x ty p hk => ?_, fun k c hk => ?_, fun c => ?_, fun v => ?_, fun v => ?_, by simp [sumM, Shape], by simp [sumM, Innermost, handlerIds], by decide, by simp [sumM, branches]⟩
  · by_cases h0 : k = 0
    · simp [sumM, h0] at hk
    · by_cases h : k = 1
      · simp [sumM, h] at hk
        obtain ⟨rfl, rfl, rfl⟩ := hk
        exact ⟨by simp [Storable, Agree, X.width, tyW], sum_call 0 (by simp [Storable, Agree, X.width, tyW]) 2⟩
      · simp [sumM, h0, h] at hk
        obtain ⟨rfl, rfl, rfl⟩ := hk
        simp [Program.Prog.GoodCall, Storable, Agree, cty, Sem.tr, constX, CX.ty, common, promote, CT.bits, CT.signed, X.width, tyW, W.bits, sx, ux, I32, I64]
  · by_cases h0 : k = 0
    · simp [sumM, h0] at hk
      subst hk
      exact sum_call 2 (by simp [Storable, Agree, X.width, tyW]) 2
    · by_cases h : k = 1 <;> simp [sumM, h0, h] at hk
  · simp [sumM, Program.Prog.GoodCall, Testable, isIte, Agree, cty, Sem.tr, constX, CX.ty, common, promote, CT.bits, CT.signed, X.width, tyW, W.bits, sx, ux, I32]
  · simp [sumM, Program.Prog.GoodCall, Switchable, Agree, cty, Sem.tr, constX, CX.ty, common, promote, CT.bits, CT.signed, X.width, tyW, W.bits, sx, ux, I32]
  · exact ⟨by simp [sumM, Storable, Agree, cty, Sem.tr, constX, CX.ty, common, promote, CT.bits, CT.signed, X.width, tyW, W.bits, sx, ux, I32, I64],
      sum_call 0 (by simp [Storable, Agree, cty, Sem.tr, constX, CX.ty, common, promote, CT.bits, CT.signed, X.width, tyW, W.bits, sx, ux, I32, I64]) 2⟩

theorem tickM_good : sumProg.GoodMeth tickM := by
  refine ⟨fun k x ty p hk => ?_, fun k c hk => by simp [tickM] at hk, fun c => ?_, fun v => ?_, fun v => ?_, by simp [tickM, Shape], by simp [tickM, Innermost], by decide, by simp [tickM, branches]⟩
  · simp [tickM] at hk
    obtain ⟨rfl, rfl, rfl⟩ := hk
    simp [Program.Prog.GoodCall, Storable, Agree, cty, Sem.tr, constX, CX.ty, common, promote, CT.bits, CT.signed, X.width, tyW, W.bits, sx, ux, I32, I64]
  · simp [tickM, Program.Prog.GoodCall, Testable, isIte, Agree, cty, Sem.tr, constX, CX.ty, common, promote, CT.bits, CT.signed, X.width, tyW, W.bits, sx, ux, I32]
  · simp [tickM, Program.Prog.GoodCall, Switchable, Agree, cty, Sem.tr, constX, CX.ty, common, promote, CT.bits, CT.signed, X.width, tyW, W.bits, sx, ux, I32]
  · simp [tickM, Program.Prog.GoodCall, Storable, Agree, cty, Sem.tr, constX, CX.ty, common, promote, CT.bits, CT.signed, X.width, tyW, W.bits, sx, ux, I32]

theorem sumProg_good : sumProg.Good := by
  intro m
  show sumProg.GoodMeth (if m = 0 then facM else if m = 1 then sumM else tickM)
  split
  · exact facM_good
  · split
    · exact sumM_good
    · exact tickM_good

/-- The functions and static fields, as declared. -/
def sumFuns : List Fun := [⟨w "Series::Fac", [.int32], .int64, false, none⟩, ⟨w "Series::Sum", [.int32], .int64, false, none⟩, ⟨w "Series::Tick", [.int32], .int32, true, none⟩,
  ⟨w "Series::x_ticks", [], .int32, false, some 10⟩, ⟨w "Series::x_limit", [], .int32, false, some 11⟩]

theorem sum_funs : sumText.funs = sumFuns := by decide +kernel

theorem sum_three {m : Nat} (h : m < sumText.count) : m = 0 ∨ m = 1 ∨ m = 2 := by
  have : m < 3 := h
  omega

theorem sumText_ok : sumText.Ok where
  nl := .inr rfl
  static k := by
    show (k == 10 || k == 11) = (10 == k || (11 == k || false))
    rw [Bool.or_false, Bool.beq_comm (a := k), Bool.beq_comm (a := k)]
  heads m hm := by
    rcases sum_three hm with rfl | rfl | rfl <;> exact ⟨by decide +kernel, by decide +kernel, by decide⟩
  names f hf := by
    have : f = ⟨w "Series", w "ticks", .int32, 10⟩ ∨ f = ⟨w "Series", w "limit", .int32, 11⟩ := by simpa [sumText] using hf
    rcases this with rfl | rfl <;> exact ⟨by decide +kernel, by decide +kernel, by decide +kernel⟩
  distinct := by rw [sum_funs]; decide +kernel
  free := by rw [sum_funs]; decide +kernel
  places := by decide
  above m hm f hf := by
    have : f = ⟨w "Series", w "ticks", .int32, 10⟩ ∨ f = ⟨w "Series", w "limit", .int32, 11⟩ := by simpa [sumText] using hf
    rcases sum_three hm with rfl | rfl | rfl <;> rcases this with rfl | rfl <;> decide
  meth m hm := by
    have hE : CppLex.isIdent (w "Exception") = true ∧ w "Exception" ≠ w "this" ∧ w "Exception" ≠ w "Void" := by decide
    rcases sum_three hm with rfl | rfl | rfl
    · refine ⟨⟨by decide, by decide, by decide⟩, rfl, fun k x ty p hk => by simp [sumText, sumProg, facM] at hk, fun k c hk => by simp [sumText, sumProg, facM] at hk, fun k x hk => ?_, fun c => ?_, fun v => ?_, fun v => ?_,
        by decide, fun _ => hE, fun _ => ?_, ⟨_, _, _, rfl, by decide +kernel⟩⟩
      · simp [sumText, sumProg, facM] at hk
        subst hk
        decide
      · by_cases h : c = 1 <;> simp [PText.PieceOk, sumText, sumProg, facM, h, Typed, PText.Var, I32]
      · simp [PText.PieceOk, sumText, sumProg, facM, Typed, I32]
      · by_cases h : v = 1
        · simp [PText.PieceOk, sumText, sumProg, facM, h, Typed, I64]
        · simp [PText.PieceOk, sumText, sumProg, facM, h, Typed, PText.Var, I32, first, still]
      · show CppLex.isIdent (w "e") = true ∧ w "e" ≠ w "this" ∧ w "e" ≠ w "Void" ∧ w "e" ∉ [w "N"]
        decide
    · refine ⟨⟨by decide, by decide, by decide⟩, rfl, fun k x ty p hk => ?_, fun k c hk => ?_, fun k x hk => ?_, fun c => ?_, fun v => ?_, fun v => ?_, by decide, fun _ => hE, fun _ => ?_, ⟨_, _, _, rfl, by decide +kernel⟩⟩
      · by_cases h0 : k = 0
        · simp [sumText, sumProg, sumM, h0] at hk
        by_cases h : k = 1
        · simp [sumText, sumProg, sumM, h] at hk
          obtain ⟨rfl, rfl, rfl⟩ := hk
          exact ⟨.inl ⟨_, rfl⟩, by simp [PText.PieceOk, sumText, sumProg, facM, Typed, PText.Var, first]⟩
        · simp [sumText, sumProg, sumM, h0, h] at hk
          obtain ⟨rfl, rfl, rfl⟩ := hk
          exact ⟨.inl ⟨_, rfl⟩, by simp [PText.PieceOk, Typed, I64]⟩
      · by_cases h0 : k = 0
        · simp [sumText, sumProg, sumM, h0] at hk
          subst hk
          simp [sumText, sumProg, tickM, Typed, PText.Var]
        · by_cases h : k = 1 <;> simp [sumText, sumProg, sumM, h0, h] at hk
      · by_cases h0 : k = 0
        · simp [sumText, sumProg, sumM, h0] at hk
        · by_cases h : k = 1 <;> simp [sumText, sumProg, sumM, h0, h] at hk
      · simp [PText.PieceOk, sumText, sumProg, sumM, Typed, PText.Var, I32]
      · simp [PText.PieceOk, sumText, sumProg, sumM, Typed, I32]
      · simp [PText.PieceOk, sumText, sumProg, sumM, facM, Typed, PText.Var, I32, first, still]
      · show CppLex.isIdent (w "e") = true ∧ w "e" ≠ w "this" ∧ w "e" ≠ w "Void" ∧ w "e" ∉ [w "N", w "total"]
        decide
    · refine ⟨⟨by decide, by decide, by decide⟩, rfl, fun k x ty p hk => ?_, fun k c hk => by simp [sumText, sumProg, tickM] at hk, fun k x hk => by simp [sumText, sumProg, tickM] at hk, fun c => ?_, fun v => ?_, fun v => ?_,
        by decide, fun _ => hE, fun _ => ?_, ⟨_, _, _, rfl, by decide +kernel⟩⟩
      · simp [sumText, sumProg, tickM] at hk
        obtain ⟨rfl, rfl, rfl⟩ := hk
        exact ⟨.inr ⟨_, List.mem_cons_self, rfl, rfl⟩, by simp [PText.PieceOk, sumText, sumProg, Typed, PText.Var]⟩
      · simp [PText.PieceOk, sumText, sumProg, tickM, Typed, PText.Var]
      · simp [PText.PieceOk, sumText, sumProg, tickM, Typed, I32]
      · simp [PText.PieceOk, sumText, sumProg, tickM, Typed, I32]
      · show CppLex.isIdent (w "e") = true ∧ w "e" ≠ w "this" ∧ w "e" ≠ w "Void" ∧ w "e" ∉ [w "N"]
        decide

/-- The characters. -/
theorem sum_text : chars (sumText.body 0 { Fmt.initial with onNewline := true }) =
      w "{\r\nIL_0000:\r\n\tif (((N) < 0))\r\n\t{\r\n\t\tthrow ((new ArgumentException()));\r\n\t}\r\n\r\n\tif (((N) <= 1))\r\n\t{\r\n\t\treturn((Int64)1);\r\n\t}\r\n\r\n\treturn((Int64)(((Int64)N) * Series::Fac((Int32)((N - 1)))));\r\n}\r\n" ∧
    chars (sumText.body 1 { Fmt.initial with onNewline := true }) =
      w "{\r\nIL_0000:\r\n\tInt64 x_total;\r\n\tSeries::Tick((Int32)(N));\r\n\ttry\r\n\t{\r\nIL_0006:\r\n\t\tx_total = Series::Fac((Int32)(N));\r\n\t\tgoto leaveBlock2;\r\n\t}\r\n\tcatch (Exception* x_e)\r\n\t{\r\nIL_0007:\r\n\t\tx_total = -1;\r\n\t\tgoto leaveBlock2;\r\n\t}\r\nleaveBlock2:;\r\n\r\n\treturn((Int64)(x_total + Series::Fac((Int32)((N + 1)))));\r\n}\r\n" ∧
    chars (sumText.body 2 { Fmt.initial with onNewline := true }) =
      w "{\r\nIL_0000:\r\n\tif (((N) > Series::x_limit))\r\n\t{\r\n\t\treturn;\r\n\t}\r\n\r\n\tSeries::x_ticks = (Series::x_ticks + N);\r\n\treturn;\r\n}\r\n" := by
  decide +kernel

/-- What a call returned, and the static field `ticks` after it. -/
def value : Ev Env Program.Fault (Option Int) → Option (Option Int × Int)
  | .ok v s => some (v, s 10)
  | .raise _ _ => none

/-- What a call ended with, and the static field `ticks` after it. -/
def raised : Ev Env Program.Fault (Option Int) → Option (Program.Fault × Int)
  | .ok _ _ => none
  | .raise x s => some (x, s 10)

/-- Exactly the handlers for `Exception` catch the exception. -/
def sumClasses (T : WStr) (_ : Exc) : Bool := T == w "Exception"
/-- The class `ArgumentException`. -/
def sumExn (T : WStr) : Option Exc := if T = w "ArgumentException" then some .argument else none

/-- Before the call `limit` is 50, `ticks` is 100. -/
def sumStart : Env := fun k => if k = 11 then 50 else 100

/-- From the characters: `Sum(5)` is 5! + 6!, `Sum(-1)` catches the exception thrown in `Fac(-1)` and is -1 + 0!, and `Sum(-3)` ends with the exception of `Fac(-2)`; the static field `ticks` changes by the argument. -/
example : ∃ defs : List Def, (∀ m, m < 3 → ∃ t D, sumText.body m { Fmt.initial with onNewline := true } = .ok t ∧ defs[m]? = some D ∧ ReadsBody [(w "N", .int32)] t D.pieces D.body sumFuns) ∧
    value (callDef sumClasses sumExn defs (sumFuns.drop 3) (fun _ => 77) 20 20 1 [5] sumStart) = some (some 840, 105) ∧
    value (callDef sumClasses sumExn defs (sumFuns.drop 3) (fun _ => 77) 20 20 1 [-1] sumStart) = some (some 0, 99) ∧
    raised (callDef sumClasses sumExn defs (sumFuns.drop 3) (fun _ => 77) 20 20 1 [-3] sumStart) = some (.exc .argument, 97) ∧
    value (callDef sumClasses sumExn defs (sumFuns.drop 3) (fun _ => 77) 20 20 2 [60] sumStart) = some (none, 100) := by
  have := C173_program_partial sumText sumText_ok sumProg_good sumClasses sumExn
    (fun m k x hm hk => by
      rcases sum_three hm with rfl | rfl | rfl
      · simp [sumText, sumProg, facM] at hk
        subst hk
        decide
      · by_cases h0 : k = 0
        · simp [sumText, sumProg, sumM, h0] at hk
        · by_cases h : k = 1 <;> simp [sumText, sumProg, sumM, h0, h] at hk
      · simp [sumText, sumProg, tickM] at hk)
    (fun m hm h x => by
      show (sumProg.meth m).catches h x = sumClasses (written Fmt.asciiInfo (w "Exception")) x
      have e : sumClasses (written Fmt.asciiInfo (w "Exception")) x = true := by cases x <;> decide +kernel
      rw [e]
      rcases sum_three hm with rfl | rfl | rfl <;> rfl)
    (fun _ => { Fmt.initial with onNewline := true })
  have hff : sumText.fieldFuns = sumFuns.drop 3 := by decide +kernel
  rw [hff, sum_funs] at this
  rcases this with ⟨m, hm, h⟩ | ⟨defs, _, h2, h3⟩
  · exfalso
    rcases sum_three hm with rfl | rfl | rfl
    · have e := congrArg List.length sum_text.1
      rw [h] at e
      exact absurd e (by decide +kernel)
    · have e := congrArg List.length sum_text.2.1
      rw [h] at e
      exact absurd e (by decide +kernel)
    · have e := congrArg List.length sum_text.2.2
      rw [h] at e
      exact absurd e (by decide +kernel)
  · have run : ∀ m vs, m < 3 → Program.isUndefined (sumProg.runStopped (fun _ => 77) 20 20 m vs sumStart) = false →
        callDef sumClasses sumExn defs (sumFuns.drop 3) (fun _ => 77) 20 20 m vs sumStart = sumProg.runSource (fun _ => 77) 20 20 m vs sumStart := by
      intro m vs hm hu
      refine h3 (fun _ => 77) 20 20 m vs sumStart hm fun s' h => ?_
      rw [show sumProg.runStopped (fun _ => 77) 20 20 m vs sumStart = _ from h] at hu; cases hu
    refine ⟨defs, fun m hm => ?_, ?_, ?_, ?_, ?_⟩
    · obtain ⟨t, D, a, b, _, c, _⟩ := h2 m hm
      refine ⟨t, D, a, b, ?_⟩
      have e : writtenVars sumText.ci ((sumText.src m).take (sumText.P.meth m).params.length) = [(w "N", .int32)] := by
        rcases sum_three hm with rfl | rfl | rfl <;> decide +kernel
      rw [e] at c
      exact c
    · rw [run 1 [5] (by decide) (by decide +kernel)]; decide +kernel
    · rw [run 1 [-1] (by decide) (by decide +kernel)]; decide +kernel
    · rw [run 1 [-3] (by decide) (by decide +kernel)]; decide +kernel
    · rw [run 2 [60] (by decide) (by decide +kernel)]; decide +kernel

/-! ## Programs that are not translated faithfully -/

/-- `static int Less(int A, int B) { if ((uint)A < (uint)B) return 1; return 0; }` -/
def lessM : Program.Meth where
  params := [.int32, .int32]
  retType := .int32
  main := 9
  blocks := .bcons 0 (.cons (.ite 1 (.leave 9 0 (some 1)) .nop) (.cons (.leave 9 0 (some 2)) .nil)) .bnil
  stmt := fun _ => .throw .argument
  cond := fun _ => ⟨none, .comp .lt true (.var .int32 0) (.var .int32 1)⟩
  val := fun _ => ⟨none, .i4 0⟩
  ret := fun v => ⟨none, .i4 (if v = 1 then 1 else 0)⟩
  catches := fun _ _ => true

/-- `static int Ask() { return Less(-1, 0); }` -/
def askM : Program.Meth where
  params := []
  retType := .int32
  main := 9
  blocks := .bcons 0 (.cons (.leave 9 0 (some 1)) .nil) .bnil
  stmt := fun _ => .throw .argument
  cond := fun _ => ⟨none, .i4 0⟩
  val := fun _ => ⟨none, .i4 0⟩
  ret := fun _ => ⟨some ⟨0, [.i4 (-1), .i4 0], 0⟩, .var .int32 0⟩
  catches := fun _ _ => true

def lessProg : Prog where
  static _ := false
  meth m := if m = 0 then lessM else askM

/-- The names. -/
def lessText : PText where
  P := lessProg
  count := 2
  ci := Fmt.asciiInfo
  nl := [10]
  cls _ := w "Order"
  meth m := if m = 0 then w "Less" else w "Ask"
  src m := if m = 0 then [(w "A", .int32), (w "B", .int32)] else []
  handler _ _ := w "Exception"
  exVar _ _ := w "e"
  exc _ := w "ArgumentException"
  void _ := false
  fields := []

theorem less_two {m : Nat} (h : m < lessText.count) : m = 0 ∨ m = 1 := by
  have : m < 2 := h
  omega

theorem lessText_ok : lessText.Ok where
  nl := .inl rfl
  static k := rfl
  heads m hm := by
    rcases less_two hm with rfl | rfl <;> exact ⟨by decide +kernel, by decide +kernel, by decide⟩
  names f hf := by cases hf
  distinct := by decide +kernel
  free := by decide +kernel
  places := by decide
  above m hm f hf := by cases hf
  meth m hm := by
    have hE : CppLex.isIdent (w "Exception") = true ∧ w "Exception" ≠ w "this" ∧ w "Exception" ≠ w "Void" := by decide
    rcases less_two hm with rfl | rfl
    · refine ⟨⟨by decide, by decide, by decide⟩, rfl, fun k x ty p hk => by simp [lessText, lessProg, lessM] at hk, fun k c hk => by simp [lessText, lessProg, lessM] at hk, fun k x hk => by show CppLex.isIdent (w "ArgumentException") = true ∧ isKw (w "ArgumentException") = false; decide, fun c => ?_, fun v => ?_, fun v => ?_,
        by decide, fun _ => hE, fun _ => ?_, ⟨_, _, _, rfl, by decide +kernel⟩⟩
      · simp [PText.PieceOk, lessText, lessProg, lessM, Typed, PText.Var]
      · simp [PText.PieceOk, lessText, lessProg, lessM, Typed, I32]
      · by_cases h : v = 1 <;> simp [PText.PieceOk, lessText, lessProg, lessM, h, Typed, I32]
      · show CppLex.isIdent (w "e") = true ∧ w "e" ≠ w "this" ∧ w "e" ≠ w "Void" ∧ w "e" ∉ [w "A", w "B"]
        decide
    · refine ⟨⟨by decide, by decide, by decide⟩, rfl, fun k x ty p hk => by simp [lessText, lessProg, askM] at hk, fun k c hk => by simp [lessText, lessProg, askM] at hk, fun k x hk => by show CppLex.isIdent (w "ArgumentException") = true ∧ isKw (w "ArgumentException") = false; decide, fun c => ?_, fun v => ?_, fun v => ?_,
        by decide, fun _ => hE, fun _ => ?_, ⟨_, _, _, rfl, by decide +kernel⟩⟩
      · simp [PText.PieceOk, lessText, lessProg, askM, Typed, I32]
      · simp [PText.PieceOk, lessText, lessProg, askM, Typed, I32]
      · simp [PText.PieceOk, lessText, lessProg, lessM, askM, Typed, I32, first]
      · show CppLex.isIdent (w "e") = true ∧ w "e" ≠ w "this" ∧ w "e" ≠ w "Void" ∧ w "e" ∉ ([] : List WStr)
        decide

theorem lessText_plain : lessText.Plain := by
  intro m hm
  rcases less_two hm with rfl | rfl
  · exact ⟨fun k x ty p hk => by simp [lessText, lessProg, lessM] at hk, fun k c hk => by simp [lessText, lessProg, lessM] at hk, fun c => by simp [lessText, lessProg, lessM, NoCond, isIte, CallPlain],
      fun c => by simp [lessText, lessProg, lessM, NoCond, CallPlain], fun c => by simp [lessText, lessProg, lessM, NoCond, CallPlain], by simp [lessText, lessProg, lessM, Shape]⟩
  · exact ⟨fun k x ty p hk => by simp [lessText, lessProg, askM] at hk, fun k c hk => by simp [lessText, lessProg, askM] at hk, fun c => by simp [lessText, lessProg, askM, NoCond, isIte, CallPlain],
      fun c => by simp [lessText, lessProg, askM, NoCond, CallPlain], fun c => by simp [lessText, lessProg, askM, NoCond, CallPlain], by simp [lessText, lessProg, askM, Shape]⟩

/-- The characters: the comparison without sign has become one with sign. -/
theorem less_text : chars (lessText.body 0 { Fmt.initial with onNewline := true }) = w "{\nIL_0000:\n\tif (((A) < B))\n\t{\n\t\treturn((Int32)1);\n\t}\n\n\treturn((Int32)0);\n}\n" ∧
    chars (lessText.body 1 { Fmt.initial with onNewline := true }) = w "{\n\treturn((Int32)Order::Less((Int32)(-1), (Int32)(0)));\n}\n" := by
  decide +kernel

/-- **C173**, the rest refuted: a call of `Ask()` is 0, and 1 for the functions that a C++ compiler reads from the characters written for the two methods; there are no other functions it can read. -/
theorem C173_refuted (fresh s : Env) : ∃ defs : List Def,
    (∀ m, m < 2 → ∃ t D, lessText.body m { Fmt.initial with onNewline := true } = .ok t ∧ defs[m]? = some D ∧
      ReadsBody (writtenVars Fmt.asciiInfo ((lessText.src m).take (lessProg.meth m).params.length)) t D.pieces D.body lessText.funs ∧
      ∀ ps b, ReadsBody (writtenVars Fmt.asciiInfo ((lessText.src m).take (lessProg.meth m).params.length)) t ps b lessText.funs → ps = D.pieces ∧ b = D.body) ∧
    lessProg.runSource fresh 5 5 1 [] s = .ok (some 0) s ∧
    callDef sumClasses sumExn defs [] fresh 5 5 1 [] s = .ok (some 1) s := by
  have := functions_read lessText lessText_ok lessText_plain sumClasses sumExn
    (fun m k x hm hk => by
      rcases less_two hm with rfl | rfl
      · simp [lessText, lessProg, lessM] at hk
        subst hk
        decide
      · simp [lessText, lessProg, askM] at hk
        subst hk
        decide)
    (fun m hm h x => by
      show (lessProg.meth m).catches h x = sumClasses (written Fmt.asciiInfo (w "Exception")) x
      have e : sumClasses (written Fmt.asciiInfo (w "Exception")) x = true := by cases x <;> decide +kernel
      rw [e]
      rcases less_two hm with rfl | rfl <;> rfl)
    (fun _ => { Fmt.initial with onNewline := true })
    (fun m => Stmt.tr 9 (lessProg.meth m).blocks [1] ⟨1, 9⟩ .nil)
    (fun m hm => by
      have hs := (lessText_plain m hm).shape
      have hmain : (lessText.P.meth m).main = 9 := by rcases less_two hm with rfl | rfl <;> rfl
      rw [hmain]
      exact ⟨(tr_wf 9 (lessProg.meth m).blocks .blocks hs [1] ⟨1, 9⟩ .nil).1 trivial trivial, by rw [tr_flat, emitMain_eq]; simp [CS.flat, lessText]⟩)
  rcases this with ⟨m, hm, h⟩ | ⟨defs, _, h2, h3⟩
  · exfalso
    rcases less_two hm with rfl | rfl
    · have e := congrArg List.length less_text.1
      rw [h] at e
      exact absurd e (by decide +kernel)
    · have e := congrArg List.length less_text.2
      rw [h] at e
      exact absurd e (by decide +kernel)
  · refine ⟨defs, fun m hm => ?_, ?_, ?_⟩
    · obtain ⟨t, D, a, b, _, c, d⟩ := h2 m hm
      exact ⟨t, D, a, b, c, d⟩
    · rfl
    · show callDef sumClasses sumExn defs lessText.fieldFuns fresh 5 5 1 [] s = _
      rw [h3 fresh 5 5 1 (by decide)]
      rfl

end Verif.Text
