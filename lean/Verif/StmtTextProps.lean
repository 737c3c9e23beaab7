import Verif.StmtTextBody
import Verif.CallTextLemmas
/-!
# C156: the characters written for the body of a method are, for a C++ compiler, a function body that does what the method does
-/
namespace Verif.Text
open Cpp Sem Read Stmt Method
open Verif.IntVal (Ty)

/-! ## Expressions -/

/-- An expression's text: lexemes and tokens; none of them ends a statement. -/
theorem expr_all {vars : List (WStr × Ty)} {funs : List Fun} {name : Nat → WStr} {V : Nat → Expr.E} {e : X}
    (h : Typed (fun _ k => ∀ b, Tx (entities vars funs) (name k) (Expr.emitB b (V k))) e) (hW : ∀ k b d, walkT d (Expr.emitB b (V k)) = some d) :
    Lx (text name e) (lexOf (text name e)) ∧ Bal (lexOf (text name e)) ∧
    resolve (entities vars funs) (lexOf (text name e)) = some (Expr.emitB false (toE V (entities vars funs).length e)) := by
  have ht := tx_gen vars funs name V e h false
  have hr : resolve (entities vars funs) (lexOf (text name e)) = some (Expr.emitB false (toE V (entities vars funs).length e)) := by
    obtain ⟨ls, h1, h2⟩ := ht.reads
    have : lexOf (text name e) = ls := by unfold lexOf; rw [h1]; rfl
    rw [this]; exact h2
  refine ⟨?_, fun d => ?_, hr⟩
  · obtain ⟨ls, h1, _⟩ := ht
    exact Lx.self h1
  · rw [walk_resolve _ _ _ d hr]
    exact walkT_emit V hW _ e false d

theorem walk_name (k : Nat) (b : Bool) (d : Nat) : walkT d (Expr.emitB b (nameE k)) = some d := by simp [nameE, Expr.emitB, walkT]

/-- What the tokens of an expression read as is what its lexemes read as. -/
theorem expr_readsL {vars : List (WStr × Ty)} {funs : List Fun} {name : Nat → WStr} {V : Nat → Expr.E} {e : X} (hV : ∀ k, Atomic (V k)) (hn : NoCond e) {r : RX}
    (h1 : resolve (entities vars funs) (lexOf (text name e)) = some (Expr.emitB false (toE V (entities vars funs).length e)))
    (h2 : readX (entities vars funs) (Expr.tree (toE V (entities vars funs).length e)) = some r) : ReadsL vars funs (lexOf (text name e)) r :=
  ⟨_, _, h1, Expr.C60_parses_partial _ (toE_ok hV _ e hn) (le2 (toE_level hV _ e)), h2⟩

/-- An assignment. -/
theorem assign_lx {n t : WStr} (hn : CppLex.isIdent n = true) (ht : Lx t (lexOf t)) : Lx (n ++ (w " = " ++ t)) (.word n :: pt "=" :: lexOf t) :=
  lx_word_then hn (c := 32) (by decide) (ly_assign.lx_append ht)

/-- Increments and decrements. -/
theorem inc_lx {n : WStr} (hn : CppLex.isIdent n = true) : Lx (w "++" ++ n) [pt "++", .word n] :=
  lx_twice (c := 43) (by decide) (by decide) (by intro d; simp [puncts, w]) hn

theorem dec_lx {n : WStr} (hn : CppLex.isIdent n = true) : Lx (w "--" ++ n) [pt "--", .word n] :=
  lx_twice (c := 45) (by decide) (by decide) (by intro d; simp [puncts, w]) hn

/-! ## Bodies -/

/-- The bodies C156 is about. -/
structure Body.Ok (C : Body) : Prop where
  nl : IsNl C.nl
  source : Source C.src
  target : ∀ k, ∃ n, C.src[C.P.target k]? = some (n, C.P.type k)
  value : ∀ k, WellTyped C.src (C.P.value k)
  cond : ∀ c, WellTyped C.src (C.P.cond c)
  val : ∀ v, WellTyped C.src (C.P.val v)
  ret : ∀ v, WellTyped C.src (C.P.ret v)
  cls : ∀ h, CppLex.isIdent (C.cls h) = true ∧ C.cls h ≠ w "this" ∧ C.cls h ≠ w "Void"
  exVar : ∀ h, CppLex.isIdent (C.exVar h) = true ∧ C.exVar h ≠ w "this" ∧ C.exVar h ≠ w "Void" ∧ C.exVar h ∉ C.src.map (·.1)

/-- What a returned value is converted to. -/
def Body.retX (C : Body) (v : Nat) : X := .conv (typeFor C.P.retType (C.P.ret v)) false false (C.P.ret v)

theorem Body.ret_text (C : Body) (v : Nat) : C.ret v = C.expr (C.retX v) := by
  show w "(" ++ (w "(" ++ tyName (typeFor C.P.retType (C.P.ret v)) ++ w ")" ++ C.expr (C.P.ret v) ++ w ")") = w "(" ++ castText _ ++ textB C.name false (C.P.ret v) ++ w ")"
  rw [castText_eq]
  simp only [List.append_assoc]
  rfl

theorem Body.name_eq (C : Body) : C.name = nameOf (writtenVars C.ci C.src) := Text.name_eq C.cfg

theorem Body.expr_all {C : Body} (hC : C.Ok) {e : X} (h : WellTyped C.src e) : Lx (C.expr e) (lexOf (C.expr e)) ∧ Bal (lexOf (C.expr e)) ∧
    resolve (entities (writtenVars C.ci C.src)) (lexOf (C.expr e)) = some (Expr.emitB false (toE nameE (entities (writtenVars C.ci C.src)).length e)) := by
  unfold Body.expr
  rw [C.name_eq]
  exact Text.expr_all (Typed.mono (fun _ _ ⟨_, hn⟩ => tx_name (hC.source.scope C.ci) [] hn) e ((wellTyped_iff _ e).mp (wellTyped_written C.ci C.src e h))) walk_name

theorem Body.store_lx {C : Body} (hC : C.Ok) (k : Nat) : Lx (C.store k) (lexOf (C.store k)) ∧
    (lexOf (C.store k) = .word (C.name (C.P.target k)) :: pt "=" :: lexOf (C.expr (C.P.value k)) ∨
     (lexOf (C.store k) = [pt "++", .word (C.name (C.P.target k))] ∧ ∃ un chk ty', C.P.value k = .bin (.arith .add) un chk (.var ty' (C.P.target k)) (.i4 1)) ∨
     (lexOf (C.store k) = [pt "--", .word (C.name (C.P.target k))] ∧ ∃ un chk ty', C.P.value k = .bin (.arith .sub) un chk (.var ty' (C.P.target k)) (.i4 1))) := by
  have hi : CppLex.isIdent (C.name (C.P.target k)) = true := by
    obtain ⟨n, hn⟩ := hC.target k
    unfold Body.name
    rw [hn]
    exact written_ident _ (hC.source.ident _ (List.mem_of_getElem? hn))
  rcases stloc_cases (C.P.target k) (C.P.value k) with h | ⟨un, chk, ty', e, h⟩ | ⟨un, chk, ty', e, h⟩
  · have hx : Lx (C.store k) (.word (C.name (C.P.target k)) :: pt "=" :: lexOf (C.expr (C.P.value k))) := by
      unfold Body.store; rw [h]
      exact assign_lx hi (C.expr_all hC (hC.value k)).1
    exact ⟨Lx.self hx, .inl (Lx.lexOf hx)⟩
  · have hx : Lx (C.store k) [pt "++", .word (C.name (C.P.target k))] := by
      unfold Body.store; rw [h]
      exact inc_lx hi
    exact ⟨Lx.self hx, .inr (.inl ⟨Lx.lexOf hx, un, chk, ty', e⟩)⟩
  · have hx : Lx (C.store k) [pt "--", .word (C.name (C.P.target k))] := by
      unfold Body.store; rw [h]
      exact dec_lx hi
    exact ⟨Lx.self hx, .inr (.inr ⟨Lx.lexOf hx, un, chk, ty', e⟩)⟩

theorem Body.cfg_ok {C : Body} (hC : C.Ok) : C.cfg.Ok where
  nl := hC.nl
  source := hC.source
  target k _ _ := let ⟨n, h⟩ := hC.target k; ⟨n, _, h⟩
  store k := by
    obtain ⟨h1, h2⟩ := C.store_lx hC k
    refine ⟨h1, ?_⟩
    rw [show C.cfg.throws k = false from rfl, if_neg (by simp), show C.cfg.other k = false from rfl, if_neg (by simp)]
    rcases h2 with h | ⟨h, _⟩ | ⟨h, _⟩
    · exact .inl ⟨_, h, (C.expr_all hC (hC.value k)).2.1⟩
    · exact .inr (.inl h)
    · exact .inr (.inr h)
  cond c := ⟨(C.expr_all hC (hC.cond c)).1, (C.expr_all hC (hC.cond c)).2.1⟩
  val v := ⟨(C.expr_all hC (hC.val v)).1, (C.expr_all hC (hC.val v)).2.1⟩
  ret v := by
    have := C.expr_all hC (e := C.retX v) (hC.ret v)
    rw [← C.ret_text v] at this
    exact ⟨this.1, this.2.1, _, rfl⟩
  cls := hC.cls
  exVar := hC.exVar

theorem Body.expr_reads {C : Body} (hC : C.Ok) {e : X} (h : WellTyped C.src e) (ha : NoCond e) :
    ∃ c, ReadsL (writtenVars C.ci C.src) [] (lexOf (C.expr e)) ⟨none, c⟩ ∧ ∀ env, c.eval env = (trK e none).eval env := by
  have hw := wellTyped_written C.ci C.src e h
  obtain ⟨c, h1, h2⟩ := typed_text (writtenVars C.ci C.src) [] e hw ha
  refine ⟨c, expr_readsL (V := nameE) (fun _ => atomic_atom _) ha (C.expr_all hC h).2.2 ?_, h2.2⟩
  unfold readX
  rw [calls_none _ [] nameE _ _ (fun _ _ => rfl) e (noUse_typed _ e hw), h1]
  rfl

/-! ## The meaning of the pieces -/

theorem wrap_twice (T : Ty) (v : Int) : T.wrap (T.wrap v) = T.wrap v := by
  cases T <;> simp only [IntVal.Ty.wrap, wrapI8, wrapU8, wrapI16, wrapU16, wrapI32, wrapU32, wrapI64, wrapU64] <;> omega

/-- The conversion written in a `return` changes nothing. -/
theorem ret_value (R : Ty) (x : X) (c : CX) (s : Nat → Int) (h : c.eval s = (trK (.conv (typeFor R x) false false x) none).eval s) :
    (c.eval s >>= fun v => (.ok (R.wrap v) : Res Int)) = cppStore s R x := by
  rw [h]
  show ((trK x none).eval s >>= fun v => (.ok ((typeFor R x).wrap v) : Res Int)) >>= _ = (trK x none).eval s >>= _
  cases x with
  | var ty k =>
    show Res.ok (R.wrap (ty.wrap (ty.wrap (s k)))) = Res.ok (R.wrap (ty.wrap (s k)))
    rw [wrap_twice]
  | _ =>
    simp only [typeFor]
    cases (trK _ none).eval s with
    | ub => rfl
    | throw e => rfl
    | ok v => show Res.ok (R.wrap (R.wrap v)) = Res.ok (R.wrap v); rw [wrap_twice]

theorem Body.reads_item {C : Body} (hC : C.Ok) (hP : C.P.Good) (classes : WStr → Exc → Bool) (hcl : ∀ h x, C.P.catches h x = classes (written C.ci (C.cls h)) x) (i : Item) (hi : GoodItem i) :
    ∃ p, ReadPiece (writtenVars C.ci C.src) [] (rawOf C.cfg i) p ∧ Means C.P.cpp (meaning classes C.P.retType) i p := by
  by_cases hd : Depends i
  case neg =>
    obtain ⟨p, h1, h2⟩ := reads_plain C.cfg [] i hi hd
    exact ⟨p, h1, h2 _ _ _⟩
  cases i with
  | text k =>
    obtain ⟨n, hn⟩ := hC.target k
    have hv : (writtenVars C.ci C.src)[C.P.target k]? = some (C.name (C.P.target k), C.P.type k) := by
      unfold writtenVars Body.name
      rw [List.getElem?_map, hn]; rfl
    have fin : ∀ c : CX, (∀ env, c.eval env = (trK (C.P.value k) none).eval env) → Means C.P.cpp (meaning classes C.P.retType) (.text k) (.asg (C.P.target k) (C.P.type k) ⟨none, c⟩) := by
      intro c hc ps j hj
      refine .text ?_
      funext s
      show assign s _ (cppStore s _ _) = (match ps[j]? with | some (.asg k ty ⟨none, c⟩) => assign s k (c.eval s >>= fun v => .ok (ty.wrap v)) | _ => noPiece s)
      rw [hj]
      simp only [hc]
      rfl
    have same : ∀ {un chk ty' o}, C.P.value k = .bin (.arith o) un chk (.var ty' (C.P.target k)) (.i4 1) → ty' = C.P.type k := by
      intro un chk ty' o e
      have := hC.value k
      rw [e] at this
      obtain ⟨⟨m, hm⟩, _⟩ := this
      rw [hn, Option.some.injEq] at hm
      exact (Prod.mk.inj hm).2.symm
    rcases (C.store_lx hC k).2 with h | ⟨h, un, chk, ty', e⟩ | ⟨h, un, chk, ty', e⟩
    · obtain ⟨c, h1, h2⟩ := C.expr_reads hC (hC.value k) (agree_noCond _ (hP.value k).1)
      exact ⟨.asg (C.P.target k) (C.P.type k) ⟨none, c⟩, ⟨_, hv, .inl ⟨_, h, h1⟩⟩, fin c h2⟩
    · refine ⟨.asg (C.P.target k) (C.P.type k) ⟨none, .arith .add (.var (C.P.type k) (C.P.target k)) (.lit 1)⟩, ⟨_, hv, .inr (.inl ⟨h, rfl⟩)⟩, fin _ fun env => ?_⟩
      rw [e, same e]; rfl
    · refine ⟨.asg (C.P.target k) (C.P.type k) ⟨none, .arith .sub (.var (C.P.type k) (C.P.target k)) (.lit 1)⟩, ⟨_, hv, .inr (.inr ⟨h, rfl⟩)⟩, fin _ fun env => ?_⟩
      rw [e, same e]; rfl
  | ifHead c =>
    obtain ⟨x, h1, h2⟩ := C.expr_reads hC (hC.cond c) (agree_noCond _ (hP.cond c).1)
    refine ⟨.ifP ⟨none, x⟩, h1, fun ps j hj => .ifHead ?_⟩
    funext s
    show look s (cppTest s _) = (match ps[j]? with | some (.ifP ⟨none, c⟩) => look s (c.eval s >>= fun v => .ok (decide (v ≠ 0))) | _ => noPiece s)
    rw [hj]
    simp only [h2]
    have : trTest (C.P.cond c) = trK (C.P.cond c) none := by
      have := (hP.cond c).2.1
      cases hx : C.P.cond c <;> first | rfl | (rw [hx] at this; cases this)
    unfold cppTest
    rw [this]
  | switchHead v =>
    obtain ⟨x, h1, h2⟩ := C.expr_reads hC (hC.val v) (agree_noCond _ (hP.val v).1)
    refine ⟨.switchP ⟨none, x⟩, h1, fun ps j hj => .switchHead ?_⟩
    funext s
    show look s _ = (match ps[j]? with | some (.switchP ⟨none, c⟩) => look s (c.eval s) | _ => noPiece s)
    rw [hj]
    simp only [h2]
  | ret t v =>
    cases v with
    | none => exact hd.elim
    | some v =>
      obtain ⟨x, h1, h2⟩ := C.expr_reads hC (e := C.retX v) (hC.ret v) (agree_noCond (C.P.ret v) (hP.ret v).1)
      rw [← C.ret_text v] at h1
      refine ⟨.ret (some ⟨none, x⟩), ⟨?_, h1⟩, fun ps j hj => .retSome ?_⟩
      · intro h0
        obtain ⟨_, _, e, _⟩ := h1
        have e1 := (C.expr_all hC (e := C.retX v) (hC.ret v)).2.2
        rw [← C.ret_text v, show lexOf (C.ret v) = [] from h0] at e1
        cases e1
      · funext s
        show look s _ = (match ps[j]? with | some (.ret (some ⟨none, c⟩)) => look s (c.eval s >>= fun v => .ok (C.P.retType.wrap v)) | _ => noPiece s)
        rw [hj]
        simp only []
        rw [ret_value _ _ _ _ (h2 s)]
  | catchHead h =>
    refine ⟨_, reads_catch (C.cfg_ok hC) [] h, fun ps j hj => .catchHead ?_ rfl⟩
    funext x
    show C.P.handles h x = (match ps[j]?, x with | some (.catchP T), .exc x => classes T x | _, _ => false)
    rw [hj]
    cases x with
    | exc x => exact hcl h x
    | undefined => rfl
  | _ => exact hd.elim

/-! ## C156 -/

/-- **C156** (partial: the methods of C149, with all variables declared at the start): the characters written for the body of a method are, for a C++ compiler, one function body; it returns or ends
as the method does, with the same value or exception, and leaves the same values in the variables. -/
theorem C156_method_partial (C : Body) (hC : C.Ok) (hP : C.P.Good) (classes : WStr → Exc → Bool) (hcl : ∀ h x, C.P.catches h x = classes (written C.ci (C.cls h)) x)
    (params lbl : Nat) (b r : IL) (hs : Shape .blocks (.bcons lbl b r)) (hin : Innermost C.main [] (.bcons lbl b r)) (hid : (C.main :: ids (.bcons lbl b r)).Nodup)
    (hb : ∀ l ∈ branches (.bcons lbl b r), ∀ x, (l, x) ∈ visited (.bcons lbl b r) → ¬ LoneLeave x)
    (hnum : C.src.drop params = news C.cfg (stores b) ((C.src.take params).map (·.1))) (fs : Fmt.St) :
    C.cfg.method params (.bcons lbl b r) fs = .throw .argumentOutOfRange ∨
    ∃ t ps body, C.cfg.method params (.bcons lbl b r) fs = .ok t ∧ ReadsBody (writtenVars C.ci (C.src.take params)) t ps body ∧
      (∀ ps' b', ReadsBody (writtenVars C.ci (C.src.take params)) t ps' b' → ps' = ps ∧ b' = body) ∧
      ∀ (n : Nat) (s : Env), runIL C.P.source C.main (.bcons lbl b r) n s ≠ .stuck → (∀ s', runIL C.P.stopped C.main (.bcons lbl b r) n s ≠ .uncaught .undefined s') →
        runBody classes C.P.retType ps body n s = runIL C.P.source C.main (.bcons lbl b r) n s := by
  have hread := method_read (C.cfg_ok hC) (C.reads_item hC hP classes hcl) params lbl b r hs hnum fs
  rcases hread with h | ⟨t, ps, ht, h2, h3⟩
  · exact .inl h
  · right
    obtain ⟨body0, g1, g2, _, g4⟩ := C149_method_partial C.P hP C.main (.bcons lbl b r) hs hin hid hb
    rw [show emitMain C.cfg.main false (.bcons lbl b r) = body0.flat from g2.symm] at h2
    obtain ⟨body, f1, f2, f3⟩ := read_runs g1 h2
    refine ⟨t, ps, body, ht, h3 body f1 f2, fun ps' b' h' => ReadsBody.unique (h3 body f1 f2) h', fun n s hst hst' => ?_⟩
    unfold runBody
    rw [← f3]
    exact g4 n s hst hst'

/-! ## Examples -/

/-- `long F(long acc, int I)` with the body of MethodProps. -/
def facBody : Body where
  ci := Fmt.asciiInfo
  nl := [13, 10]
  main := 9
  src := [(w "acc", .int64), (w "I", .int32)]
  P := facPieces
  cls _ := w "Exception"
  exVar _ := w "e"

theorem facBody_ok : facBody.Ok where
  nl := .inr rfl
  source := ⟨by decide, by decide, by decide⟩
  target k := by by_cases h : k = 3 <;> simp [facBody, facPieces, h]
  value k := by by_cases h : k = 3 <;> simp [facBody, facPieces, h, WellTyped, I32]
  cond _ := by simp [facBody, facPieces, WellTyped, I32]
  val _ := by simp [facBody, facPieces, WellTyped, I32]
  ret _ := by simp [facBody, facPieces, WellTyped]
  cls _ := show CppLex.isIdent (w "Exception") = true ∧ w "Exception" ≠ w "this" ∧ w "Exception" ≠ w "Void" by decide
  exVar _ := show CppLex.isIdent (w "e") = true ∧ w "e" ≠ w "this" ∧ w "e" ≠ w "Void" ∧ w "e" ∉ [w "acc", w "I"] by decide

/-- What it is written from. -/
abbrev facCfg : Cfg := facBody.cfg

/-- The characters, if there are any. -/
def chars : Res WStr → WStr
  | .ok t => t
  | _ => []

/-- The characters of the body when both variables are parameters, and when both are declared in it. -/
theorem fac_text : chars (facCfg.method 2 facMethod { Fmt.initial with onNewline := true }) =
    w "{\r\nIL_0000:\r\n\t\r\n\t{\r\nIL_0005:\r\n\t\tif (((I) > 1))\r\n\t\t{\r\n\t\t\tx_acc = (x_acc * ((Int64)I));\r\n\t\t\t--I;\r\n\t\t}\r\n\t\telse \r\n\t\t{\r\n\t\t\tgoto leaveBlock2;\r\n\t\t}\r\n\r\n\t\tgoto IL_0005;\r\n\t}\r\nleaveBlock2:\r\n\r\n\treturn((Int64)x_acc);\r\n}\r\n" := by
  decide +kernel

example : (chars (facCfg.method 0 facMethod { Fmt.initial with onNewline := true })).take 42 = w "{\r\nIL_0000:\r\n\tInt64 x_acc;\r\n\tInt32 I;\r\n\t\r\n" := by decide +kernel

/-- 15! from the characters. -/
example : ∃ t ps body, facCfg.method 2 facMethod { Fmt.initial with onNewline := true } = .ok t ∧ ReadsBody [(w "x_acc", .int64), (w "I", .int32)] t ps body ∧
    result (runBody (fun _ _ => false) .int64 ps body 20 facStart) = some (1307674368000, 1) := by
  have := C156_method_partial facBody facBody_ok fac_good (fun _ _ => false) (fun _ _ => rfl) 2 0 _ _ fac_flow.1 fac_flow.2.1 fac_flow.2.2.1 fac_flow.2.2.2 (by decide +kernel)
    { Fmt.initial with onNewline := true }
  rcases this with h | ⟨t, ps, body, h1, h2, _, h4⟩
  · have e := fac_text
    rw [show facCfg.method 2 facMethod _ = _ from h] at e
    have := congrArg List.length e
    exact absurd this (by decide +kernel)
  · refine ⟨t, ps, body, h1, ?_, ?_⟩
    · have e : writtenVars facBody.ci (facBody.src.take 2) = [(w "x_acc", .int64), (w "I", .int32)] := by decide +kernel
      rw [e] at h2; exact h2
    · have h5 := h4 20 facStart ?_ ?_
      · show result (runBody _ facBody.P.retType ps body 20 facStart) = _
        rw [h5]
        show result (runIL facPieces.source 9 facMethod 20 facStart) = _
        decide +kernel
      · intro h
        have : isStuck (runIL facPieces.source 9 facMethod 20 facStart) = false := by decide +kernel
        rw [show runIL facPieces.source 9 facMethod 20 facStart = _ from h] at this; cases this
      · intro s' h
        have : undef (runIL facPieces.stopped 9 facMethod 20 facStart) = false := by decide +kernel
        rw [show runIL facPieces.stopped 9 facMethod 20 facStart = _ from h] at this; cases this

/-- The hypothesis on the variables when none of them is a parameter. -/
example : facCfg.src.drop 0 = news facCfg (stores facMethod) ((facCfg.src.take 0).map (·.1)) := by decide +kernel

end Verif.Text
