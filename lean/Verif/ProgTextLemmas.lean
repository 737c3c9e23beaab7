import Verif.ProgText
import Verif.CppProgRead
import Verif.StmtTextProps
import Verif.ProgramProps
/-!
# Lemmas for C173: expressions with calls, as they are written in the methods of a program
-/
namespace Verif.Text
open Cpp Sem Read Stmt
open Verif.Method (Env)
open Verif.Program (Calls Storable Testable Switchable)
open Verif.IntVal (Ty)

/-! ## Programs -/

/-- Number `k` is a variable of method `m` or a static field, of the type. -/
def PText.Var (C : PText) (m : Nat) (ty : Ty) (k : Nat) : Prop := (∃ n, (C.src m)[k]? = some (n, ty)) ∨ ∃ f ∈ C.fields, f.place = k ∧ f.ty = ty

/-- The expressions C173 is about: the variables are those of the method and static fields; there may be one call, of a method of the program that returns a value, with one argument for each parameter; the number that
stands for its value is the first that is no variable, and it is evaluated always, once, and before anything that can raise an exception or reads a static field. -/
def PText.PieceOk (C : PText) (m : Nat) (p : Program.Piece) : Prop :=
  match p.call with
  | none => Typed (C.Var m) p.expr
  | some c => c.callee < C.count ∧ C.void c.callee = false ∧ c.result = (C.src m).length ∧ c.args.length = (C.P.meth c.callee).params.length ∧ (∀ e ∈ c.args, Typed (C.Var m) e) ∧
      Typed (fun ty k => C.Var m ty k ∨ (k = (C.src m).length ∧ ty = (C.P.meth c.callee).retType)) p.expr ∧ first (C.src m).length p.expr = true

theorem heads_get (C : PText) {m : Nat} (h : m < C.count) : ((List.range C.count).map C.head)[m]? = some (C.head m) := by
  rw [List.getElem?_map, List.getElem?_range h]
  rfl

theorem funs_get (C : PText) {m : Nat} (h : m < C.count) : C.funs[m]? = some (C.head m) := by
  unfold PText.funs
  rw [List.getElem?_append_left (by simpa using h)]
  exact heads_get C h

theorem findIdx_find {α : Type} (p : α → Bool) : ∀ l : List α, l[l.findIdx p]? = l.find? p
  | [] => rfl
  | a :: l => by
    rw [List.findIdx_cons, List.find?_cons]
    cases p a with
    | true => rfl
    | false => simpa using findIdx_find p l

theorem field_find (C : PText) (k : Nat) : C.funs[fieldIx C.funs k]? =
    (C.fields.find? (·.place == k)).map fun f => { name := C.fieldName f, params := [], ret := f.ty, place := some f.place } := by
  unfold fieldIx
  rw [findIdx_find]
  unfold PText.funs PText.fieldFuns
  rw [List.find?_append, List.find?_map, List.find?_map]
  have h1 : (List.range C.count).find? ((fun p : Fun => p.place == some k) ∘ C.head) = none := by
    rw [List.find?_eq_none]
    intro m _
    simp [PText.head]
  rw [h1]
  rfl

theorem written_length (ci : Fmt.CharInfo) (src : List (WStr × Ty)) : (writtenVars ci src).length = src.length := by simp [writtenVars]

theorem PText.name_eq (C : PText) (m : Nat) : C.name m = nameAt (writtenVars C.ci (C.src m)) C.funs := by
  funext k
  unfold PText.name nameAt
  rw [written_length, field_find]
  by_cases h : k < (C.src m).length
  · rw [if_pos h, List.getElem?_eq_getElem h]
    show _ = nameOf _ k
    unfold nameOf writtenVars
    rw [List.getElem?_map, List.getElem?_eq_getElem h]
    rfl
  · rw [if_neg h, List.getElem?_eq_none (by omega), Option.map_map]
    rfl

/-- Static fields have numbers of their own, larger than those of the methods' variables. -/
structure PText.FieldsOk (C : PText) (m : Nat) : Prop where
  nodup : (C.fields.map (·.place)).Nodup
  above : ∀ f ∈ C.fields, (C.src m).length < f.place

theorem find_unique (l : List FieldText) (h : (l.map (·.place)).Nodup) {f : FieldText} (hf : f ∈ l) : l.find? (·.place == f.place) = some f := by
  induction l with
  | nil => cases hf
  | cons g l ih =>
    rw [List.map_cons, List.nodup_cons] at h
    rw [List.find?_cons]
    by_cases e : g.place = f.place
    · rcases List.mem_cons.mp hf with rfl | hf
      · simp
      · exact absurd (List.mem_map.mpr ⟨f, hf, e.symm⟩) h.1
    · rcases List.mem_cons.mp hf with rfl | hf
      · exact absurd rfl e
      · have : (g.place == f.place) = false := by simpa using e
        rw [this]; exact ih h.2 hf

theorem var_known {C : PText} {m : Nat} (hF : C.FieldsOk m) {ty : Ty} {k : Nat} (h : C.Var m ty k) : Known (writtenVars C.ci (C.src m)) C.funs ty k := by
  rcases h with ⟨n, hn⟩ | ⟨f, hf, rfl, rfl⟩
  · exact .inl ⟨written C.ci n, by unfold writtenVars; rw [List.getElem?_map, hn]; rfl⟩
  · refine .inr ⟨by rw [written_length]; exact hF.above f hf, { name := C.fieldName f, params := [], ret := f.ty, place := some f.place }, ?_, rfl, rfl⟩
    rw [field_find, find_unique _ hF.nodup hf]; rfl

theorem walk_base (vars : List (WStr × Ty)) (funs : List Fun) (k : Nat) (b : Bool) (d : Nat) : walkT d (Expr.emitB b (baseE vars funs k)) = some d := by
  unfold baseE
  split
  · exact walk_name k b d
  · rfl


/-! ## Trees and tokens of calls -/

theorem walk_args {V : Nat → Expr.E} (hV : ∀ k b d, walkT d (Expr.emitB b (V k)) = some d) (N : Nat) : ∀ (tys : List Ty) (es : List X) (b : Bool) (d : Nat), walkT d (Expr.emitB b (argsE V N tys es)) = some d
  | [], es, b, d => by cases es <;> rfl
  | _ :: _, [], b, d => rfl
  | ty :: tys, e :: es, b, d => by
    have ih := walk_args hV N tys es false
    simp only [argsE, Expr.emitB, List.cons_append, walkT, if_true, reduceCtorEq, if_false, Nat.add_one_ne_zero, Nat.add_sub_cancel]
    rw [walkT_append _ _ _ _ (walkT_emit V hV N e false _)]
    simp only [walkT, if_true, reduceCtorEq, if_false, Nat.add_one_ne_zero, Nat.add_sub_cancel]
    split
    · rfl
    · simp only [walkT, reduceCtorEq, if_false]
      exact ih d

theorem walk_call (vars : List (WStr × Ty)) (funs : List Fun) (f : Nat) (tys : List Ty) (es : List X) (b : Bool) (d : Nat) :
    walkT d (Expr.emitB b (callE vars funs f tys es)) = some d := by
  simp only [callE, Expr.emitB, List.cons_append, walkT, if_true, reduceCtorEq, if_false]
  rw [walkT_append _ _ _ _ (walk_args (walk_base vars funs) _ _ _ false _)]
  simp [walkT]

theorem fun_at {vars : List (WStr × Ty)} {funs : List Fun} {f : Nat} {p : Fun} (hp : funs[f]? = some p) (hv : p.void = false) (hl : p.place = none) :
    (entities vars funs)[library.length + vars.length + f]? = some (p.name, .func p.params p.ret f) := by
  rw [entities_fun vars funs f p hp]
  unfold Fun.entity
  rw [hl, hv]
  rfl

theorem not_divide {vars : List (WStr × Ty)} {funs : List Fun} {f : Nat} {p : Fun} (hp : funs[f]? = some p) (hv : p.void = false) (hl : p.place = none) : isDivide (entities vars funs) (funPos vars f) = false := by
  unfold isDivide funPos
  rw [fun_at hp hv hl]

theorem callX_fun {vars : List (WStr × Ty)} {funs : List Fun} {f : Nat} {p : Fun} (hp : funs[f]? = some p) (hv : p.void = false) (hl : p.place = none) : callX (entities vars funs) (funPos vars f) = some (.var p.ret vars.length) := by
  unfold callX funPos
  rw [fun_at hp hv hl]
  simp only [slotOf_entities]

theorem typed_call {vars : List (WStr × Ty)} {funs : List Fun} {f : Nat} {p : Fun} (hp : funs[f]? = some p) (hv : p.void = false) (hl : p.place = none) (tys : List Ty) (es : List X) :
    typed (entities vars funs) (Expr.tree (callE vars funs f tys es)) = some (.var p.ret vars.length) := by
  simp only [callE, Expr.tree]
  generalize Expr.tree (argsE (baseE vars funs) (entities vars funs).length tys es) = t
  have key : ∀ t, typed (entities vars funs) (.call (.id (funPos vars f)) t) = callX (entities vars funs) (funPos vars f) := by
    intro t
    cases t with
    | acons a r =>
      cases r with
      | acons b r =>
        cases r with
        | anil => simp only [typed]; rw [not_divide hp hv hl, if_neg (by simp)]
        | _ => simp only [typed]
      | _ => simp only [typed]
    | _ => simp only [typed]
  rw [key]
  exact callX_fun hp hv hl

theorem calls_call {vars : List (WStr × Ty)} {funs : List Fun} {f : Nat} {p : Fun} (hp : funs[f]? = some p) (hl : p.place = none) (tys : List Ty) (es : List X) :
    callsIn (entities vars funs) (Expr.tree (callE vars funs f tys es)) = [(f, p.params, Expr.tree (argsE (baseE vars funs) (entities vars funs).length tys es))] := by
  simp only [callE, Expr.tree, callsIn, funPos]
  rw [entities_fun vars funs f p hp]
  unfold Fun.entity
  rw [hl]
  cases p.void <;> rfl

theorem funcOf_fun {vars : List (WStr × Ty)} {funs : List Fun} {f : Nat} {p : Fun} (hp : funs[f]? = some p) (hl : p.place = none) :
    funcOf (entities vars funs) (funPos vars f) = some (f, p.params) := by
  unfold funcOf funPos
  rw [entities_fun vars funs f p hp]
  unfold Fun.entity
  rw [hl]
  cases p.void <;> rfl

/-! ## Arguments -/

theorem args_values (s : Env) : ∀ (tys : List Ty) (es : List X) (cs : List CX), tys.length = es.length → cs.length = es.length →
    (∀ (i : Nat) ty e c, tys[i]? = some ty → es[i]? = some e → cs[i]? = some c → ∃ c', c = .cast ty c' ∧ Same c' (trK e none)) →
    argValues s tys cs = Program.evalArgs Program.cpp s tys es
  | [], es, cs, _, _, _ => by simp [argValues, Program.evalArgs]
  | _ :: _, [], _, h, _, _ => by simp at h
  | _ :: _, _ :: _, [], _, h, _ => by simp at h
  | ty :: tys, e :: es, c :: cs, h1, h2, h => by
    have ih := args_values s tys es cs (by simpa using h1) (by simpa using h2) fun i ty e c g1 g2 g3 => h (i + 1) ty e c (by simpa using g1) (by simpa using g2) (by simpa using g3)
    obtain ⟨c', rfl, hs⟩ := h 0 ty e c rfl rfl rfl
    show ((c'.eval s >>= fun v => (.ok (ty.wrap v) : Res Int)) >>= fun v => argValues s tys cs >>= fun vs => .ok (ty.wrap v :: vs)) =
      ((trK e none).eval s >>= fun v => (.ok (ty.wrap v) : Res Int)) >>= fun v => Program.evalArgs Program.cpp s tys es >>= fun vs => .ok (v :: vs)
    rw [hs.2 s, ih]
    cases (trK e none).eval s with
    | ub => rfl
    | throw x => rfl
    | ok v =>
      show (Program.evalArgs Program.cpp s tys es >>= fun vs => Res.ok (ty.wrap (ty.wrap v) :: vs)) = Program.evalArgs Program.cpp s tys es >>= fun vs => Res.ok (ty.wrap v :: vs)
      rw [wrap_twice]

/-! ## Pieces -/

/-- What the text of a piece is. -/
structure PText.PieceRead (C : PText) (m : Nat) (p : Program.Piece) : Prop where
  lx : Lx (C.piece m p) (lexOf (C.piece m p))
  bal : Bal (lexOf (C.piece m p))
  ne : lexOf (C.piece m p) ≠ []
  reads : ∃ r, ReadsL (writtenVars C.ci (C.src m)) C.funs (lexOf (C.piece m p)) r ∧
    ∀ (calls calls' : Calls), (∀ f, f < C.count → calls f = calls' f) → ∀ {α : Type} (use : Int → α) (s : Env),
      r.run C.funs calls' use s = C.P.piece Program.cpp calls p (fun s e => (trK e none).eval s >>= fun v => .ok (use v)) s

theorem emit_ne (V : Nat → Expr.E) (hV : ∀ k, Expr.emitB false (V k) ≠ []) (N : Nat) (e : X) : Expr.emitB false (toE V N e) ≠ [] := by
  have con : ∀ x, Expr.emitB false (constE N x) ≠ [] := by
    intro x
    rcases constE_cases N x with ⟨k, e⟩ | ⟨k, e⟩ <;> rw [e] <;> simp [Expr.emitB]
  cases e with
  | var ty k => exact hV k
  | i4 n => exact con n
  | i8 n => exact con n
  | bin o un chk l r => cases o <;> simp [toE, Expr.emitB]
  | shift o un l r => simp [toE, Expr.emitB]
  | comp o un l r => simp [toE, Expr.emitB]
  | bitNot e => simp [toE, Expr.emitB]
  | conv ty chk un e => simp [toE, Expr.emitB, Expr.castToks]
  | ite c t f => simp [toE, Expr.emitB]

theorem resolve_ne {ents : List (WStr × Entity)} {ls : List Lexeme} {ts : List Tok} (h : resolve ents ls = some ts) (hne : ts ≠ []) : ls ≠ [] := by
  rintro rfl
  have : resolve ents [] = some [] := rfl
  rw [this, Option.some.injEq] at h
  exact hne h.symm

theorem piece_reads (C : PText) {m : Nat} (hs : Source (C.src m)) (hf : Funs C.funs) (hF : C.FieldsOk m) {p : Program.Piece} (h : C.PieceOk m p) (hn : NoCond p.expr)
    (ha : ∀ c, p.call = some c → ∀ e ∈ c.args, NoCond e) : C.PieceRead m p := by
  have hsc := hs.scope C.ci
  unfold PText.PieceOk at h
  cases hc : p.call with
  | none =>
    rw [hc] at h
    have ht : C.piece m p = text (nameAt (writtenVars C.ci (C.src m)) C.funs) p.expr := by
      unfold PText.piece
      rw [hc, ← C.name_eq m]
      rfl
    have hw := Typed.mono (fun _ _ hk => var_known hF hk) p.expr h
    obtain ⟨a1, a2, a3⟩ := expr_all (V := baseE (writtenVars C.ci (C.src m)) C.funs) (Typed.mono (fun _ _ hk => tx_base hsc hf hk) p.expr hw) (walk_base _ _)
    obtain ⟨c, c1, c2⟩ := typed_known (writtenVars C.ci (C.src m)) C.funs p.expr hw hn
    rw [← ht] at a1 a2
    refine ⟨a1, a2, ?_, ⟨none, c⟩, ?_, ?_⟩
    · rw [ht]; exact resolve_ne a3 (emit_ne _ (fun k => by obtain ⟨j, e⟩ := baseE_atom (writtenVars C.ci (C.src m)) C.funs k; rw [e]; simp [Expr.emitB]) _ _)
    · rw [ht]
      refine expr_readsL (atomic_base _ _) hn a3 ?_
      unfold readX
      rw [calls_none _ C.funs _ _ _ (fun k _ => calls_base _ _ _ k) p.expr (noUse_known _ _ _ hw)]
      show Option.map _ (typed _ _) = _
      rw [c1]
      rfl
    · intro calls calls' _ α use s
      unfold RX.run Program.Prog.piece
      rw [hc]
      simp only [c2.2 s]
  | some cl =>
    rw [hc] at h
    obtain ⟨h1, h0, h2, h3, h4, h5, h6⟩ := h
    have hg := funs_get C h1
    have hlen := written_length C.ci (C.src m)
    have hargs : ∀ e ∈ cl.args, Typed (Known (writtenVars C.ci (C.src m)) C.funs) e ∧ NoCond e := fun e he => ⟨Typed.mono (fun _ _ hk => var_known hF hk) e (h4 e he), ha cl hc e he⟩
    generalize hV : (fun k => if k = (C.src m).length then callE (writtenVars C.ci (C.src m)) C.funs cl.callee (C.P.meth cl.callee).params cl.args else baseE (writtenVars C.ci (C.src m)) C.funs k) = V
    have hVs : V (C.src m).length = callE (writtenVars C.ci (C.src m)) C.funs cl.callee (C.P.meth cl.callee).params cl.args := by rw [← hV]; simp
    have hVn : ∀ k, k ≠ (C.src m).length → V k = baseE (writtenVars C.ci (C.src m)) C.funs k := by intro k hk; rw [← hV]; simp [hk]
    have hat : ∀ k, Atomic (V k) := by
      intro k
      by_cases hk : k = (C.src m).length
      · rw [hk, hVs]; exact atomic_call _ _ _ _ _ fun e he => (hargs e he).2
      · rw [hVn k hk]; exact atomic_base _ _ k
    have hwk : ∀ k b d, walkT d (Expr.emitB b (V k)) = some d := by
      intro k
      by_cases hk : k = (C.src m).length
      · rw [hk, hVs]; exact walk_call _ _ _ _ _
      · rw [hVn k hk]; exact walk_base _ _ k
    have hne : ∀ k, Expr.emitB false (V k) ≠ [] := by
      intro k
      by_cases hk : k = (C.src m).length
      · rw [hk, hVs]; simp [callE, Expr.emitB]
      · rw [hVn k hk]; obtain ⟨j, e⟩ := baseE_atom (writtenVars C.ci (C.src m)) C.funs k; rw [e]; simp [Expr.emitB]
    have split : ∀ ty k, C.Var m ty k ∨ (k = (C.src m).length ∧ ty = (C.P.meth cl.callee).retType) →
        (k ≠ (C.src m).length ∧ Known (writtenVars C.ci (C.src m)) C.funs ty k) ∨ (k = (C.src m).length ∧ ty = (C.P.meth cl.callee).retType) := by
      rintro ty k (hk | hk)
      · left
        have hkn := var_known hF hk
        refine ⟨?_, hkn⟩
        rcases hkn with ⟨n, hn⟩ | ⟨hlt, _⟩
        · have := (List.getElem?_eq_some_iff.mp hn).1
          omega
        · omega
      · exact .inr hk
    have hall := h5
    have hname : C.atom m p.call (C.src m).length = callText (nameAt (writtenVars C.ci (C.src m)) C.funs) (C.fname cl.callee) (C.P.meth cl.callee).params cl.args := by
      rw [hc, ← C.name_eq m]
      show (if (C.src m).length = cl.result then _ else _) = _
      rw [if_pos h2.symm]
    have hname' : ∀ k, k ≠ (C.src m).length → C.atom m p.call k = nameAt (writtenVars C.ci (C.src m)) C.funs k := by
      intro k hk
      rw [hc, ← C.name_eq m]
      show (if k = cl.result then _ else _) = _
      rw [if_neg (by rw [h2]; exact hk)]
    have hT : Typed (fun _ k => ∀ b, Tx (entities (writtenVars C.ci (C.src m)) C.funs) (C.atom m p.call k) (Expr.emitB b (V k))) p.expr := by
      refine Typed.mono (fun ty k hk b => ?_) p.expr hall
      rcases split ty k hk with ⟨hk, hn⟩ | ⟨rfl, rfl⟩
      · rw [hname' k hk, hVn k hk]; exact tx_base hsc hf hn b
      · rw [hname, hVs]
        exact tx_call hsc hf hg cl.args (fun e he => (hargs e he).1) b
    obtain ⟨a1, a2, a3⟩ := expr_all hT hwk
    have hD : Typed (fun ty k => typed (entities (writtenVars C.ci (C.src m)) C.funs) (Expr.tree (V k)) = some (.var ty k)) p.expr := by
      refine Typed.mono (fun ty k hk => ?_) p.expr hall
      rcases split ty k hk with ⟨hk, hn⟩ | ⟨rfl, rfl⟩
      · rw [hVn k hk]; exact typed_base _ _ hn
      · rw [hVs, typed_call hg h0 rfl, hlen]; rfl
    obtain ⟨c, c1, c2, c3⟩ := typed_like _ C.funs V p.expr hD hn
    obtain ⟨cs, d1, d2, d3⟩ := args_read (writtenVars C.ci (C.src m)) C.funs (C.P.meth cl.callee).params cl.args h3.symm hargs
    have hcalls := calls_first (writtenVars C.ci (C.src m)) C.funs V (entities (writtenVars C.ci (C.src m)) C.funs).length (C.src m).length (fun k hk => by rw [hVn k hk]; exact calls_base _ _ _ k) p.expr h6
    rw [hVs, calls_call hg rfl] at hcalls
    refine ⟨a1, a2, resolve_ne a3 (emit_ne V hne _ _), ⟨some ⟨cl.callee, cs, (C.src m).length⟩, c⟩, ?_, ?_⟩
    · refine expr_readsL hat hn a3 ?_
      unfold readX
      rw [hcalls]
      simp only [PText.head, d1, c1, Option.bind_some, slotOf_entities, hlen]
      rw [if_pos (c3.once _ h6)]
    · intro calls calls' hcc α use s
      unfold RX.run Program.Prog.piece
      rw [hc]
      simp only [hg, PText.head]
      rw [args_values s _ _ _ h3.symm d2 d3, hcc cl.callee h1, h2]
      simp only [c2.2]
      rfl

/-! ## Call statements and stores to static fields -/

/-- `A::f` before something that is no part of a name. -/
theorem scoped_break {a b : WStr} (ha : CppLex.isIdent a = true) (hb : CppLex.isIdent b = true) {c : Nat} (hc : isPart c = false) (rest : WStr) :
    lexS .none (a ++ w "::" ++ b ++ c :: rest) = (lexS .none (c :: rest)).map ([.word a, pt "::", .word b] ++ ·) := by
  have e : a ++ w "::" ++ b ++ c :: rest = a ++ 58 :: (58 :: (b ++ c :: rest)) := by simp [w]
  rw [e, lex_ident_break ha (by decide)]
  have e2 := run_two 58 58 (by decide) (by decide) (b ++ c :: rest)
  rw [show [58, 58] ++ (b ++ c :: rest) = 58 :: 58 :: (b ++ c :: rest) from rfl] at e2
  rw [e2]
  obtain ⟨d, r, hbr, hd, hrr⟩ := ident_parts hb
  have hbrk : lexS (.punct [58, 58]) (b ++ c :: rest) = (lexS .none (b ++ c :: rest)).map ([Lexeme.punct [58, 58]] ++ ·) := by
    rw [hbr, List.cons_append, lex_break (show (St.punct [58, 58]).extends d = false from ?_) (by simp)]
    · rfl
    · have : ∀ c, puncts.contains [58, 58, c] = false := by intro c; simp [puncts, w]
      exact this d
  rw [hbrk, lex_ident_break hb hc, Option.map_map, Option.map_map]
  rfl

theorem scoped_lx {a b : WStr} (ha : CppLex.isIdent a = true) (hb : CppLex.isIdent b = true) {c : Nat} (hc : isPart c = false) {r : WStr} {ls : List Lexeme} (h : Lx (c :: r) ls) :
    Lx (a ++ w "::" ++ b ++ c :: r) (.word a :: pt "::" :: .word b :: ls) := by
  intro rest hr
  have e := scoped_break ha hb hc (r ++ rest)
  have e2 := h rest hr
  rw [List.cons_append] at e2
  rw [List.append_assoc, List.cons_append, e, e2, Option.map_map]
  rfl

theorem bal_tail {x : Lexeme} {l : List Lexeme} (h : Bal (x :: l)) (h1 : isEnd x = false) (h2 : x ≠ pt "(") (h3 : x ≠ pt ")") : Bal l := by
  intro d
  have := h d
  unfold walk at this
  rw [h1] at this
  simpa [h2, h3] using this

/-- What the text of a call is. -/
structure PText.CallRead (C : PText) (m : Nat) (c : Program.Call) : Prop where
  lx : Lx (callText (C.name m) (C.fname c.callee) (C.P.meth c.callee).params c.args) (lexOf (callText (C.name m) (C.fname c.callee) (C.P.meth c.callee).params c.args))
  bal : Bal (lexOf (callText (C.name m) (C.fname c.callee) (C.P.meth c.callee).params c.args))
  parts : ∃ le, lexOf (callText (C.name m) (C.fname c.callee) (C.P.meth c.callee).params c.args) = .word (written C.ci (C.cls c.callee)) :: pt "::" :: .word (C.meth c.callee) :: pt "(" :: le
  reads : ∃ cs, ReadsCall (writtenVars C.ci (C.src m)) C.funs (lexOf (callText (C.name m) (C.fname c.callee) (C.P.meth c.callee).params c.args)) c.callee cs ∧
    ∀ s : Env, argValues s (C.P.meth c.callee).params cs = Program.evalArgs Program.cpp s (C.P.meth c.callee).params c.args

theorem call_reads (C : PText) {m : Nat} (hs : Source (C.src m)) (hf : Funs C.funs) (hF : C.FieldsOk m) {cl : Program.Call} (h1 : cl.callee < C.count)
    (hi : CppLex.isIdent (written C.ci (C.cls cl.callee)) = true ∧ CppLex.isIdent (C.meth cl.callee) = true)
    (h3 : cl.args.length = (C.P.meth cl.callee).params.length) (h4 : ∀ e ∈ cl.args, Typed (C.Var m) e) (hn : ∀ e ∈ cl.args, NoCond e) : C.CallRead m cl := by
  have hsc := hs.scope C.ci
  have hg := funs_get C h1
  have hargs : ∀ e ∈ cl.args, Typed (Known (writtenVars C.ci (C.src m)) C.funs) e ∧ NoCond e := fun e he => ⟨Typed.mono (fun _ _ hk => var_known hF hk) e (h4 e he), hn e he⟩
  have htx := tx_call hsc hf hg cl.args (fun e he => (hargs e he).1)
  obtain ⟨a1, a2, a3⟩ := expr_all (name := fun _ => callText (C.name m) (C.fname cl.callee) (C.P.meth cl.callee).params cl.args)
    (V := fun _ => callE (writtenVars C.ci (C.src m)) C.funs cl.callee (C.P.meth cl.callee).params cl.args) (e := .var .int32 0) (funs := C.funs) (vars := writtenVars C.ci (C.src m))
    (by intro b; have := htx b; rw [← C.name_eq m] at this; exact this) (fun _ => walk_call _ _ _ _ _)
  have a1 : Lx (callText (C.name m) (C.fname cl.callee) (C.P.meth cl.callee).params cl.args) (lexOf (callText (C.name m) (C.fname cl.callee) (C.P.meth cl.callee).params cl.args)) := a1
  have a2 : Bal (lexOf (callText (C.name m) (C.fname cl.callee) (C.P.meth cl.callee).params cl.args)) := a2
  have a3 : resolve (entities (writtenVars C.ci (C.src m)) C.funs) (lexOf (callText (C.name m) (C.fname cl.callee) (C.P.meth cl.callee).params cl.args)) =
    some (Expr.emitB false (callE (writtenVars C.ci (C.src m)) C.funs cl.callee (C.P.meth cl.callee).params cl.args)) := a3
  have hat := atomic_call (writtenVars C.ci (C.src m)) C.funs cl.callee (C.P.meth cl.callee).params cl.args fun e he => (hargs e he).2
  obtain ⟨cs, d1, d2, d3⟩ := args_read (writtenVars C.ci (C.src m)) C.funs (C.P.meth cl.callee).params cl.args h3.symm hargs
  refine ⟨a1, a2, ?_, cs, ⟨_, funPos (writtenVars C.ci (C.src m)) cl.callee, _, _, a3, ?_, funcOf_fun hg rfl, d1⟩, fun s => args_values s _ _ _ h3.symm d2 d3⟩
  · obtain ⟨ls, l1, _⟩ := (ty_args (name := C.name m) (V := baseE (writtenVars C.ci (C.src m)) C.funs) (funs := C.funs) (vars := writtenVars C.ci (C.src m)) (C.P.meth cl.callee).params cl.args
      (fun x hx => Typed.mono (fun _ _ hk b => by have := tx_base hsc hf hk b; rw [← C.name_eq m] at this; exact this) x (hargs x hx).1)).append (ty_rp _)
    have l2 := scoped_lx hi.1 hi.2 (c := 40) (by decide) (ly_lp.append l1).lx
    have e : callText (C.name m) (C.fname cl.callee) (C.P.meth cl.callee).params cl.args =
        written C.ci (C.cls cl.callee) ++ w "::" ++ C.meth cl.callee ++ 40 :: (argsText (C.name m) (C.P.meth cl.callee).params cl.args ++ w ")") := by
      simp [callText, PText.fname, w]
    rw [e]
    exact ⟨ls, Lx.lexOf l2⟩
  · have := Expr.C60_parses_partial _ hat.ok (by rw [hat.level]; decide)
    exact this

/-- The member with this name. -/
theorem find_member {funs : List Fun} (h : (funs.map (·.name)).Nodup) {p : Fun} (hp : p ∈ funs) : funs.find? (fun q => q.name == p.name) = some p := by
  induction funs with
  | nil => cases hp
  | cons g l ih =>
    rw [List.map_cons, List.nodup_cons] at h
    rw [List.find?_cons]
    by_cases e : g.name = p.name
    · rcases List.mem_cons.mp hp with rfl | hp
      · simp
      · exact absurd (List.mem_map.mpr ⟨p, hp, e.symm⟩) h.1
    · rcases List.mem_cons.mp hp with rfl | hp
      · exact absurd rfl e
      · have : (g.name == p.name) = false := by simpa using e
        rw [this]; exact ih h.2 hp

/-! ## What a method returns -/

/-- The values of the `return` statements. -/
def rets : IL → List (Option Nat)
  | .leave _ e v => if e = 0 then [v] else []
  | .ite _ t f => rets t ++ rets f
  | .block b => rets b
  | .container _ bs => rets bs
  | .tryCatch _ _ f _ hs => rets f ++ rets hs
  | .switch _ ss => rets ss
  | .cons a r => rets a ++ rets r
  | .bcons _ b r => rets b ++ rets r
  | .hcons _ _ f _ n => rets f ++ rets n
  | .scons _ b r => rets b ++ rets r
  | _ => []

theorem no_ret_semiIf (t : Nat) (v : Option Nat) (x : IL) : .ret t v ∉ semiIf x := by cases x <;> simp [semiIf]

theorem no_ret_semiSec (t : Nat) (v : Option Nat) (x : IL) : .ret t v ∉ semiSec x := by unfold semiSec; split <;> simp

theorem no_ret_label (t : Nat) (v : Option Nat) (l : Nat) (x : IL) : .ret t v ∉ Stmt.blockLabel l x := by
  unfold Stmt.blockLabel
  split
  · simp
  · split <;> simp
  · simp

theorem no_ret_case (t : Nat) (v : Option Nat) (l : LongSet) : .ret t v ≠ Stmt.caseHead l := by
  cases l with
  | nil => simp [Stmt.caseHead]
  | cons p r => unfold Stmt.caseHead; simp only []; split <;> simp

theorem rets_emit (main : Nat) (inj : Bool) (t : Nat) (v : Option Nat) (il : IL) : ∀ (stk : List Nat) (st : Stmt.St), .ret t v ∈ (emit main inj il stk st).1 → v ∈ rets il := by
  induction il with
  | leave a e u =>
    intro stk st h
    simp only [emit] at h
    simp only [rets]
    by_cases he : e = 0 <;> simp [he] at h ⊢
    exact h.2
  | ite c a b iha ihb =>
    intro stk st h
    simp only [emit] at h
    simp only [rets, List.mem_append]
    by_cases hf : b = .nop
    · simp [hf] at h
      exact .inl (iha _ _ h)
    · simp [hf, no_ret_semiIf] at h
      rcases h with h | h
      · exact .inl (iha _ _ h)
      · exact .inr (ihb _ _ h)
  | block b ih => intro stk st h; exact ih _ _ h
  | container id b ih =>
    intro stk st h
    simp only [emit, List.mem_append] at h
    rcases h with h | h
    · exact ih _ _ h
    · split at h <;> simp at h
  | tryCatch tid lbl f r hs ihf ihr ihh =>
    intro stk st h
    simp only [emit] at h
    simp [no_ret_label] at h
    simp only [rets, List.mem_append]
    rcases h with h | h
    · exact .inl (ihf _ _ h)
    · exact .inr (ihh _ _ h)
  | switch u ss ih =>
    intro stk st h
    simp only [emit] at h
    simp at h
    exact ih _ _ h
  | cons a r iha ihr =>
    intro stk st h
    simp only [emit] at h
    simp only [rets, List.mem_append]
    split at h
    · simp at h
    · simp only [List.mem_append] at h
      rcases h with h | h
      · exact .inl (iha _ _ h)
      · exact .inr (ihr _ _ h)
  | bcons lbl b r ihb ihr =>
    intro stk st h
    simp only [emit] at h
    simp only [rets, List.mem_append]
    simp [no_ret_label] at h
    rcases h with h | h
    · exact .inl (ihb _ _ h)
    · exact .inr (ihr _ _ h)
  | hcons hid lbl f r n ihf ihr ihn =>
    intro stk st h
    simp only [emit] at h
    simp only [rets, List.mem_append]
    simp [no_ret_label] at h
    rcases h with h | h
    · exact .inl (ihf _ _ h)
    · exact .inr (ihn _ _ h)
  | scons l b r ihb ihr =>
    intro stk st h
    simp only [emit] at h
    simp only [rets, List.mem_append]
    simp [no_ret_case, no_ret_semiSec] at h
    rcases h with h | h
    · exact .inl (ihb _ _ h)
    · exact .inr (ihr _ _ h)
  | nop | act _ | silent _ _ | branch _ | nil | bnil | hnil | snil => intro stk st h; simp [emit] at h

end Verif.Text
