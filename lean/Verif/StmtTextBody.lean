import Verif.StmtTextRead
/-!
# Lemmas for C156 and C173: the characters written for the body of a method are, for a C++ compiler, one function body
-/
namespace Verif.Text
open Cpp Sem Read Stmt Method
open Verif.IntVal (Ty)

/-! ## A text is at most one function body -/

theorem readsL_unique {vars : List (WStr × Ty)} {funs : List Fun} {ls : List Lexeme} {a b : RX} (h1 : ReadsL vars funs ls a) (h2 : ReadsL vars funs ls b) : a = b := by
  obtain ⟨ts, t, e2, e3, e4⟩ := h1
  obtain ⟨ts', t', f2, f3, f4⟩ := h2
  rw [e2, Option.some.injEq] at f2
  subst f2
  rw [e3.unique f3, f4, Option.some.injEq] at e4
  exact e4.symm

theorem nodup_index {l : List (WStr × Ty)} (h : (l.map (·.1)).Nodup) {i j : Nat} {n : WStr} {a b : Ty} (hi : l[i]? = some (n, a)) (hj : l[j]? = some (n, b)) : i = j ∧ a = b := by
  have hij : i = j := by
    have hi' : (l.map (·.1))[i]? = some n := by rw [List.getElem?_map, hi]; rfl
    have hj' : (l.map (·.1))[j]? = some n := by rw [List.getElem?_map, hj]; rfl
    have hl : i < (l.map (·.1)).length := (List.getElem?_eq_some_iff.mp hi').1
    exact (List.getElem?_inj hl h).mp (hi'.trans hj'.symm)
  subst hij
  rw [hi, Option.some.injEq] at hj
  exact ⟨rfl, (Prod.mk.inj hj).2⟩

theorem readPiece_unique {vars : List (WStr × Ty)} {funs : List Fun} (hd : (vars.map (·.1)).Nodup) {p : Piece} {a b : RP} (h1 : ReadPiece vars funs p a) (h2 : ReadPiece vars funs p b) : a = b := by
  cases p with
  | opn | cls | semi | elseP | tryP | defaultP => cases a <;> cases b <;> first | rfl | exact False.elim h1 | exact False.elim h2
  | ifP ls =>
    cases a <;> try exact False.elim h1
    cases b <;> try exact False.elim h2
    rw [readsL_unique h1 h2]
  | switchP ls =>
    cases a <;> try exact False.elim h1
    cases b <;> try exact False.elim h2
    rw [readsL_unique h1 h2]
  | catchP ls =>
    cases a <;> try exact False.elim h1
    cases b <;> try exact False.elim h2
    obtain ⟨v, e, _⟩ := h1
    obtain ⟨v', e', _⟩ := h2
    rw [e] at e'
    cases e'
    rfl
  | caseP ls =>
    cases a <;> try exact False.elim h1
    cases b <;> try exact False.elim h2
    obtain ⟨c, e, g⟩ := h1
    obtain ⟨c', e', g'⟩ := h2
    have hcc := congrArg RX.expr (readsL_unique e e')
    simp only at hcc
    rw [hcc] at g
    have := (g fun _ => 0).symm.trans (g' fun _ => 0)
    rw [Res.ok.injEq] at this
    rw [this]
  | retP ls =>
    cases a <;> try exact False.elim h1
    cases b <;> try exact False.elim h2
    rename_i x y
    cases x <;> cases y
    · rfl
    · exact absurd h1 h2.1
    · exact absurd h2 h1.1
    · rw [readsL_unique h1.2 h2.2]
  | throwP ls =>
    cases a <;> try exact False.elim h1
    cases b <;> try exact False.elim h2
    have := h1.1.symm.trans h2.1
    unfold thrownOf at this
    cases this
    rfl
  | exprP ls =>
    have noF : ∀ {k ty c k' ty' c'}, ReadPiece vars funs (.exprP ls) (.asg k ty c) → ¬ ReadPiece vars funs (.exprP ls) (.asgF k' ty' c') := by
      rintro k ty c k' ty' c' ⟨n, e, g⟩ ⟨x, y, le', q, rfl, _⟩
      rcases g with ⟨le, g, _⟩ | ⟨g, _⟩ | ⟨g, _⟩ <;> simp [pt, w] at g
    have noC : ∀ {k ty c f as}, ReadPiece vars funs (.exprP ls) (.asg k ty c) → ¬ ReadPiece vars funs (.exprP ls) (.callP f as) := by
      rintro k ty c f as ⟨n, e, g⟩ ⟨⟨x, y, le', rfl⟩, _⟩
      rcases g with ⟨le, g, _⟩ | ⟨g, _⟩ | ⟨g, _⟩ <;> simp [pt, w] at g
    have noFC : ∀ {k ty c f as}, ReadPiece vars funs (.exprP ls) (.asgF k ty c) → ¬ ReadPiece vars funs (.exprP ls) (.callP f as) := by
      rintro k ty c f as ⟨x, y, le, q, g, _⟩ ⟨⟨x', y', le', rfl⟩, _⟩
      simp [pt, w] at g
    cases a <;> try exact False.elim h1
    case asg =>
      cases b <;> try exact False.elim h2
      case asgF => exact absurd h2 (noF h1)
      case callP => exact absurd h2 (noC h1)
      obtain ⟨n, e, g⟩ := h1
      obtain ⟨n', e', g'⟩ := h2
      rcases g with ⟨le, rfl, g⟩ | ⟨rfl, g⟩ | ⟨rfl, g⟩
      · rcases g' with ⟨le', e1, g'⟩ | ⟨e1, g'⟩ | ⟨e1, g'⟩
        · cases e1
          obtain ⟨rfl, rfl⟩ := nodup_index hd e e'
          rw [readsL_unique g g']
        · cases e1
        · cases e1
      · rcases g' with ⟨le', e1, g'⟩ | ⟨e1, g'⟩ | ⟨e1, g'⟩
        · cases e1
        · cases e1
          obtain ⟨rfl, rfl⟩ := nodup_index hd e e'
          rw [g, g']
        · simp [pt, w] at e1
      · rcases g' with ⟨le', e1, g'⟩ | ⟨e1, g'⟩ | ⟨e1, g'⟩
        · cases e1
        · simp [pt, w] at e1
        · cases e1
          obtain ⟨rfl, rfl⟩ := nodup_index hd e e'
          rw [g, g']
    case asgF =>
      cases b <;> try exact False.elim h2
      case asg => exact absurd h1 (noF h2)
      case callP => exact absurd h2 (noFC h1)
      obtain ⟨x, y, le, q, e1, e2, e3, e4, e5⟩ := h1
      obtain ⟨x', y', le', q', f1, f2, f3, f4, f5⟩ := h2
      rw [e1] at f1
      simp only [List.cons.injEq, Lexeme.word.injEq, true_and] at f1
      obtain ⟨rfl, rfl, rfl⟩ := f1
      rw [e2, Option.some.injEq] at f2
      subst f2
      rw [e3, Option.some.injEq] at f3
      subst f3
      rw [← e4, ← f4, readsL_unique e5 f5]
    case callP =>
      cases b <;> try exact False.elim h2
      case asg => exact absurd h1 (noC h2)
      case asgF => exact absurd h1 (noFC h2)
      obtain ⟨_, ts, k, t, ps, e1, e2, e3, e4⟩ := h1
      obtain ⟨_, ts', k', t', ps', f1, f2, f3, f4⟩ := h2
      rw [e1, Option.some.injEq] at f1
      subst f1
      have := e2.unique f2
      cases this
      rw [e3, Option.some.injEq] at f3
      cases f3
      rw [e4, Option.some.injEq] at f4
      rw [f4]
  | gotoP l =>
    cases a <;> try exact False.elim h1
    cases b <;> try exact False.elim h2
    have e1 : l = _ := h1
    have e2 : l = _ := h2
    rw [← e1, ← e2]
  | labelP l =>
    cases a <;> try exact False.elim h1
    cases b <;> try exact False.elim h2
    have e1 : l = _ := h1
    have e2 : l = _ := h2
    rw [← e1, ← e2]

/-- A text is at most one function body. -/
theorem ReadsBody.unique {params : List (WStr × Ty)} {funs : List Fun} {chars : WStr} {ps ps' : List RP} {b b' : CS} (h : ReadsBody params chars ps b funs) (h' : ReadsBody params chars ps' b' funs) :
    ps' = ps ∧ b' = b := by
  obtain ⟨ls, raw, e1, e2, e3, e4, e5, e6⟩ := h
  obtain ⟨ls', raw', f1, f2, f3, f4, f5, f6⟩ := h'
  rw [e1, Option.some.injEq] at f1
  subst f1
  rw [e2, Option.some.injEq] at f2
  subst f2
  have key : ∀ (l : List Piece) (u v : List RP), List.Forall₂ (ReadPiece (params ++ (bodyOf raw).1) funs) l u → List.Forall₂ (ReadPiece (params ++ (bodyOf raw).1) funs) l v → v = u := by
    intro l u v hu
    induction hu generalizing v with
    | nil => intro hv; cases hv; rfl
    | cons h _ ih =>
      intro hv
      cases hv with
      | cons h' hv => rw [readPiece_unique e3 h' h, ih _ hv]
  have := key _ _ _ e4 f4
  subst this
  exact ⟨rfl, C101_one_reading b' b f5 e5 (f6.trans e6.symm)⟩

/-! ## Names as numbers -/

theorem code_inj : ∀ a b : WStr, code a = code b → a = b := by
  have pow : ∀ (a b x y : Nat), 2 ^ a * (2 * x + 1) = 2 ^ b * (2 * y + 1) → a = b ∧ x = y := by
    intro a
    induction a with
    | zero =>
      intro b x y h
      cases b with
      | zero => exact ⟨rfl, by omega⟩
      | succ b =>
        rw [Nat.pow_succ, Nat.mul_comm (2 ^ b) 2, Nat.mul_assoc] at h
        omega
    | succ a ih =>
      intro b x y h
      cases b with
      | zero =>
        rw [Nat.pow_succ, Nat.mul_comm (2 ^ a) 2, Nat.mul_assoc] at h
        omega
      | succ b =>
        rw [Nat.pow_succ, Nat.pow_succ, Nat.mul_comm (2 ^ a) 2, Nat.mul_comm (2 ^ b) 2, Nat.mul_assoc, Nat.mul_assoc] at h
        obtain ⟨h1, h2⟩ := ih b x y (by omega)
        exact ⟨by omega, h2⟩
  have pos : ∀ c r, code (c :: r) ≠ 0 := by
    intro c r h
    have := Nat.mul_pos (Nat.two_pow_pos c) (show 0 < 2 * code r + 1 by omega)
    unfold code at h
    omega
  intro a
  induction a with
  | nil =>
    intro b h
    cases b with
    | nil => rfl
    | cons c r => exact absurd h.symm (pos c r)
  | cons c a ih =>
    intro b h
    cases b with
    | nil => exact absurd h (pos c a)
    | cons d b =>
      obtain ⟨h1, h2⟩ := pow _ _ _ _ h
      rw [h1, ih b h2]

/-- The jumps and labels of the text. -/
def JR (i j : Item) : Prop := (∃ t n, i = .goto t n ∧ j = .jump (code (leaveText n))) ∨ ∃ l, i = .jump l ∧ j = .jump (code (labelText l))
def LR (i j : Item) : Prop := (∃ ow n, i = .leaveLabel ow n ∧ j = .blockLabel (code (leaveText n))) ∨ ∃ l, i = .blockLabel l ∧ j = .blockLabel (code (labelText l))

theorem jump_label (i j l m : Item) (h : JR i j) (g : LR l m) : goesTo i l = goesTo j m := by
  rcases h with ⟨t, n, rfl, rfl⟩ | ⟨x, rfl, rfl⟩ <;> rcases g with ⟨ow, k, rfl, rfl⟩ | ⟨y, rfl, rfl⟩ <;> simp only [goesTo]
  · rw [decide_eq_decide]
    exact ⟨fun e => by rw [e], fun e => leaveText_inj (code_inj _ _ e)⟩
  · symm
    rw [decide_eq_false_iff_not]
    exact fun e => label_ne_leave _ _ (code_inj _ _ e).symm
  · symm
    rw [decide_eq_false_iff_not]
    exact fun e => label_ne_leave _ _ (code_inj _ _ e)
  · rw [decide_eq_decide]
    exact ⟨fun e => by rw [e], fun e => labelText_inj (code_inj _ _ e)⟩

/-! ## The pieces of a body -/

/-- The item and the piece do the same, under the meanings `I` and `mean`. -/
def Means {F : Type} (I : Interp Env F) (mean : List RP → Interp Env F) (i : Item) (p : RP) : Prop :=
  ∀ (ps : List RP) (j : Nat), ps[j]? = some p → IR I (mean ps) JR LR i (p.item j)

theorem case_reads (vars : List (WStr × Ty)) (funs : List Fun) {v : Int} (h : -2 ^ 63 < v ∧ v < 2 ^ 63) : ∃ c, ReadsL vars funs (lexOf (decInt v)) ⟨none, c⟩ ∧ ∀ env, c.eval env = .ok v := by
  have lit : ∀ n : Nat, atomX (entities vars funs) ((entities vars funs).length + n) = some (.lit n) := by
    intro n
    unfold atomX
    rw [List.getElem?_eq_none (by omega)]
    simp only [Nat.add_sub_cancel_left]
  have lexed : ∀ {ts}, Tx (entities vars funs) (decInt v) ts → resolve (entities vars funs) (lexOf (decInt v)) = some ts := by
    intro ts ht
    obtain ⟨ls, h1, h2⟩ := ht.reads
    have : lexOf (decInt v) = ls := by unfold lexOf; rw [h1]; rfl
    rw [this]; exact h2
  by_cases hn : v < 0
  · refine ⟨.arith .sub (.lit 0) (.lit v.natAbs), ⟨[.op .sub, .id ((entities vars funs).length + v.natAbs)], .neg (.id ((entities vars funs).length + v.natAbs)), lexed ?_,
      Expr.C60_parses_partial (.negLit ((entities vars funs).length + v.natAbs)) trivial (le2 (.inl rfl)), ?_⟩, fun env => ?_⟩
    · unfold decInt
      rw [if_pos hn]
      exact tx_neg _ _ (by omega)
    · have : typed (entities vars funs) (.neg (.id ((entities vars funs).length + v.natAbs))) = some (.arith .sub (.lit 0) (.lit v.natAbs)) := by
        show (atomX _ _).map _ = _
        rw [lit]; rfl
      simp only [readX, callsIn, this, Option.map_some]
    · by_cases hm : I32 (v.natAbs : Int)
      · have h32 : I32 v := by unfold I32 at *; omega
        have t1 : (CX.lit (v.natAbs : Int)).ty = .i32 := if_pos hm
        have t0 : (CX.lit 0).ty = .i32 := by decide
        simp only [CX.eval, t0, t1, both, common, arithOp, CT.conv, deliver]
        rw [show wrapI32 0 = 0 from by decide, wrapI32_of hm, if_pos (by rfl), if_pos (by simp only [CT.lo, CT.hi]; unfold I32 at h32; omega)]
        congr 1; omega
      · have t1 : (CX.lit (v.natAbs : Int)).ty = .i64 := if_neg hm
        have t0 : (CX.lit 0).ty = .i32 := by decide
        have hm64 : I64 (v.natAbs : Int) := by unfold I64; omega
        simp only [CX.eval, t0, t1, both, common, arithOp, CT.conv, deliver]
        rw [show wrapI64 0 = 0 from by decide, wrapI64_of hm64, if_pos (by rfl), if_pos (by simp only [CT.lo, CT.hi]; omega)]
        congr 1; omega
  · refine ⟨.lit v.toNat, ⟨[.id ((entities vars funs).length + v.toNat)], .id ((entities vars funs).length + v.toNat), lexed ?_,
      Expr.C60_parses_partial (.atom ((entities vars funs).length + v.toNat)) trivial (le2 (.inr rfl)), by simp only [readX, callsIn, typed, lit, Option.map_some]⟩, fun env => ?_⟩
    · unfold decInt
      rw [if_neg hn]
      exact tx_dec _ _ (by omega)
    · show Res.ok ((v.toNat : Nat) : Int) = _
      congr 1; omega

/-- The items whose meaning depends on the method. -/
def Depends : Item → Prop
  | .text _ | .ifHead _ | .switchHead _ | .ret _ (some _) | .catchHead _ => True
  | _ => False

/-- The other pieces. -/
theorem reads_plain (C : Cfg) (funs : List Fun) (i : Item) (hi : GoodItem i) (hd : ¬ Depends i) :
    ∃ p, ReadPiece (writtenVars C.ci C.src) funs (rawOf C i) p ∧ ∀ (F : Type) (I : Interp Env F) (mean : List RP → Interp Env F), Means I mean i p := by
  cases i with
  | text k | ifHead c | switchHead v | catchHead h => exact absurd trivial hd
  | elseHead => exact ⟨.elseP, trivial, fun F I mean ps j hj => .elseHead⟩
  | caseHead v =>
    obtain ⟨x, h1, h2⟩ := case_reads (writtenVars C.ci C.src) funs (v := v) hi
    exact ⟨.caseP v, ⟨x, h1, h2⟩, fun F I mean ps j hj => .caseHead⟩
  | defaultHead => exact ⟨.defaultP, trivial, fun F I mean ps j hj => .defaultHead⟩
  | bareColon => exact hi.elim
  | opn => exact ⟨.opn, trivial, fun F I mean ps j hj => .opn⟩
  | cls => exact ⟨.cls, trivial, fun F I mean ps j hj => .cls⟩
  | ret t v =>
    cases v with
    | none => exact ⟨.ret none, rfl, fun F I mean ps j hj => .retNone⟩
    | some v => exact absurd trivial hd
  | goto t n => exact ⟨.gotoP (leaveText n), rfl, fun F I mean ps j hj => .jump (.inl ⟨_, _, rfl⟩) (.inr ⟨_, rfl⟩) (.inl ⟨t, n, rfl, rfl⟩)⟩
  | jump l => exact ⟨.gotoP (labelText l), rfl, fun F I mean ps j hj => .jump (.inr ⟨_, rfl⟩) (.inr ⟨_, rfl⟩) (.inr ⟨l, rfl, rfl⟩)⟩
  | blockLabel l => exact ⟨.labelP (labelText l), rfl, fun F I mean ps j hj => .label (.inl ⟨_, rfl⟩) (.inl ⟨_, rfl⟩) (.inr ⟨l, rfl, rfl⟩)⟩
  | leaveLabel ow n => exact ⟨.labelP (leaveText n), rfl, fun F I mean ps j hj => .label (.inr ⟨_, _, rfl⟩) (.inl ⟨_, rfl⟩) (.inl ⟨ow, n, rfl, rfl⟩)⟩
  | tryHead => exact ⟨.tryP, trivial, fun F I mean ps j hj => .tryHead⟩
  | inject => exact hi.elim
  | semi => exact ⟨.semi, trivial, fun F I mean ps j hj => .semi⟩

/-- Handlers. -/
theorem reads_catch {C : Cfg} (hC : C.Ok) (funs : List Fun) (h : Nat) : ReadPiece (writtenVars C.ci C.src) funs (rawOf C (.catchHead h)) (.catchP (written C.ci (C.cls h))) := by
  have hx := hC.exVar h
  refine ⟨written C.ci (C.exVar h), rfl, written_kw _ (hC.cls h).1 (hC.cls h).2.1 (hC.cls h).2.2, written_kw _ hx.1 hx.2.1 hx.2.2.1, ?_⟩
  intro hm
  obtain ⟨q, hq, e⟩ := List.mem_map.mp hm
  obtain ⟨p, hp, rfl⟩ := List.mem_map.mp hq
  apply hx.2.2.2
  have e' : written C.ci p.1 = written C.ci (C.exVar h) := e
  have := FmtTextProps.C53_injective C.ci p.1 (C.exVar h) (written C.ci (C.exVar h)) (by rw [← e']; exact written_ok _ (hC.source.ident p hp)) (written_ok _ hx.1)
  exact List.mem_map.mpr ⟨p, hp, this⟩

theorem reads_items {C : Cfg} {funs : List Fun} {R : Item → RP → Prop} (h : ∀ i, GoodItem i → ∃ p, ReadPiece (writtenVars C.ci C.src) funs (rawOf C i) p ∧ R i p) (l : List Item)
    (hi : ∀ i ∈ l, GoodItem i) : ∃ ps, List.Forall₂ (ReadPiece (writtenVars C.ci C.src) funs) (l.map (rawOf C)) ps ∧ List.Forall₂ R l ps := by
  induction l with
  | nil => exact ⟨[], .nil, .nil⟩
  | cons i l ih =>
    obtain ⟨p, h1, h2⟩ := h i (hi i List.mem_cons_self)
    obtain ⟨ps, h3, h4⟩ := ih fun j hj => hi j (List.mem_cons_of_mem _ hj)
    exact ⟨p :: ps, .cons h1 h3, .cons h2 h4⟩

theorem numbered {F : Type} {I : Interp Env F} {mean : List RP → Interp Env F} {l : List Item} {ps : List RP} (h : List.Forall₂ (Means I mean) l ps) : ∀ pre : List RP,
    List.Forall₂ (IR I (mean (pre ++ ps)) JR LR) l (itemsFrom pre.length ps) := by
  induction h with
  | nil => intro pre; exact .nil
  | @cons i p l ps h _ ih =>
    intro pre
    refine .cons (h _ _ (by simp)) ?_
    have := ih (pre ++ [p])
    simpa using this

theorem bodyOf_eq {C : Cfg} (hC : C.Ok) (lbl : Nat) (b : IL) (ds : List (WStr × Ty)) (hd : ∀ p ∈ ds, isKw (written C.ci p.1) = false) (l : List Item) :
    bodyOf ((Item.opn :: Stmt.blockLabel lbl b).map (rawOf C) ++ ((ds.map fun p => Piece.exprP [.word (tyName p.2), .word (written C.ci p.1)]) ++ l.map (rawOf C))) =
    (ds.map (fun p => (written C.ci p.1, p.2)), (Item.opn :: Stmt.blockLabel lbl b ++ l).map (rawOf C)) := by
  have hde : decls ((ds.map fun p => Piece.exprP [.word (tyName p.2), .word (written C.ci p.1)]) ++ l.map (rawOf C)) = (ds.map (fun p => (written C.ci p.1, p.2)), l.map (rawOf C)) := by
    rw [decls_news C.ci ds hd, decls_items hC]
    simp
  rcases blockLabel_cases lbl b with e | e <;> rw [e]
  · rw [List.map_cons, List.map_nil, List.cons_append, List.nil_append]
    show bodyOf (.opn :: _) = _
    cases ds with
    | nil =>
      simp only [List.map_nil, List.nil_append] at hde ⊢
      cases l with
      | nil => rfl
      | cons i l =>
        have h2 := decls_items hC l
        rw [List.map_cons] at hde ⊢
        cases hr : rawOf C i with
        | labelP s =>
          simp only [bodyOf]
          rw [h2]
          simp [hr, show rawOf C .opn = .opn from rfl]
        | _ =>
          rw [hr] at hde
          simp only [bodyOf, hde]
          simp [hr, show rawOf C .opn = .opn from rfl]
    | cons d ds =>
      rw [List.map_cons, List.cons_append] at hde ⊢
      simp only [bodyOf]
      rw [hde]
      simp [rawOf]
  · rw [List.map_cons, List.map_cons, List.map_nil, List.cons_append, List.cons_append, List.nil_append]
    show bodyOf (.opn :: .labelP (labelText lbl) :: _) = _
    simp only [bodyOf]
    rw [hde]
    simp [rawOf]

/-- The body and the statements read run alike. -/
theorem read_runs {F : Type} {I : Interp Env F} {mean : List RP → Interp Env F} {body0 : CS} (h0 : body0.WF) {ps : List RP} (h : List.Forall₂ (Means I mean) body0.flat ps) :
    ∃ body : CS, body.WF ∧ body.flat = itemsFrom 0 ps ∧ ∀ n, runC I body0 n = runC (mean ps) body n := by
  have hn := numbered h []
  obtain ⟨body, f1, f2, f3⟩ := (rename body0).1 h0 _ hn
  exact ⟨body, f1, f2, fun n => runC_rel jump_label f3 n⟩

/-- The text of a method is a body made of the pieces of its items. -/
theorem method_read {C : Cfg} (hC : C.Ok) {funs : List Fun} {R : Item → RP → Prop} (h : ∀ i, GoodItem i → ∃ p, ReadPiece (writtenVars C.ci C.src) funs (rawOf C i) p ∧ R i p)
    (params lbl : Nat) (b r : IL) (hs : Shape .blocks (.bcons lbl b r)) (hnum : C.src.drop params = news C (stores b) ((C.src.take params).map (·.1))) (fs : Fmt.St) :
    C.method params (.bcons lbl b r) fs = .throw .argumentOutOfRange ∨
    ∃ t ps, C.method params (.bcons lbl b r) fs = .ok t ∧ List.Forall₂ R (emitMain C.main false (.bcons lbl b r)) ps ∧
      ∀ body : CS, body.WF → body.flat = itemsFrom 0 ps → ReadsBody (writtenVars C.ci (C.src.take params)) t ps body funs := by
  have hsrc : C.src = C.src.take params ++ news C (stores b) ((C.src.take params).map (·.1)) := by rw [← hnum, List.take_append_drop]
  have hr : ∀ k ∈ stores r, C.known ((C.src.take params).map (·.1)) k ∨ C.known ((news C (stores b) ((C.src.take params).map (·.1))).map (·.1)) k := by
    intro k _
    by_cases ht : C.throws k = true
    · exact .inl (.inl (.inl ht))
    by_cases ho : C.other k = true
    · exact .inl (.inl (.inr ho))
    obtain ⟨n, ty, hn⟩ := hC.target k (by simpa using ht) (by simpa using ho)
    have e : C.srcName (C.target k) = n := by unfold Cfg.srcName; rw [hn]; rfl
    have hm : n ∈ C.src.map (·.1) := List.mem_map.mpr ⟨_, List.mem_of_getElem? hn, rfl⟩
    rw [hsrc, List.map_append, List.mem_append] at hm
    unfold Cfg.known
    rw [e]
    exact hm.imp .inr .inr
  rcases method_text hC params lbl b r hs fs hr with h | ⟨t, ht, hl⟩
  · exact .inl h
  · right
    have hitems : emitMain C.main false (.bcons lbl b r) =
        .opn :: Stmt.blockLabel lbl b ++ ((emit C.main false b [1] ⟨1, C.main⟩).1 ++ .cls :: (emit C.main false r [1] (emit C.main false b [1] ⟨1, C.main⟩).2).1) := by
      rw [emitMain_eq, emit]
      simp
    have hgood : ∀ i ∈ emitMain C.main false (.bcons lbl b r), GoodItem i := by
      rw [emitMain_eq]
      exact emit_good C.main _ .blocks hs (by simp [sectionsOf]) _ _
    obtain ⟨ps, h1, h2⟩ := reads_items h _ hgood
    refine ⟨t, ps, ht, h2, fun body f1 f2 => ?_⟩
    have kw : ∀ p ∈ news C (stores b) ((C.src.take params).map (·.1)), isKw (written C.ci p.1) = false := by
      intro p hp
      have hm : p ∈ C.src := by rw [hsrc]; exact List.mem_append_right _ hp
      have := hC.source.free p hm
      exact written_kw _ (hC.source.ident p hm) (fun e => this (by rw [e]; simp)) (fun e => this (by rw [e]; simp))
    have hraw : split .start (itemsLex C (.opn :: Stmt.blockLabel lbl b) ++ (declLex C.ci (news C (stores b) ((C.src.take params).map (·.1))) ++
        itemsLex C ((emit C.main false b [1] ⟨1, C.main⟩).1 ++ .cls :: (emit C.main false r [1] (emit C.main false b [1] ⟨1, C.main⟩).2).1))) =
        some ((Item.opn :: Stmt.blockLabel lbl b).map (rawOf C) ++ (((news C (stores b) ((C.src.take params).map (·.1))).map fun p => Piece.exprP [.word (tyName p.2), .word (written C.ci p.1)]) ++
          ((emit C.main false b [1] ⟨1, C.main⟩).1 ++ .cls :: (emit C.main false r [1] (emit C.main false b [1] ⟨1, C.main⟩).2).1).map (rawOf C))) := by
      have g : ∀ i ∈ (.opn :: Stmt.blockLabel lbl b) ++ ((emit C.main false b [1] ⟨1, C.main⟩).1 ++ .cls :: (emit C.main false r [1] (emit C.main false b [1] ⟨1, C.main⟩).2).1), GoodItem i := by
        rw [← hitems]; exact hgood
      rw [split_items hC _ (fun i hi => g i (List.mem_append_left _ hi)), split_decls]
      have := split_items hC _ (fun i hi => g i (List.mem_append_right _ hi)) []
      rw [List.append_nil] at this
      rw [this]
      simp [split]
    have hbody := bodyOf_eq hC lbl b _ kw ((emit C.main false b [1] ⟨1, C.main⟩).1 ++ .cls :: (emit C.main false r [1] (emit C.main false b [1] ⟨1, C.main⟩).2).1)
    have hvars : writtenVars C.ci (C.src.take params) ++ (news C (stores b) ((C.src.take params).map (·.1))).map (fun p => (written C.ci p.1, p.2)) = writtenVars C.ci C.src := by
      unfold writtenVars
      rw [← List.map_append, ← hsrc]
    refine ⟨_, _, hl, hraw, ?_, ?_, f1, f2⟩
    · rw [hbody, hvars]
      exact (hC.source.scope C.ci).distinct
    · rw [hbody, hvars]
      show List.Forall₂ _ ((Item.opn :: Stmt.blockLabel lbl b ++ _).map (rawOf C)) ps
      rw [← hitems]
      exact h1

end Verif.Text
