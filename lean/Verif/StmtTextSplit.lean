import Verif.StmtTextVisit
/-!
# Lemmas for C156: the lexemes of a method body divide into its pieces
-/
namespace Verif.Text
open Cpp Sem Read Stmt Method
open Verif.IntVal (Ty)

/-! ## Parentheses in expressions -/

/-- The same for tokens. -/
def walkT : Nat → List Tok → Option Nat
  | d, [] => some d
  | d, x :: r =>
    if x = .lp then walkT (d + 1) r
    else if x = .rp then (if d = 0 then none else walkT (d - 1) r)
    else walkT d r

theorem walkT_append (a b : List Tok) : ∀ d d', walkT d a = some d' → walkT d (a ++ b) = walkT d' b := by
  induction a with
  | nil => intro d d' h; cases h; rfl
  | cons x a ih =>
    intro d d' h
    rw [List.cons_append, walkT]
    rw [walkT] at h
    by_cases h1 : x = .lp
    · rw [if_pos h1] at h ⊢; exact ih _ _ h
    rw [if_neg h1] at h ⊢
    by_cases h2 : x = .rp
    · rw [if_pos h2] at h ⊢
      by_cases h3 : d = 0
      · rw [if_pos h3] at h; cases h
      · rw [if_neg h3] at h ⊢; exact ih _ _ h
    · rw [if_neg h2] at h ⊢; exact ih _ _ h

theorem walkT_emit (V : Nat → Expr.E) (hV : ∀ k b d, walkT d (Expr.emitB b (V k)) = some d) (N : Nat) (e : X) : ∀ b d, walkT d (Expr.emitB b (toE V N e)) = some d := by
  have con : ∀ x b d, walkT d (Expr.emitB b (constE N x)) = some d := by
    intro x b d
    rcases constE_cases N x with ⟨k, e⟩ | ⟨k, e⟩ <;> rw [e] <;> simp [Expr.emitB, walkT]
  induction e with
  | var ty k => exact hV k
  | i4 n => exact con n
  | i8 n => exact con n
  | bin o un chk l r ihl ihr =>
    intro b d
    cases o with
    | arith o =>
      simp only [toE, Expr.emitB, List.cons_append, List.append_assoc, walkT, if_true]
      rw [walkT_append _ _ _ _ (ihl false _)]
      simp only [walkT, reduceCtorEq, if_false]
      rw [walkT_append _ _ _ _ (ihr false _)]
      simp [walkT]
    | div =>
      simp only [toE, Expr.emitB, List.cons_append, List.append_assoc, walkT, if_true, reduceCtorEq, if_false, Nat.add_one_ne_zero, Nat.add_sub_cancel]
      rw [walkT_append _ _ _ _ (ihl false _)]
      simp only [walkT, if_true, reduceCtorEq, if_false, Nat.add_one_ne_zero, Nat.add_sub_cancel]
      rw [walkT_append _ _ _ _ (ihr false _)]
      simp [walkT]
  | shift o un l r ihl ihr =>
    intro b d
    simp only [toE, Expr.emitB, List.cons_append, List.append_assoc, walkT, if_true]
    rw [walkT_append _ _ _ _ (ihl false _)]
    simp only [walkT, reduceCtorEq, if_false]
    rw [walkT_append _ _ _ _ (ihr false _)]
    simp [walkT]
  | comp o un l r ihl ihr =>
    intro b d
    simp only [toE, Expr.emitB, List.cons_append, List.append_assoc, walkT, if_true]
    rw [walkT_append _ _ _ _ (ihl false _)]
    simp only [walkT, if_true, reduceCtorEq, if_false, Nat.add_one_ne_zero, Nat.add_sub_cancel]
    rw [walkT_append _ _ _ _ (ihr false _)]
    simp [walkT]
  | bitNot e ih =>
    intro b d
    simp only [toE, Expr.emitB, walkT, reduceCtorEq, if_false]
    exact ih false d
  | conv ty chk un e ih =>
    intro b d
    simp only [toE, Expr.emitB, Expr.castToks, List.cons_append, List.nil_append, List.append_assoc, walkT, if_true, reduceCtorEq, if_false, Nat.add_one_ne_zero, Nat.add_sub_cancel]
    rw [walkT_append _ _ _ _ (ih false _)]
    simp [walkT]
  | ite c t f ihc iht ihf =>
    intro b d
    cases b with
    | true =>
      simp only [toE, Expr.emitB, if_true, List.nil_append, List.cons_append, List.append_assoc]
      rw [walkT_append _ _ _ _ (ihc true _)]
      simp only [walkT, if_true, reduceCtorEq, if_false]
      rw [walkT_append _ _ _ _ (iht false _)]
      simp only [walkT, if_true, reduceCtorEq, if_false, Nat.add_one_ne_zero, Nat.add_sub_cancel]
      rw [walkT_append _ _ _ _ (ihf false _)]
      simp [walkT]
    | false =>
      simp only [toE, Expr.emitB, Bool.false_eq_true, if_true, if_false, List.cons_append, List.nil_append, List.append_assoc, walkT]
      rw [walkT_append _ _ _ _ (ihc true _)]
      simp only [walkT, if_true, reduceCtorEq, if_false]
      rw [walkT_append _ _ _ _ (iht false _)]
      simp only [walkT, if_true, reduceCtorEq, if_false, Nat.add_one_ne_zero, Nat.add_sub_cancel]
      rw [walkT_append _ _ _ _ (ihf false _)]
      simp [walkT]

theorem nameTok_id {ents : List (WStr × Entity)} {s : WStr} {t : Tok} (h : nameTok ents s = some t) : t ≠ .lp ∧ t ≠ .rp := by
  unfold nameTok at h
  split at h
  · cases h
  · obtain ⟨x, _, rfl⟩ := Option.map_eq_some_iff.mp h
    split <;> simp

theorem punctTok_paren {p : WStr} {t : Tok} (h : punctTok p = some t) :
    isEnd (.punct p) = false ∧ (t = .lp ↔ Lexeme.punct p = pt "(") ∧ (t = .rp ↔ Lexeme.punct p = pt ")") := by
  have e1 : p ≠ w ";" := by rintro rfl; revert h; have : punctTok (w ";") = none := by decide
                            rw [this]; simp
  have e2 : p ≠ w "{" := by rintro rfl; revert h; have : punctTok (w "{") = none := by decide
                            rw [this]; simp
  have e3 : p ≠ w "}" := by rintro rfl; revert h; have : punctTok (w "}") = none := by decide
                            rw [this]; simp
  refine ⟨by simp [isEnd, pt, e1, e2, e3], ?_, ?_⟩
  · by_cases h1 : p = w "("
    · subst h1
      have : punctTok (w "(") = some .lp := by decide
      rw [this, Option.some.injEq] at h
      simp [← h, pt]
    · have : t ≠ .lp := by
        rintro rfl
        unfold punctTok at h
        rw [if_neg h1] at h
        repeat' (split at h; · cases h)
        obtain ⟨x, _, hx⟩ := Option.map_eq_some_iff.mp h
        cases hx
      simp [this, pt, h1]
  · by_cases h1 : p = w ")"
    · subst h1
      have : punctTok (w ")") = some .rp := by decide
      rw [this, Option.some.injEq] at h
      simp [← h, pt]
    · have : t ≠ .rp := by
        rintro rfl
        unfold punctTok at h
        rw [if_neg h1] at h
        repeat' (split at h; · cases h)
        obtain ⟨x, _, hx⟩ := Option.map_eq_some_iff.mp h
        cases hx
      simp [this, pt, h1]

theorem walk_word (d : Nat) (s : WStr) (r : List Lexeme) : walk d (.word s :: r) = walk d r := by simp [walk, isEnd, pt]
theorem walk_num (d : Nat) (s : WStr) (r : List Lexeme) : walk d (.num s :: r) = walk d r := by simp [walk, isEnd, pt]
theorem walkT_other (d : Nat) {t : Tok} (h : t ≠ .lp ∧ t ≠ .rp) (r : List Tok) : walkT d (t :: r) = walkT d r := by simp [walkT, h.1, h.2]

theorem walk_resolve (ents : List (WStr × Entity)) (ls : List Lexeme) : ∀ ts d, resolve ents ls = some ts → walk d ls = walkT d ts := by
  induction ls using resolve.induct with
  | case1 => intro ts d h; cases h; rfl
  | case2 a b r ih =>
    intro ts d h
    rw [resolve, if_pos rfl] at h
    obtain ⟨t, h1, h2⟩ := Option.bind_eq_some_iff.mp h
    obtain ⟨u, h3, rfl⟩ := Option.map_eq_some_iff.mp h2
    rw [walkT_other _ (nameTok_id h1), walk_word]
    have : walk d (.punct (w "::") :: .word b :: r) = walk d (.word b :: r) := by
      simp [walk, isEnd, pt, show ¬ (w "::" = w ";") by decide, show ¬ (w "::" = w "{") by decide, show ¬ (w "::" = w "}") by decide, show ¬ (w "::" = w "(") by decide,
        show ¬ (w "::" = w ")") by decide]
    rw [this, walk_word]
    exact ih u d h3
  | case3 a p b r hp ih =>
    intro ts d h
    rw [resolve, if_neg hp] at h
    obtain ⟨t, h1, h2⟩ := Option.bind_eq_some_iff.mp h
    obtain ⟨u, h3, rfl⟩ := Option.map_eq_some_iff.mp h2
    rw [walkT_other _ (nameTok_id h1), walk_word]
    exact ih u d h3
  | case4 a r hne ih =>
    intro ts d h
    rw [resolve.eq_3 _ _ _ hne] at h
    obtain ⟨t, h1, h2⟩ := Option.bind_eq_some_iff.mp h
    obtain ⟨u, h3, rfl⟩ := Option.map_eq_some_iff.mp h2
    rw [walkT_other _ (nameTok_id h1), walk_word]
    exact ih u d h3
  | case5 s r ih =>
    intro ts d h
    rw [resolve] at h
    obtain ⟨t, h1, h2⟩ := Option.bind_eq_some_iff.mp h
    obtain ⟨u, h3, rfl⟩ := Option.map_eq_some_iff.mp h2
    have : t ≠ .lp ∧ t ≠ .rp := by
      unfold numTok at h1
      obtain ⟨v, _, rfl⟩ := Option.map_eq_some_iff.mp h1
      simp
    rw [walkT_other _ this, walk_num]
    exact ih u d h3
  | case6 p r ih =>
    intro ts d h
    rw [resolve] at h
    obtain ⟨t, h1, h2⟩ := Option.bind_eq_some_iff.mp h
    obtain ⟨u, h3, rfl⟩ := Option.map_eq_some_iff.mp h2
    obtain ⟨g1, g2, g3⟩ := punctTok_paren h1
    rw [walk, walkT, g1, if_neg (by simp)]
    by_cases e1 : t = .lp
    · rw [if_pos (g2.mp e1), if_pos e1]; exact ih u _ h3
    rw [if_neg (fun h => e1 (g2.mpr h)), if_neg e1]
    by_cases e2 : t = .rp
    · rw [if_pos (g3.mp e2), if_pos e2]
      split
      · rfl
      · exact ih u _ h3
    rw [if_neg (fun h => e2 (g3.mpr h)), if_neg e2]
    exact ih u _ h3

/-! ## Pieces -/

theorem split_cons (st : PS) (x : Lexeme) (r : List Lexeme) : split st (x :: r) = (step st x).bind fun y => (split y.2 r).map (y.1 ++ ·) := rfl

theorem split_step {st st' : PS} {x : Lexeme} (h : step st x = some ([], st')) (r : List Lexeme) : split st (x :: r) = split st' r := by
  rw [split_cons, h, Option.bind_some]
  simp

theorem split_piece {st : PS} {x : Lexeme} {p : Piece} (h : step st x = some ([p], .start)) (r : List Lexeme) : split st (x :: r) = (split .start r).map (p :: ·) := by
  rw [split_cons, h, Option.bind_some]
  rfl

theorem notEnd {d d' : Nat} {x : Lexeme} {r : List Lexeme} (h : walk d (x :: r) = some d') : isEnd x = false ∧ ∃ d1, walk d1 r = some d' := by
  rw [walk] at h
  cases he : isEnd x with
  | true => rw [he, if_pos rfl] at h; cases h
  | false =>
    refine ⟨rfl, ?_⟩
    rw [he, if_neg (by simp)] at h
    split at h
    · exact ⟨_, h⟩
    split at h
    · split at h
      · cases h
      · exact ⟨_, h⟩
    · exact ⟨_, h⟩

theorem not_semi {x : Lexeme} (h : isEnd x = false) : x ≠ pt ";" := by
  rintro rfl; cases h

/-- An expression up to `;`. -/
theorem split_expr (ls : List Lexeme) : ∀ (acc : List Lexeme) (d d' : Nat), walk d ls = some d' → ∀ r, split (.expr acc) (ls ++ pt ";" :: r) = (split .start r).map (.exprP (acc ++ ls) :: ·) := by
  induction ls with
  | nil => intro acc d d' _ r; rw [List.append_nil]; exact split_piece rfl r
  | cons x ls ih =>
    intro acc d d' h r
    obtain ⟨h1, d1, h2⟩ := notEnd h
    rw [List.cons_append, split_step (st' := .expr (acc ++ [x])), ih _ _ _ h2]
    · simp
    · simp [step, not_semi h1, h1]

theorem split_thr (ls : List Lexeme) : ∀ (acc : List Lexeme) (d d' : Nat), walk d ls = some d' → ∀ r, split (.thr acc) (ls ++ pt ";" :: r) = (split .start r).map (.throwP (acc ++ ls) :: ·) := by
  induction ls with
  | nil => intro acc d d' _ r; rw [List.append_nil]; exact split_piece rfl r
  | cons x ls ih =>
    intro acc d d' h r
    obtain ⟨h1, d1, h2⟩ := notEnd h
    rw [List.cons_append, split_step (st' := .thr (acc ++ [x])), ih _ _ _ h2]
    · simp
    · simp [step, not_semi h1, h1]

theorem split_ret (ls : List Lexeme) : ∀ (acc : List Lexeme) (d d' : Nat), walk d ls = some d' → ∀ r, split (.ret acc) (ls ++ pt ";" :: r) = (split .start r).map (.retP (acc ++ ls) :: ·) := by
  induction ls with
  | nil => intro acc d d' _ r; rw [List.append_nil]; exact split_piece rfl r
  | cons x ls ih =>
    intro acc d d' h r
    obtain ⟨h1, d1, h2⟩ := notEnd h
    rw [List.cons_append, split_step (st' := .ret (acc ++ [x])), ih _ _ _ h2]
    · simp
    · simp [step, not_semi h1, h1]

theorem split_group (k : Head) (ls : List Lexeme) : ∀ (acc : List Lexeme) (d d' : Nat), walk d ls = some d' → ∀ r, split (.group k d acc) (ls ++ r) = split (.group k d' (acc ++ ls)) r := by
  induction ls with
  | nil => intro acc d d' h r; cases h; simp
  | cons x ls ih =>
    intro acc d d' h r
    have h1 := (notEnd h).1
    rw [walk, h1, if_neg (by simp)] at h
    rw [List.cons_append]
    by_cases e1 : x = pt "("
    · rw [if_pos e1] at h
      rw [split_step (st' := .group k (d + 1) (acc ++ [x])), ih _ _ _ h]
      · simp
      · simp [step, e1, show isEnd (pt "(") = false from rfl]
    rw [if_neg e1] at h
    by_cases e2 : x = pt ")"
    · rw [if_pos e2] at h
      by_cases e3 : d = 0
      · rw [if_pos e3] at h; cases h
      · rw [if_neg e3] at h
        rw [split_step (st' := .group k (d - 1) (acc ++ [x])), ih _ _ _ h]
        · simp
        · simp only [step, h1, e1, if_pos e2, e3, if_false, Bool.false_eq_true]
    · rw [if_neg e2] at h
      rw [split_step (st' := .group k d (acc ++ [x])), ih _ _ _ h]
      · simp
      · simp only [step, h1, e1, e2, if_false, Bool.false_eq_true]

theorem split_head (k : Head) (ls : List Lexeme) (h : Bal ls) (r : List Lexeme) : split (.head k) (pt "(" :: (ls ++ pt ")" :: r)) = (split .start r).map (k.piece ls :: ·) := by
  rw [split_step (st' := .group k 0 []) (by rfl), split_group k ls [] 0 0 (h 0), List.nil_append]
  exact split_piece rfl r

/-- The piece of an item. -/
def rawOf (C : Cfg) : Item → Piece
  | .text k => if C.throws k then .throwP (lexOf (C.store k)).tail else .exprP (lexOf (C.store k))
  | .ifHead c => .ifP (lexOf (C.cond c))
  | .elseHead => .elseP
  | .switchHead v => .switchP (lexOf (C.val v))
  | .caseHead v => .caseP (lexOf (decInt v))
  | .defaultHead => .defaultP
  | .bareColon => .semi
  | .opn => .opn
  | .cls => .cls
  | .ret _ none => .retP []
  | .ret _ (some v) => .retP (lexOf (C.ret v))
  | .goto _ n => .gotoP (leaveText n)
  | .jump l => .gotoP (labelText l)
  | .blockLabel l => .labelP (labelText l)
  | .leaveLabel _ n => .labelP (leaveText n)
  | .tryHead => .tryP
  | .catchHead h => .catchP [.word (written C.ci (C.cls h)), pt "*", .word (written C.ci (C.exVar h))]
  | .inject => .semi
  | .semi => .semi

/-- The items a method of C156 consists of. -/
def GoodItem : Item → Prop
  | .bareColon | .inject => False
  | .caseHead v => -2 ^ 63 < v ∧ v < 2 ^ 63
  | _ => True

/-- A word that is no keyword starts an expression or a label. -/
theorem step_word {s : WStr} (h : isKw s = false) : step .start (.word s) = some ([], .first s) := by
  have ne : ∀ k : String, isKw (w k) = true → Lexeme.word s ≠ wd k := by
    intro k hk e
    cases e
    rw [hk] at h; cases h
  have a1 := ne "else" (by decide)
  have a2 := ne "try" (by decide)
  have a3 := ne "if" (by decide)
  have a4 := ne "switch" (by decide)
  have a5 := ne "catch" (by decide)
  have a6 := ne "return" (by decide)
  have a7 := ne "case" (by decide)
  have a10 := ne "throw" (by decide)
  have a8 := ne "default" (by decide)
  have a9 := ne "goto" (by decide)
  simp only [step]
  rw [if_neg (by simp [pt]), if_neg (by simp [pt]), if_neg (by simp [pt]), if_neg a1, if_neg a2, if_neg a3, if_neg a4, if_neg a5, if_neg a6, if_neg a10, if_neg a7, if_neg a8, if_neg a9]
  simp [h]

theorem decInt_lex {v : Int} (h : -2 ^ 63 < v ∧ v < 2 ^ 63) : lexOf (decInt v) = (if v < 0 then [pt "-", .num (dec v.natAbs)] else [.num (dec v.toNat)]) := by
  unfold decInt
  by_cases hn : v < 0
  · rw [if_pos hn, if_pos hn]
    apply Lx.lexOf
    intro rest hr
    have hb : lexS .none (45 :: (dec v.natAbs ++ rest)) = (lexS .none (dec v.natAbs ++ rest)).map (Lexeme.punct (w "-") :: ·) := by
      rw [show 45 :: (dec v.natAbs ++ rest) = [45] ++ (dec v.natAbs ++ rest) from rfl, run_one 45 (by decide)]
      cases hd : dec v.natAbs with
      | nil => exact absurd hd (dec_ne_nil _)
      | cons c r =>
        have hc : isDigit c = true := dec_digits v.natAbs c (by rw [hd]; exact List.mem_cons_self)
        rw [List.cons_append, lex_break (show (Read.St.punct [45]).extends c = false from ?_) (by simp)]
        · rfl
        · have hc' := (isDigit_iff c).mp hc
          have : ∀ c, 48 ≤ c ∧ c ≤ 57 → puncts.contains [45, c] = false := by
            intro c hc
            simp [puncts, w]
            omega
          exact this c hc'
    rw [List.cons_append, hb, lx_num (dec_ne_nil _) (dec_digits _) rest hr, Option.map_map]
    rfl
  · rw [if_neg hn, if_neg hn]
    exact Lx.lexOf (lx_num (dec_ne_nil _) (dec_digits _))

theorem rawOf_text (C : Cfg) (k : Nat) : rawOf C (.text k) = if C.throws k then .throwP (lexOf (C.store k)).tail else .exprP (lexOf (C.store k)) := rfl

theorem split_item {C : Cfg} (hC : C.Ok) (i : Item) (hi : GoodItem i) (r : List Lexeme) : split .start (itemLex C i ++ r) = (split .start r).map (rawOf C i :: ·) := by
  have label : ∀ s : WStr, isKw s = false → split .start ([.word s, pt ":"] ++ r) = (split .start r).map (.labelP s :: ·) := by
    intro s hs
    rw [List.cons_append, split_step (step_word hs), List.cons_append, split_piece (p := .labelP s) (by rfl)]
    rfl
  have goto : ∀ s : WStr, isKw s = false → split .start ([wd "goto", .word s] ++ [pt ";"] ++ r) = (split .start r).map (.gotoP s :: ·) := by
    intro s hs
    simp only [List.cons_append, List.nil_append]
    rw [split_step (st' := .goto) (by rfl), split_step (st' := .gotoEnd s) (by simp [step, hs]), split_piece (p := .gotoP s) (by rfl)]
  cases i with
  | text k =>
    by_cases ht : C.throws k = true
    · have h2 := (hC.store k).2
      rw [if_pos ht] at h2
      obtain ⟨T, h, _⟩ := h2
      have e : rawOf C (.text k) = .throwP (thrownOf T) := by rw [rawOf_text, if_pos ht, h]; rfl
      show split .start (lexOf (C.store k) ++ [pt ";"] ++ r) = _
      rw [e, h, List.append_assoc, List.cons_append, split_step (st' := .thr []) (by rfl)]
      exact split_thr (thrownOf T) [] 0 0 (by rfl) r
    have ht : C.throws k = false := by simpa using ht
    have hraw : rawOf C (.text k) = .exprP (lexOf (C.store k)) := by rw [rawOf_text, ht]; rfl
    have h2 := (hC.store k).2
    rw [ht, if_neg (by simp)] at h2
    by_cases ho : C.other k = true
    · rw [if_pos ho] at h2
      obtain ⟨a, le, h, ha, hb⟩ := h2
      show split .start (lexOf (C.store k) ++ [pt ";"] ++ r) = _
      rw [hraw, h]
      simp only [List.cons_append, List.append_assoc, List.nil_append]
      rw [split_step (step_word ha), split_step (st' := .expr [.word a, pt "::"]) (by rfl), split_expr _ _ 0 0 (hb 0)]
      rfl
    have ho : C.other k = false := by simpa using ho
    rw [ho, if_neg (by simp)] at h2
    obtain ⟨n, ty, hn, e1, e2⟩ := target_name hC k ht ho
    have hk : isKw (C.name (C.target k)) = false := by
      rw [e1]
      have := hC.source.free _ (List.mem_of_getElem? hn)
      exact written_kw _ (hC.source.ident _ (List.mem_of_getElem? hn)) (fun e => this (by rw [e]; simp)) (fun e => this (by rw [e]; simp))
    show split .start (lexOf (C.store k) ++ [pt ";"] ++ r) = _
    rcases h2 with ⟨le, h, hb⟩ | h | h
    · rw [hraw, h]
      simp only [List.cons_append, List.append_assoc, List.nil_append]
      rw [split_step (step_word hk), split_step (st' := .expr [.word (C.name (C.target k)), pt "="]) (by rfl), split_expr _ _ 0 0 (hb 0)]
      rfl
    · rw [hraw, h]
      simp only [List.cons_append, List.nil_append]
      rw [split_step (st' := .expr [pt "++"]) (by rfl)]
      exact split_expr [.word (C.name (C.target k))] _ 0 0 (by rw [walk_word]; rfl) r
    · rw [hraw, h]
      simp only [List.cons_append, List.nil_append]
      rw [split_step (st' := .expr [pt "--"]) (by rfl)]
      exact split_expr [.word (C.name (C.target k))] _ 0 0 (by rw [walk_word]; rfl) r
  | ifHead c =>
    simp only [itemLex, List.cons_append, List.append_assoc, List.nil_append]
    rw [split_step (st' := .head .ifH) (by rfl), split_head _ _ ((hC.cond c).2)]
    rfl
  | elseHead => exact split_piece (by rfl) r
  | switchHead v =>
    simp only [itemLex, List.cons_append, List.append_assoc, List.nil_append]
    rw [split_step (st' := .head .switchH) (by rfl), split_head _ _ ((hC.val v).2)]
    rfl
  | caseHead v =>
    have h : -2 ^ 63 < v ∧ v < 2 ^ 63 := hi
    simp only [itemLex, rawOf, decInt_lex h]
    by_cases hn : v < 0
    · simp only [if_pos hn, List.cons_append, List.nil_append]
      rw [split_step (st' := .case []) (by rfl), split_step (st' := .case [pt "-"]) (by rfl),
        split_step (st' := .case [pt "-", .num (dec v.natAbs)]) (by simp [step, isEnd, pt]), split_piece (by rfl)]
    · simp only [if_neg hn, List.cons_append, List.nil_append]
      rw [split_step (st' := .case []) (by rfl), split_step (st' := .case [.num (dec v.toNat)]) (by simp [step, isEnd, pt]), split_piece (by rfl)]
  | defaultHead =>
    simp only [itemLex, List.cons_append, List.nil_append]
    rw [split_step (st' := .default) (by rfl), split_piece (by rfl)]
    rfl
  | bareColon => exact hi.elim
  | opn => exact split_piece (by rfl) r
  | cls => exact split_piece (by rfl) r
  | ret t v =>
    cases v with
    | none =>
      simp only [itemLex, List.cons_append, List.nil_append]
      rw [split_step (st' := .ret []) (by rfl)]
      exact split_piece (by rfl) r
    | some v =>
      simp only [itemLex, List.cons_append, List.append_assoc, List.nil_append]
      rw [split_step (st' := .ret []) (by rfl), split_ret _ _ 0 0 ((hC.ret v).2.1 0)]
      rfl
  | goto t n => exact goto _ (leaveText_kw n)
  | jump l => exact goto _ (labelText_kw l)
  | blockLabel l => exact label _ (labelText_kw l)
  | leaveLabel ow n => exact label _ (leaveText_kw n)
  | tryHead => exact split_piece (by rfl) r
  | catchHead h =>
    simp only [itemLex, List.cons_append, List.nil_append]
    rw [split_step (st' := .head .catchH) (by rfl)]
    have := split_head .catchH [.word (written C.ci (C.cls h)), pt "*", .word (written C.ci (C.exVar h))]
      (by intro d; rw [walk_word]; show walk d [.word (written C.ci (C.exVar h))] = _; rw [walk_word]; rfl) r
    exact this
  | inject => exact hi.elim
  | semi => exact split_piece (by rfl) r

theorem split_items {C : Cfg} (hC : C.Ok) (l : List Item) (h : ∀ i ∈ l, GoodItem i) (r : List Lexeme) : split .start (itemsLex C l ++ r) = (split .start r).map (l.map (rawOf C) ++ ·) := by
  induction l with
  | nil => simp [itemsLex]
  | cons i l ih =>
    rw [itemsLex_cons, List.append_assoc, split_item hC i (h i List.mem_cons_self), ih fun j hj => h j (List.mem_cons_of_mem _ hj), Option.map_map]
    rfl

theorem rawOf_noDecl {C : Cfg} (hC : C.Ok) (i : Item) : declOf (rawOf C i) = none := by
  cases i with
  | text k =>
    have h2 := (hC.store k).2
    rw [rawOf_text]
    by_cases ht : C.throws k = true
    · rw [if_pos ht]; rfl
    · rw [if_neg ht] at h2 ⊢
      by_cases ho : C.other k = true
      · rw [if_pos ho] at h2
        obtain ⟨a, le, h, _, _⟩ := h2
        rw [h]; rfl
      rw [if_neg ho] at h2
      rcases h2 with ⟨le, h, _⟩ | h | h <;> rw [h] <;> rfl
  | ret t v => cases v <;> rfl
  | _ => rfl

theorem decls_items {C : Cfg} (hC : C.Ok) (l : List Item) : decls (l.map (rawOf C)) = ([], l.map (rawOf C)) := by
  cases l with
  | nil => rfl
  | cons i l => simp only [List.map_cons, decls, rawOf_noDecl hC i]

end Verif.Text
