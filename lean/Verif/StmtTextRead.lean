import Verif.StmtTextSplit
import Verif.FlowRename
/-!
# Lemmas for C156: the text of a whole method, its declarations, and the meaning of its pieces
-/
namespace Verif.Text
open Cpp Sem Read Stmt Method
open Verif.IntVal (Ty)

/-! ## The items of a method -/

theorem caseHead_good {ls : LongSet} (hw : ls.WF) (hne : ls ≠ []) : GoodItem (Stmt.caseHead ls) := by
  cases ls with
  | nil => exact absurd rfl hne
  | cons p r =>
    obtain ⟨lo, hi⟩ := p
    obtain ⟨w1, w2, w3, _⟩ := hw
    unfold Stmt.caseHead
    simp only at w1 w2 w3 ⊢
    split
    · trivial
    · show -2 ^ 63 < lo ∧ lo < 2 ^ 63
      omega

theorem blockLabel_good (lbl : Nat) (b : IL) : ∀ i ∈ Stmt.blockLabel lbl b, GoodItem i := by
  intro i hi
  rcases blockLabel_cases lbl b with e | e <;> rw [e] at hi
  · cases hi
  · rw [List.mem_singleton] at hi; subst hi; trivial

theorem semiIf_good (b : IL) : ∀ i ∈ semiIf b, GoodItem i := by
  intro i hi
  cases b <;> simp [semiIf] at hi <;> subst hi <;> trivial

theorem semiSec_good (b : IL) : ∀ i ∈ semiSec b, GoodItem i := by
  intro i hi
  unfold semiSec at hi
  split at hi
  · cases hi
  · rw [List.mem_singleton] at hi; subst hi; trivial

theorem emit_good (main : Nat) (il : IL) : ∀ kd, Shape kd il → (∀ p ∈ sectionsOf il, LongSet.WF p.1 ∧ p.1 ≠ []) → ∀ stk st, ∀ i ∈ (emit main false il stk st).1, GoodItem i := by
  have noSec : ∀ {kd il}, kd ≠ .sections → Shape kd il → ∀ p ∈ sectionsOf il, LongSet.WF p.1 ∧ p.1 ≠ [] := by
    intro kd il hk h p hp
    cases il <;> first | (simp [sectionsOf] at hp; done) | (cases kd <;> first | exact absurd rfl hk | exact False.elim h)
  induction il with
  | nop | silent b _ | nil | bnil | hnil | snil => intro kd _ _ stk st i hi; cases hi
  | act k => intro kd _ _ stk st i hi; rw [emit, List.mem_singleton] at hi; subst hi; trivial
  | leave t e v =>
    intro kd _ _ stk st i hi
    rw [emit] at hi
    split at hi <;> (rw [List.mem_singleton] at hi; subst hi; trivial)
  | branch l => intro kd _ _ stk st i hi; rw [emit, List.mem_singleton] at hi; subst hi; trivial
  | ite c t f iht ihf =>
    intro kd hs _ stk st i hi
    cases kd <;> try exact False.elim hs
    have h1 := iht .instr hs.1 (noSec (by simp) hs.1) stk st
    have h2 := ihf .instr hs.2 (noSec (by simp) hs.2) stk (emit main false t stk st).2
    have h3 := semiIf_good t
    have h4 := semiIf_good f
    rw [emit] at hi
    by_cases e : f = .nop
    · simp only [e, if_true, List.mem_append, List.mem_cons, List.not_mem_nil, or_false, List.cons_append] at hi
      rcases hi with rfl | rfl | (hi | hi) | rfl
      · trivial
      · trivial
      · exact h1 i hi
      · exact h3 i hi
      · trivial
    · simp only [e, if_false, List.mem_append, List.mem_cons, List.not_mem_nil, or_false, List.cons_append] at hi
      rcases hi with rfl | rfl | (hi | hi) | rfl | rfl | rfl | (hi | hi) | rfl
      · trivial
      · trivial
      · exact h1 i hi
      · exact h3 i hi
      · trivial
      · trivial
      · trivial
      · exact h2 i hi
      · exact h4 i hi
      · trivial
  | block b ih =>
    intro kd hs _ stk st i hi
    cases kd <;> try exact False.elim hs
    exact ih .list hs (noSec (by simp) hs) stk st i hi
  | container id bs ih =>
    intro kd hs _ stk st i hi
    cases kd <;> try exact False.elim hs
    have hs' : Shape .blocks bs := hs
    have h1 := ih .blocks hs (noSec (by simp) hs') ((st.n + 1) :: stk) ⟨st.n + 1, id⟩
    rw [emit] at hi
    simp only [List.mem_append] at hi
    rcases hi with hi | hi
    · exact h1 i hi
    · split at hi
      · rw [List.mem_singleton] at hi; subst hi; trivial
      · cases hi
  | tryCatch tid lbl f r hs ihf ihr ihh =>
    intro kd hsh _ stk st i hi
    cases kd <;> try exact False.elim hsh
    obtain ⟨s1, _, s2⟩ : Shape .list f ∧ r = .bnil ∧ Shape .handlers hs := hsh
    have h1 := ihf .list s1 (noSec (by simp) s1) ((st.n + 1) :: stk) ⟨st.n + 1, st.cur⟩
    have h2 := ihh .handlers s2 (noSec (by simp) s2) ((st.n + 1) :: stk) (emit main false f ((st.n + 1) :: stk) ⟨st.n + 1, st.cur⟩).2
    have h3 := blockLabel_good lbl f
    rw [emit] at hi
    simp only [List.mem_append, List.mem_cons, List.not_mem_nil, or_false, List.cons_append] at hi
    rcases hi with rfl | rfl | ((hi | hi) | rfl | hi) | rfl | rfl
    · trivial
    · trivial
    · exact h3 i hi
    · exact h1 i hi
    · trivial
    · exact h2 i hi
    · trivial
    · trivial
  | switch v ss ih =>
    intro kd hs _ stk st i hi
    cases kd <;> try exact False.elim hs
    obtain ⟨s1, s2, _⟩ : Shape .sections ss ∧ (sectionsOf ss).WF ∧ ∀ p ∈ sectionsOf ss, p.1.has (-2 ^ 63) ∨ ∃ v, p.1 = [(v, v)] := hs
    have h1 := ih .sections s1 s2.1 stk st
    rw [emit] at hi
    simp only [List.mem_append, List.mem_cons, List.not_mem_nil, or_false, List.cons_append] at hi
    rcases hi with rfl | rfl | hi | rfl
    · trivial
    · trivial
    · exact h1 i hi
    · trivial
  | cons a r iha ihr =>
    intro kd hs _ stk st i hi
    cases kd <;> try exact False.elim hs
    have h1 := iha .instr hs.1 (noSec (by simp) hs.1) stk st
    have h2 := ihr .list hs.2 (noSec (by simp) hs.2) stk (emit main false a stk st).2
    rw [emit] at hi
    have hd : dropped false a r = false := by unfold dropped; split <;> rfl
    rw [hd, if_neg (by simp)] at hi
    simp only [List.mem_append] at hi
    rcases hi with hi | hi
    · exact h1 i hi
    · exact h2 i hi
  | bcons lbl b r ihb ihr =>
    intro kd hs _ stk st i hi
    cases kd <;> try exact False.elim hs
    have h1 := ihb .list hs.1 (noSec (by simp) hs.1) stk st
    have h2 := ihr .blocks hs.2 (noSec (by simp) hs.2) stk (emit main false b stk st).2
    have h3 := blockLabel_good lbl b
    rw [emit] at hi
    simp only [Bool.false_eq_true, false_and, if_false, List.append_nil, List.mem_append, List.mem_cons, List.cons_append] at hi
    rcases hi with rfl | (hi | hi) | rfl | hi
    · trivial
    · exact h3 i hi
    · exact h1 i hi
    · trivial
    · exact h2 i hi
  | hcons hid lbl f r n ihf ihr ihn =>
    intro kd hsh _ stk st i hi
    cases kd <;> try exact False.elim hsh
    obtain ⟨s1, _, s2⟩ : Shape .list f ∧ r = .bnil ∧ Shape .handlers n := hsh
    have h1 := ihf .list s1 (noSec (by simp) s1) stk st
    have h2 := ihn .handlers s2 (noSec (by simp) s2) stk (emit main false f stk st).2
    have h3 := blockLabel_good lbl f
    rw [emit] at hi
    simp only [List.mem_append, List.mem_cons, List.cons_append] at hi
    rcases hi with rfl | rfl | (hi | hi) | rfl | hi
    · trivial
    · trivial
    · exact h3 i hi
    · exact h1 i hi
    · trivial
    · exact h2 i hi
  | scons ls b r ihb ihr =>
    intro kd hs hl stk st i hi
    cases kd <;> try exact False.elim hs
    obtain ⟨s1, _, s2⟩ : Shape .instr b ∧ (falls b = false ∨ r = .snil) ∧ Shape .sections r := hs
    have h1 := ihb .instr s1 (noSec (by simp) s1) stk st
    have h2 := ihr .sections s2 (fun p hp => hl p (by simp [sectionsOf, hp])) stk (emit main false b stk st).2
    have h3 := semiSec_good b
    have hls := hl (ls, b) (by simp [sectionsOf])
    rw [emit] at hi
    simp only [List.mem_append, List.mem_cons, List.cons_append] at hi
    rcases hi with rfl | hi | hi | hi
    · exact caseHead_good hls.1 hls.2
    · exact h1 i hi
    · exact h3 i hi
    · exact h2 i hi

/-! ## Declarations -/

/-- The variables declared for these stores, with those named `vs` declared already. -/
def news (C : Cfg) : List Nat → List WStr → List (WStr × Ty)
  | [], _ => []
  | k :: r, vs =>
    if C.known vs k then news C r vs
    else (C.srcName (C.target k), C.srcType (C.target k)) :: news C r (C.srcName (C.target k) :: vs)

/-- The lexemes of declarations. -/
def declLex (ci : Fmt.CharInfo) (l : List (WStr × Ty)) : List Lexeme := l.flatMap fun p => [.word (tyName p.2), .word (written ci p.1), pt ";"]

theorem tyName_ident (ty : Ty) : CppLex.isIdent (tyName ty) = true := by cases ty <;> decide
theorem tyName_kw (ty : Ty) : isKw (tyName ty) = false := by cases ty <;> decide
theorem tyName_named (ty : Ty) : typeNamed (tyName ty) = some ty := by cases ty <;> decide +kernel

theorem declare_wr {C : Cfg} (hC : C.Ok) (l : List Nat) : ∀ (s : VS) (ind : Int) (a : Bool), At s.fs ind a false →
    Or' (C.declare l s) fun s' => s'.n = s.n ∧ (∀ x, x ∈ s'.vars ↔ x ∈ s.vars ∨ x ∈ (news C l s.vars).map (·.1)) ∧ (∃ a', At s'.fs ind a' false) ∧
      Wr s.fs s'.fs (declLex C.ci (news C l s.vars)) := by
  induction l with
  | nil => intro s ind a h; exact Or'.ok ⟨rfl, by simp [news], ⟨a, h⟩, Wr.refl _⟩
  | cons k l ih =>
    intro s ind a h
    rw [Cfg.declare, Cfg.declare1, news]
    by_cases hk : C.known s.vars k
    · rw [if_pos hk, if_pos hk]
      exact ih s ind a h
    · rw [if_neg hk, if_neg hk]
      have hk' : C.throws k = false ∧ C.other k = false := by unfold Cfg.known at hk; rw [not_or] at hk; simpa using hk.1
      obtain ⟨n, ty, hn, e1, e2⟩ := target_name hC k hk'.1 hk'.2
      have key : Or' (startLine s.fs >>= fun fs =>
          Fmt.appendIndented (Fmt.appendLine C.nl (Fmt.append (Fmt.append (Fmt.append fs (tyName (C.srcType (C.target k)))) (w " ")) (C.name (C.target k))) (w ";")) [])
          fun fs' => At fs' ind false false ∧ Wr s.fs fs' [.word (tyName (C.srcType (C.target k))), .word (C.name (C.target k)), pt ";"] := by
        refine (startLine_spec h).bind fun f1 ⟨a1, w1⟩ => ?_
        refine (indentedEmpty_spec (appendLine_at C.nl (w ";") (append_at (append_at (append_at a1 (t := tyName (C.srcType (C.target k)))
          (by intro e; have := tyName_ident (C.srcType (C.target k)); rw [e] at this; cases this)) (t := w " ") (by decide)) (t := C.name (C.target k))
          (by intro e; rw [e] at e2; cases e2)))).mono fun f2 ⟨a2, w2⟩ => ⟨a2, ?_⟩
        have w3 : Wr f1 (Fmt.appendLine C.nl (Fmt.append (Fmt.append (Fmt.append f1 (tyName (C.srcType (C.target k)))) (w " ")) (C.name (C.target k))) (w ";"))
            [.word (tyName (C.srcType (C.target k))), .word (C.name (C.target k)), pt ";"] := by
          refine ⟨tyName (C.srcType (C.target k)) ++ w " " ++ (C.name (C.target k) ++ (w ";" ++ C.nl)), ?_, ?_⟩
          · rw [appendLine_out]
            show f1.out ++ tyName _ ++ w " " ++ C.name _ ++ _ = _
            simp only [List.append_assoc]
          · have := (ly_word_space (tyName_ident (C.srcType (C.target k)))).append (ly_word_then e2 (c := 59) (r := C.nl) (by decide) (ly_semi.append hC.nl.ly))
            exact this
        have := (w1.trans w3).trans w2
        simpa using this
      have step : Or' (startLine s.fs >>= fun fs =>
          Fmt.appendIndented (Fmt.appendLine C.nl (Fmt.append (Fmt.append (Fmt.append fs (tyName (C.srcType (C.target k)))) (w " ")) (C.name (C.target k))) (w ";")) [] >>= fun fs =>
          (.ok { s with fs := fs, vars := C.srcName (C.target k) :: s.vars } : Res VS))
          fun s' => s'.n = s.n ∧ s'.vars = C.srcName (C.target k) :: s.vars ∧ At s'.fs ind false false ∧
            Wr s.fs s'.fs [.word (tyName (C.srcType (C.target k))), .word (C.name (C.target k)), pt ";"] := by
        have hb : ∀ {α β γ : Type} (x : Res α) (f : α → Res β) (g : β → Res γ), (x >>= fun a => f a >>= g) = ((x >>= f) >>= g) := by
          intro α β γ x f g; cases x <;> rfl
        rw [hb]
        exact key.bind fun fs' ⟨g1, g2⟩ => Or'.ok ⟨rfl, rfl, g1, g2⟩
      refine step.bind fun s1 ⟨g1, g2, g3, g4⟩ => ?_
      refine (ih s1 ind false g3).mono fun s2 ⟨f1, f2, f3, f4⟩ => ⟨f1.trans g1, fun x => ?_, f3, ?_⟩
      · rw [f2, g2, List.mem_cons, List.map_cons, List.mem_cons]
        constructor
        · rintro ((h | h) | h)
          · exact .inr (.inl h)
          · exact .inl h
          · exact .inr (.inr h)
        · rintro (h | h | h)
          · exact .inl (.inr h)
          · exact .inl (.inl h)
          · exact .inr h
      · have := g4.trans f4
        rw [g2] at this
        exact this

theorem split_decls (ci : Fmt.CharInfo) (l : List (WStr × Ty)) (r : List Lexeme) : split .start (declLex ci l ++ r) =
    (split .start r).map ((l.map fun p => Piece.exprP [.word (tyName p.2), .word (written ci p.1)]) ++ ·) := by
  induction l with
  | nil => simp [declLex]
  | cons p l ih =>
    have e : declLex ci (p :: l) ++ r = .word (tyName p.2) :: .word (written ci p.1) :: pt ";" :: (declLex ci l ++ r) := by simp [declLex]
    rw [e, split_step (step_word (tyName_kw p.2)), split_step (st' := .expr [.word (tyName p.2), .word (written ci p.1)]) (by simp [step, isEnd, pt]),
      split_piece (p := .exprP [.word (tyName p.2), .word (written ci p.1)]) (by rfl), ih, Option.map_map]
    rfl

theorem decls_news (ci : Fmt.CharInfo) (l : List (WStr × Ty)) (h : ∀ p ∈ l, isKw (written ci p.1) = false) (r : List Piece) :
    decls ((l.map fun p => Piece.exprP [.word (tyName p.2), .word (written ci p.1)]) ++ r) = (l.map (fun p => (written ci p.1, p.2)) ++ (decls r).1, (decls r).2) := by
  induction l with
  | nil => rfl
  | cons p l ih =>
    have e : declOf (.exprP [.word (tyName p.2), .word (written ci p.1)]) = some (written ci p.1, p.2) := by
      simp only [declOf, h p List.mem_cons_self, tyName_named, Bool.false_eq_true, if_false, Option.map_some]
    rw [List.map_cons, List.cons_append, decls]
    simp only [e]
    rw [ih fun q hq => h q (List.mem_cons_of_mem _ hq)]
    rfl

/-- The text of a whole method. -/
theorem method_text {C : Cfg} (hC : C.Ok) (params lbl : Nat) (b r : IL) (hs : Shape .blocks (.bcons lbl b r)) (fs : Fmt.St)
    (hr : ∀ k ∈ stores r, C.known ((C.src.take params).map (·.1)) k ∨ C.known ((news C (stores b) ((C.src.take params).map (·.1))).map (·.1)) k) :
    Or' (C.method params (.bcons lbl b r) fs) fun t => lex t = some (itemsLex C (.opn :: Stmt.blockLabel lbl b) ++ (declLex C.ci (news C (stores b) ((C.src.take params).map (·.1))) ++
      itemsLex C ((emit C.main false b [1] ⟨1, C.main⟩).1 ++ .cls :: (emit C.main false r [1] (emit C.main false b [1] ⟨1, C.main⟩).2).1))) := by
  obtain ⟨h1, h2⟩ : Shape .list b ∧ Shape .blocks r := hs
  have newsIn : ∀ (l : List Nat) (vs : List WStr), ∀ k ∈ l, C.known vs k ∨ C.known ((news C l vs).map (·.1)) k := by
    intro l
    induction l with
    | nil => intro vs k hk; cases hk
    | cons j l ih =>
      intro vs k hk
      rw [news]
      by_cases hj : C.known vs j
      · rw [if_pos hj]
        rcases List.mem_cons.mp hk with rfl | hk
        · exact .inl hj
        · exact ih vs k hk
      · rw [if_neg hj]
        rcases List.mem_cons.mp hk with rfl | hk
        · exact .inr (.inr (by simp))
        · rcases ih (C.srcName (C.target j) :: vs) k hk with h | h
          · rcases h with h | h
            · exact .inl (.inl h)
            rcases List.mem_cons.mp h with h | h
            · exact .inr (.inr (by simp [h]))
            · exact .inl (.inr h)
          · rcases h with h | h
            · exact .inl (.inl h)
            · exact .inr (.inr (by rw [List.map_cons]; exact List.mem_cons_of_mem _ h))
  have both : ∀ {vs a b : List WStr} {k : Nat}, (∀ x, x ∈ vs ↔ x ∈ a ∨ x ∈ b) → C.known a k ∨ C.known b k → C.known vs k := by
    rintro vs a b k h ((g | g) | (g | g))
    · exact .inl g
    · exact .inr ((h _).mpr (.inl g))
    · exact .inl g
    · exact .inr ((h _).mpr (.inr g))
  unfold Cfg.method
  have hv : Or' (C.visit (.container C.main (.bcons lbl b r)) [] ⟨fs, 0, (C.src.take params).map (·.1)⟩) fun s => Wr fs s.fs (itemsLex C (.opn :: Stmt.blockLabel lbl b) ++
      (declLex C.ci (news C (stores b) ((C.src.take params).map (·.1))) ++
      itemsLex C ((emit C.main false b [1] ⟨1, C.main⟩).1 ++ .cls :: (emit C.main false r [1] (emit C.main false b [1] ⟨1, C.main⟩).2).1))) := by
    rw [Cfg.visit]
    refine Or'.bind (Q := fun s : VS => Wr fs s.fs (itemsLex C (.opn :: Stmt.blockLabel lbl b) ++ (declLex C.ci (news C (stores b) ((C.src.take params).map (·.1))) ++
      itemsLex C ((emit C.main false b [1] ⟨1, C.main⟩).1 ++ .cls :: (emit C.main false r [1] (emit C.main false b [1] ⟨1, C.main⟩).2).1)))) ?_ fun s' hs' => Or'.ok (by
        rw [if_neg (by simp)]; exact hs')
    rw [Cfg.visit]
    refine (openBrace_wr hC.nl (at_self fs)).bind fun f1 ⟨a1, w1⟩ => ?_
    unfold Cfg.startBlock
    obtain ⟨a2, w2⟩ := addLabel_spec hC lbl b a1
    refine (declare_wr hC (stores b) ⟨C.addLabel lbl b f1, 1, (C.src.take params).map (·.1)⟩ (fs.indent + 1) true a2).bind fun s1 ⟨n1, v1, ⟨a', a3⟩, w3⟩ => ?_
    refine (visit_done hC b .list h1 (by intro p hp; cases b <;> first | (exact False.elim h1) | (simp [sectionsOf] at hp)) [1] ⟨1, C.main⟩ s1 n1 a3.chars (by simp)
      (fun k hk => both v1 (newsIn _ _ k hk))).bind fun s2 d2 => ?_
    obtain ⟨c2, w4⟩ := d2.wr (ended_list h1)
    refine (closeBrace_wr hC.nl (ind := fs.indent) (fs := s2.fs) ⟨d2.2.2.1.trans a3.indent, rfl, rfl⟩).bind fun f3 ⟨a4, w5⟩ => ?_
    refine (visit_done hC r .blocks h2 (by intro p hp; cases r <;> first | (exact False.elim h2) | (simp [sectionsOf] at hp)) [1] (emit C.main false b [1] ⟨1, C.main⟩).2 { s2 with fs := f3 } d2.1
      a4.chars (by simp) (by intro k hk; show C.known s2.vars k; rw [d2.2.1]; exact both v1 (hr k hk))).mono fun s3 d3 => ?_
    obtain ⟨c3, w6⟩ := d3.wr (ended_blocks h2)
    have := ((((w1.trans w2).trans w3).trans w4).trans w5).trans w6
    simpa [itemsLex, itemLex] using this
  refine hv.bind fun s ⟨t, e, h⟩ => Or'.ok ?_
  rw [e, List.drop_left]
  have := h []
  rw [List.append_nil] at this
  unfold lex
  rw [this]
  simp [lexS, Read.St.flush]

end Verif.Text
