import Verif.StmtTextLemmas
/-!
# Lemmas for C156: the lexemes of a method body are those of its pieces
-/
namespace Verif.Text
open Cpp Sem Read Stmt Method
open Verif.IntVal (Ty)

/-- After visiting an instruction (or a list of them). -/
def Done (C : Cfg) (il : IL) (stk : List Nat) (st : Stmt.St) (s s' : VS) : Prop :=
  s'.n = (emit C.main false il stk st).2.n ∧ s'.vars = s.vars ∧ s'.fs.indent = s.fs.indent ∧
  ((ended il = true ∧ ∃ i ls, (emit C.main false il stk st).1 = [i] ∧ WrX s.fs s'.fs ls ∧ itemLex C i = ls ++ [pt ";"] ∧ s'.fs.chars = true) ∨
   (ended il = false ∧ s'.fs.chars = false ∧ Wr s.fs s'.fs (itemsLex C (emit C.main false il stk st).1)))

theorem at_self (fs : Fmt.St) : At fs fs.indent fs.onNewline fs.chars := ⟨rfl, rfl, rfl⟩

theorem declare_done (C : Cfg) : ∀ (l : List Nat) (s : VS), (∀ k ∈ l, C.known s.vars k) → C.declare l s = .ok s
  | [], _, _ => rfl
  | k :: r, s, h => by
    have : C.declare1 s k = .ok s := by unfold Cfg.declare1; rw [if_pos (h k List.mem_cons_self)]
    rw [Cfg.declare, this]
    exact declare_done C r s fun j hj => h j (List.mem_cons_of_mem _ hj)

theorem blockLabel_cases (lbl : Nat) (b : IL) : Stmt.blockLabel lbl b = [] ∨ Stmt.blockLabel lbl b = [.blockLabel lbl] := by
  unfold Stmt.blockLabel
  split
  · exact .inl rfl
  · split
    · exact .inl rfl
    · exact .inr rfl
  · exact .inr rfl

theorem addLabel_spec {C : Cfg} (hC : C.Ok) (lbl : Nat) (b : IL) {fs : Fmt.St} {ind : Int} (h : At fs ind true false) :
    At (C.addLabel lbl b fs) ind true false ∧ Wr fs (C.addLabel lbl b fs) (itemsLex C (Stmt.blockLabel lbl b)) := by
  unfold Cfg.addLabel
  rcases blockLabel_cases lbl b with e | e
  · rw [e, if_pos rfl]
    exact ⟨h, Wr.refl _⟩
  · rw [e, if_neg (by simp), if_pos h.onNewline]
    refine ⟨appendLine_at _ _ (append_at h (t := labelText lbl) (by simp [labelText, w])), labelText lbl ++ (w ":" ++ C.nl), ?_, ?_⟩
    · rw [appendLine_out]
      show fs.out ++ labelText lbl ++ _ = _
      rw [List.append_assoc]
    · exact ly_label hC.nl (labelText_ident lbl)

theorem startBlock_spec {C : Cfg} (hC : C.Ok) (lbl : Nat) (b : IL) {s : VS} {ind : Int} (h : At s.fs ind true false) (hv : ∀ k ∈ stores b, C.known s.vars k) :
    ∃ s', C.startBlock lbl b s = .ok s' ∧ s'.n = s.n ∧ s'.vars = s.vars ∧ At s'.fs ind true false ∧ Wr s.fs s'.fs (itemsLex C (Stmt.blockLabel lbl b)) := by
  unfold Cfg.startBlock
  rw [declare_done C _ { s with fs := C.addLabel lbl b s.fs } hv]
  exact ⟨_, rfl, rfl, rfl, (addLabel_spec hC lbl b h).1, (addLabel_spec hC lbl b h).2⟩

theorem itemsLex_append (C : Cfg) (a b : List Item) : itemsLex C (a ++ b) = itemsLex C a ++ itemsLex C b := List.flatMap_append
theorem itemsLex_cons (C : Cfg) (i : Item) (b : List Item) : itemsLex C (i :: b) = itemLex C i ++ itemsLex C b := List.flatMap_cons

theorem endBrace_eq (nl : WStr) (fs : Fmt.St) {il : IL} (h : ∀ b, il ≠ .block b) : endBrace nl il fs = Fmt.closeBrace nl (Fmt.append fs (w ";")) false := by
  cases il <;> first | rfl | exact absurd rfl (h _)

theorem semiIf_ended {il : IL} (h : ended il = true) : semiIf il = [] ∧ ∀ b, il ≠ .block b := by
  cases il with
  | act => exact ⟨rfl, fun _ e => by cases e⟩
  | leave => exact ⟨rfl, fun _ e => by cases e⟩
  | branch => exact ⟨rfl, fun _ e => by cases e⟩
  | _ => cases h

theorem semiIf_other {il : IL} (h : ended il = false) : (∃ b, il = .block b ∧ semiIf il = []) ∨ (semiIf il = [.semi] ∧ ∀ b, il ≠ .block b) := by
  cases il with
  | act => cases h
  | leave => cases h
  | branch => cases h
  | block b => exact .inl ⟨_, rfl, rfl⟩
  | _ => exact .inr ⟨rfl, fun _ e => by cases e⟩

/-- The end of a branch: lines 783-786. -/
theorem endBrace_spec {C : Cfg} (hC : C.Ok) {il : IL} {stk : List Nat} {st : Stmt.St} {s s' : VS} {ind : Int} (hi : s.fs.indent = ind + 1) (h : Done C il stk st s s') :
    Or' (endBrace C.nl il s'.fs) fun fs => At fs ind true false ∧ Wr s.fs fs (itemsLex C ((emit C.main false il stk st).1 ++ semiIf il ++ [.cls])) := by
  obtain ⟨_, _, h3, h4⟩ := h
  have ha : At s'.fs (ind + 1) s'.fs.onNewline s'.fs.chars := ⟨by rw [h3, hi], rfl, rfl⟩
  rcases h4 with ⟨he, i, ls, e1, e2, e3, e4⟩ | ⟨he, e1, e2⟩
  · obtain ⟨e6, e5⟩ := semiIf_ended he
    rw [endBrace_eq _ _ e5, e6, e1]
    refine (closeBrace_wr hC.nl (append_at ha (by decide))).mono fun fs ⟨g1, g2⟩ => ⟨g1, ?_⟩
    have := (e2.semi (c := Fmt.append s'.fs (w ";")) (u := []) rfl Ly.nil).trans g2
    rw [← e3] at this
    simpa [itemsLex, itemLex] using this
  · rcases semiIf_other he with ⟨b, rfl, e5⟩ | ⟨e5, e6⟩
    · refine (closeBrace_wr hC.nl ha).mono fun fs ⟨g1, g2⟩ => ⟨g1, ?_⟩
      have := e2.trans g2
      simpa [itemsLex, itemLex, semiIf] using this
    · rw [endBrace_eq _ _ e6, e5]
      refine (closeBrace_wr hC.nl (append_at ha (by decide))).mono fun fs ⟨g1, g2⟩ => ⟨g1, ?_⟩
      have := (e2.trans (append_wr (fs := s'.fs) ly_semi)).trans g2
      simpa [itemsLex, itemLex] using this

/-- The end of a line of a block: lines 335-336. -/
theorem lineEnd_spec {C : Cfg} (hC : C.Ok) {il : IL} {stk : List Nat} {st : Stmt.St} {s s' : VS} (h : Done C il stk st s s') :
    At (Fmt.appendLine C.nl (if s'.fs.chars then Fmt.append s'.fs (w ";") else s'.fs) []) s.fs.indent true false ∧
    Wr s.fs (Fmt.appendLine C.nl (if s'.fs.chars then Fmt.append s'.fs (w ";") else s'.fs) []) (itemsLex C (emit C.main false il stk st).1) := by
  obtain ⟨_, _, h3, h4⟩ := h
  rcases h4 with ⟨he, i, ls, e1, e2, e3, e4⟩ | ⟨he, e1, e2⟩
  · rw [e4, if_pos rfl, e1]
    refine ⟨⟨h3, rfl, rfl⟩, ?_⟩
    have := e2.semi (c := Fmt.appendLine C.nl (Fmt.append s'.fs (w ";")) []) (u := C.nl) (by
      rw [appendLine_out]
      show s'.fs.out ++ w ";" ++ _ = _
      simp) hC.nl.ly
    rw [← e3] at this
    simpa [itemsLex] using this
  · rw [e1, if_neg (by simp)]
    refine ⟨⟨h3, rfl, rfl⟩, ?_⟩
    have := e2.trans (appendLine_wr (fs := s'.fs) (nl := C.nl) (t := []) (ls := []) hC.nl.ly)
    simpa using this

/-- The end of a section: line 1292. -/
theorem sectionEnd_spec {C : Cfg} (hC : C.Ok) {il : IL} {stk : List Nat} {st : Stmt.St} {s s' : VS} (h : Done C il stk st s s') :
    At (Fmt.appendLine C.nl s'.fs (w ";")) s.fs.indent true false ∧ Wr s.fs (Fmt.appendLine C.nl s'.fs (w ";")) (itemsLex C ((emit C.main false il stk st).1 ++ semiSec il)) := by
  obtain ⟨_, _, h3, h4⟩ := h
  refine ⟨⟨h3, rfl, rfl⟩, ?_⟩
  rcases h4 with ⟨he, i, ls, e1, e2, e3, e4⟩ | ⟨he, e1, e2⟩
  · have := e2.semi (c := Fmt.appendLine C.nl s'.fs (w ";")) (u := C.nl) (appendLine_out _ _ _) hC.nl.ly
    rw [← e3] at this
    rw [e1]
    simpa [itemsLex, semiSec, he] using this
  · have := e2.trans (appendLine_wr (fs := s'.fs) (ly_semi.append hC.nl.ly))
    simpa [itemsLex, semiSec, he, itemLex] using this

/-- The label of a section: lines 1274-1290. -/
theorem caseText_spec {C : Cfg} (hC : C.Ok) {ls : LongSet} (hw : ls.WF) (hne : ls ≠ []) {fs : Fmt.St} {ind : Int} {a : Bool} (h : At fs ind a false) :
    Or' (caseText fs ls) fun fs' => At (Fmt.appendLine C.nl fs' (w ":")) ind true false ∧ Wr fs (Fmt.appendLine C.nl fs' (w ":")) (itemLex C (Stmt.caseHead ls)) := by
  cases ls with
  | nil => exact absurd rfl hne
  | cons p r =>
    obtain ⟨lo, hi⟩ := p
    obtain ⟨c, r', en, n1, n2⟩ := hC.nl.head
    have hnl := hC.nl.ly
    unfold caseText Stmt.caseHead
    simp only []
    split
    · refine (indented_spec h (w "default")).mono fun f1 ⟨g1, f0, g2, g3⟩ => ⟨appendLine_at _ _ g1, ?_⟩
      have := g2.trans (c := Fmt.appendLine C.nl f1 (w ":")) (l2 := itemLex C .defaultHead) ⟨w "default" ++ (w ":" ++ C.nl), by
        rw [appendLine_out, g3, List.append_assoc], ly_label hC.nl (by decide)⟩
      simpa using this
    · refine (indented_spec h (w "case ")).bind fun f1 ⟨g1, f0, g2, g3⟩ => Or'.ok ⟨⟨g1.indent, rfl, rfl⟩, ?_⟩
      have hlo : -2 ^ 63 < lo ∧ lo < 2 ^ 63 := by
        obtain ⟨w1, w2, w3, _⟩ := hw
        simp only at w1 w2 w3
        omega
      have hc : Ly (decInt lo ++ (w ":" ++ C.nl)) (lexOf (decInt lo) ++ [pt ":"]) := by
        refine (decInt_lx hlo).ly_append ?_ ⟨58, C.nl, rfl, by decide⟩
        rw [en] at hnl ⊢
        exact ly_colon_then n2 hnl
      have := g2.trans (c := Fmt.appendLine C.nl (Fmt.append f1 (decInt lo)) (w ":")) (l2 := itemLex C (.caseHead lo)) ⟨w "case " ++ (decInt lo ++ (w ":" ++ C.nl)), by
        rw [appendLine_out]
        show f1.out ++ decInt lo ++ _ = _
        rw [g3]
        simp only [List.append_assoc], (ly_word_space (s := w "case") (by decide)).append hc⟩
      simpa using this

theorem ended_list {il : IL} (h : Shape .list il) : ended il = false := by
  cases il <;> first | rfl | exact False.elim h
theorem ended_blocks {il : IL} (h : Shape .blocks il) : ended il = false := by
  cases il <;> first | rfl | exact False.elim h
theorem ended_handlers {il : IL} (h : Shape .handlers il) : ended il = false := by
  cases il <;> first | rfl | exact False.elim h
theorem ended_sections {il : IL} (h : Shape .sections il) : ended il = false := by
  cases il <;> first | rfl | exact False.elim h

theorem Done.wr {C : Cfg} {il : IL} {stk : List Nat} {st : Stmt.St} {s s' : VS} (h : Done C il stk st s s') (he : ended il = false) :
    s'.fs.chars = false ∧ Wr s.fs s'.fs (itemsLex C (emit C.main false il stk st).1) := by
  rcases h.2.2.2 with ⟨e, _⟩ | ⟨_, e1, e2⟩
  · rw [he] at e; cases e
  · exact ⟨e1, e2⟩

/-- A braced block with its label, visited: lines 302-308, 1352-1356 and 1335-1340. -/
theorem braced_spec {C : Cfg} (hC : C.Ok) {b : IL} (hb : Shape .list b) {stk : List Nat} {st : Stmt.St} {s : VS} {ind : Int} {fs : Fmt.St} (ha : At fs (ind + 1) true false)
    (hv : ∀ k ∈ stores b, C.known s.vars k) (hn : s.n = st.n)
    (ih : ∀ s : VS, s.n = st.n → s.fs.chars = false → (∀ k ∈ stores b, C.known s.vars k) → Or' (C.visit b stk s) (Done C b stk st s))
    {f : VS → Res VS} {R : VS → Prop}
    (next : ∀ (s' : VS) (fs' : Fmt.St), s'.n = (emit C.main false b stk st).2.n → s'.vars = s.vars → At fs' ind true false →
      Wr fs fs' (itemsLex C (Stmt.blockLabel lbl b ++ (emit C.main false b stk st).1 ++ [.cls])) → Or' (f { s' with fs := fs' }) R) :
    Or' (C.startBlock lbl b { s with fs := fs } >>= fun s => C.visit b stk s >>= fun s => Fmt.closeBrace C.nl s.fs false >>= fun fs => f { s with fs := fs }) R := by
  obtain ⟨s1, e1, n1, v1, a1, w1⟩ := startBlock_spec hC lbl b (s := { s with fs := fs }) ha hv
  rw [e1]
  show Or' (C.visit b stk s1 >>= _) R
  refine (ih s1 (n1.trans hn) a1.chars (by rw [v1]; exact hv)).bind fun s2 d => ?_
  obtain ⟨c2, w2⟩ := d.wr (ended_list hb)
  refine (closeBrace_wr hC.nl (ind := ind) (fs := s2.fs) ⟨by rw [d.2.2.1, a1.indent], rfl, rfl⟩).bind fun f3 ⟨a3, w3⟩ => ?_
  refine next s2 f3 d.1 (d.2.1.trans v1) a3 ?_
  have := (w1.trans w2).trans w3
  simpa [itemsLex, itemLex] using this

theorem visit_done {C : Cfg} (hC : C.Ok) (il : IL) : ∀ kd, Shape kd il → (∀ p ∈ sectionsOf il, LongSet.WF p.1 ∧ p.1 ≠ []) → ∀ stk (st : Stmt.St) (s : VS), s.n = st.n →
    s.fs.chars = false → (kd = .instr → s.fs.onNewline = false) → (∀ k ∈ stores il, C.known s.vars k) → Or' (C.visit il stk s) (Done C il stk st s) := by
  induction il with
  | nop =>
    intro kd hs _ stk st s hn hc _ _
    exact Or'.ok ⟨hn, rfl, rfl, .inr ⟨rfl, hc, Wr.refl _⟩⟩
  | act k =>
    intro kd hs _ stk st s hn hc _ _
    exact Or'.ok ⟨hn, rfl, rfl, .inl ⟨rfl, _, _, rfl, append_wrx (hC.store k).1, rfl, (append_at (at_self s.fs) (store_ne hC k)).chars⟩⟩
  | silent b ih =>
    intro kd hs _ stk st s hn hc _ _
    exact Or'.ok ⟨hn, rfl, rfl, .inr ⟨rfl, hc, Wr.refl _⟩⟩
  | leave t e v =>
    intro kd hs _ stk st s hn hc _ _
    obtain ⟨ls, h1, h2, h3⟩ := leave_lx hC stk t e v
    refine Or'.ok ⟨hn, rfl, rfl, .inl ⟨rfl, _, ls, ?_, append_wrx h1, h2, (append_at (at_self s.fs) h3).chars⟩⟩
    show (if e = 0 then [Item.ret t v] else [.goto t (stk.headD 0)]) = _
    split <;> rfl
  | branch l =>
    intro kd hs _ stk st s hn hc _ _
    exact Or'.ok ⟨hn, rfl, rfl, .inl ⟨rfl, _, _, rfl, append_wrx (branch_lx l), rfl, (append_at (at_self s.fs) (by simp [w])).chars⟩⟩
  | ite c t f iht ihf =>
    intro kd hs _ stk st s hn hc ho hv
    cases kd <;> try exact False.elim hs
    have hv' : (∀ k ∈ stores t, C.known s.vars k) ∧ ∀ k ∈ stores f, C.known s.vars k :=
      ⟨fun k hk => hv k (List.mem_append_left _ hk), fun k hk => hv k (List.mem_append_right _ hk)⟩
    rw [Cfg.visit, if_neg (by simp [hc])]
    refine (openBrace_wr hC.nl (append_at (at_self s.fs) (t := w "if " ++ (w "(" ++ (C.cond c ++ w ")"))) (by simp [w]))).bind fun f1 ⟨a1, w1⟩ => ?_
    refine (indentedEmpty_spec a1).bind fun f2 ⟨a2, w2⟩ => ?_
    have sec : ∀ il, Shape .instr il → ∀ p ∈ sectionsOf il, LongSet.WF p.1 ∧ p.1 ≠ [] := by
      intro il h p hp
      cases il <;> first | (exact False.elim h) | (simp [sectionsOf] at hp)
    refine (iht .instr hs.1 (sec t hs.1) stk st { s with fs := f2 } hn a2.chars (fun _ => a2.onNewline) hv'.1).bind fun s1 d1 => ?_
    refine (endBrace_spec hC (ind := s.fs.indent) a2.indent d1).bind fun f3 ⟨a3, w3⟩ => ?_
    have wt : Wr s.fs f3 (itemsLex C (.ifHead c :: .opn :: (emit C.main false t stk st).1 ++ semiIf t ++ [.cls])) := by
      have := ((append_wr (fs := s.fs) (ly_cond hC c)).trans w1).trans (w2.trans w3)
      simpa [itemsLex, itemLex] using this
    by_cases hf : f = .nop
    · rw [if_pos hf]
      refine Or'.ok ⟨?_, d1.2.1, a3.indent, .inr ⟨rfl, a3.chars, ?_⟩⟩
      · subst hf
        rw [d1.1]; rfl
      · subst hf
        exact wt
    · rw [if_neg hf]
      refine (indented_spec a3 (w "else ")).bind fun f4 ⟨a4, f4', w4, o4⟩ => ?_
      refine (openBrace_wr hC.nl a4).bind fun f5 ⟨a5, w5⟩ => ?_
      refine (indentedEmpty_spec a5).bind fun f6 ⟨a6, w6⟩ => ?_
      refine (ihf .instr hs.2 (sec f hs.2) stk (emit C.main false t stk st).2 { s1 with fs := f6 } d1.1 a6.chars (fun _ => a6.onNewline)
        (by show ∀ k ∈ stores f, C.known s1.vars _; rw [d1.2.1]; exact hv'.2)).bind fun s2 d2 => ?_
      refine (endBrace_spec hC (ind := s.fs.indent) a6.indent d2).bind fun f7 ⟨a7, w7⟩ => ?_
      refine Or'.ok ⟨?_, d2.2.1.trans d1.2.1, a7.indent, .inr ⟨rfl, a7.chars, ?_⟩⟩
      · show s2.n = (if f = .nop then _ else _ : Stmt.St).n
        rw [if_neg hf, d2.1]
      · have we : Wr f4' f4 [wd "else"] := ⟨w "else ", o4, ly_word_space (s := w "else") (by decide)⟩
        have := wt.trans ((w4.trans we).trans ((w5.trans w6).trans w7))
        show Wr s.fs f7 (itemsLex C (_ :: _ :: (emit C.main false t stk st).1 ++ semiIf t ++ .cls :: (if f = .nop then _ else _)))
        rw [if_neg hf]
        simpa [itemsLex, itemLex] using this
  | block b ih =>
    intro kd hs _ stk st s hn hc ho hv
    cases kd <;> try exact False.elim hs
    rw [Cfg.visit, if_neg (by simp [ho rfl]), declare_done C (stores b) s hv]
    refine (ih .list hs (by intro p hp; cases b <;> first | (exact False.elim hs) | (simp [sectionsOf] at hp)) stk st s hn hc (by simp) hv).mono fun s' d => ?_
    have := d.wr (ended_list hs)
    exact ⟨d.1, d.2.1, d.2.2.1, .inr ⟨rfl, this⟩⟩
  | container id bs ih =>
    intro kd hs _ stk st s hn hc ho hv
    cases kd <;> try exact False.elim hs
    have hb : Shape .blocks bs := hs
    rw [Cfg.visit]
    refine (ih .blocks hs (by intro p hp; cases bs <;> first | (exact False.elim hb) | (simp [sectionsOf] at hp)) ((s.n + 1) :: stk) ⟨s.n + 1, id⟩ { s with n := s.n + 1 } rfl hc (by simp) hv).bind fun s' d => ?_
    obtain ⟨c1, w1⟩ := d.wr (ended_blocks hb)
    rw [hn] at d w1 ⊢
    by_cases hl : id ≠ C.main ∧ leaves id bs = true
    · rw [if_pos hl]
      refine Or'.ok ⟨d.1, d.2.1, d.2.2.1, .inr ⟨rfl, rfl, ?_⟩⟩
      have := w1.trans (c := Fmt.appendLine C.nl (Fmt.append s'.fs (leaveText (st.n + 1))) (w ":")) ⟨leaveText (st.n + 1) ++ (w ":" ++ C.nl), by
        rw [appendLine_out]
        show s'.fs.out ++ leaveText _ ++ _ = _
        rw [List.append_assoc], ly_label hC.nl (leaveText_ident _)⟩
      show Wr s.fs _ (itemsLex C ((emit C.main false bs ((st.n + 1) :: stk) ⟨st.n + 1, id⟩).1 ++ if _ then _ else _))
      rw [if_pos hl]
      simpa [itemsLex, itemLex] using this
    · rw [if_neg hl]
      refine Or'.ok ⟨d.1, d.2.1, d.2.2.1, .inr ⟨rfl, c1, ?_⟩⟩
      show Wr s.fs _ (itemsLex C ((emit C.main false bs ((st.n + 1) :: stk) ⟨st.n + 1, id⟩).1 ++ if _ then _ else _))
      rw [if_neg hl]
      simpa [itemsLex] using w1
  | tryCatch tid lbl f r hs ihf ihr ihh =>
    intro kd hsh _ stk st s hn hc ho hv
    cases kd <;> try exact False.elim hsh
    obtain ⟨h1, rfl, h2⟩ : Shape .list f ∧ r = .bnil ∧ Shape .handlers hs := hsh
    have hv' : (∀ k ∈ stores f, C.known s.vars k) ∧ ∀ k ∈ stores hs, C.known s.vars k :=
      ⟨fun k hk => hv k (by simp [stores, hk]), fun k hk => hv k (by simp [stores, hk])⟩
    rw [Cfg.visit]
    refine (openBrace_spec hC.nl (append_at (at_self s.fs) (t := w "try") (by decide))).bind fun f1 ⟨a1, t, o1, l1⟩ => ?_
    have w1 : Wr s.fs f1 [wd "try", pt "{"] := by
      obtain ⟨c, r', en, n1, n2⟩ := hC.nl.head
      have hnl := hC.nl.ly
      refine ⟨w "try" ++ (C.nl ++ t), ?_, ?_⟩
      · rw [o1]
        show s.fs.out ++ w "try" ++ (C.nl ++ t) = _
        rw [List.append_assoc]
      · have := hnl.append l1
        rw [en] at this ⊢
        exact ly_word_then (by decide) n1 this
    refine braced_spec hC (s := { s with n := s.n + 1 }) (st := ⟨st.n + 1, st.cur⟩) h1 a1 hv'.1 (by show s.n + 1 = st.n + 1; rw [hn])
      (fun s' e1 e2 e3 => ihf .list h1 (by intro p hp; cases f <;> first | (exact False.elim h1) | (simp [sectionsOf] at hp)) _ _ s' e1 e2 (by simp) e3)
      (f := fun s2 => C.visit hs ((s.n + 1) :: stk) s2 >>= fun s3 => .ok { s3 with fs := Fmt.appendLine C.nl (Fmt.append s3.fs (leaveText (s.n + 1))) (w ":;") })
      fun s2 f2 n2 v2 a2 w2 => ?_
    refine (ihh .handlers h2 (by intro p hp; cases hs <;> first | (exact False.elim h2) | (simp [sectionsOf] at hp)) _ _ { s2 with fs := f2 } n2 a2.chars (by simp)
      (by show ∀ k ∈ stores hs, C.known s2.vars _; rw [v2]; exact hv'.2)).bind fun s3 d => ?_
    obtain ⟨c3, w3⟩ := d.wr (ended_handlers h2)
    refine Or'.ok ⟨?_, d.2.1.trans v2, ?_, .inr ⟨rfl, rfl, ?_⟩⟩
    · show s3.n = _
      rw [d.1]; rw [hn]; rfl
    · show s3.fs.indent = _
      rw [d.2.2.1]; exact a2.indent
    · have w4 : Wr s3.fs (Fmt.appendLine C.nl (Fmt.append s3.fs (leaveText (s.n + 1))) (w ":;")) [.word (leaveText (s.n + 1)), pt ":", pt ";"] :=
        ⟨leaveText (s.n + 1) ++ (w ":;" ++ C.nl), by
          rw [appendLine_out]
          show s3.fs.out ++ leaveText _ ++ _ = _
          rw [List.append_assoc], ly_labelSemi hC.nl (leaveText_ident _)⟩
      have := ((w1.trans w2).trans w3).trans w4
      rw [hn] at this ⊢
      show Wr s.fs _ (itemsLex C (.tryHead :: .opn :: Stmt.blockLabel lbl f ++ (emit C.main false f ((st.n + 1) :: stk) ⟨st.n + 1, st.cur⟩).1 ++ .cls ::
        (emit C.main false hs ((st.n + 1) :: stk) (emit C.main false f ((st.n + 1) :: stk) ⟨st.n + 1, st.cur⟩).2).1 ++ [.leaveLabel (tid :: handlerIds hs) (st.n + 1), .semi]))
      simpa [itemsLex, itemLex] using this
  | switch v ss ih =>
    intro kd hs _ stk st s hn hc ho hv
    cases kd <;> try exact False.elim hs
    obtain ⟨h1, h2, h3⟩ : Shape .sections ss ∧ (sectionsOf ss).WF ∧ ∀ p ∈ sectionsOf ss, p.1.has (-2 ^ 63) ∨ ∃ v, p.1 = [(v, v)] := hs
    rw [Cfg.visit]
    refine (openBrace_wr hC.nl (append_at (at_self s.fs) (t := w "switch(" ++ (C.val v ++ w ")")) (by simp [w]))).bind fun f1 ⟨a1, w1⟩ => ?_
    refine (ih .sections h1 h2.1 stk st { s with fs := f1 } hn a1.chars (by simp) hv).bind fun s1 d => ?_
    obtain ⟨c2, w2⟩ := d.wr (ended_sections h1)
    refine (closeBrace_wr hC.nl (ind := s.fs.indent) (fs := s1.fs) ⟨d.2.2.1.trans a1.indent, rfl, rfl⟩).bind fun f3 ⟨a3, w3⟩ => ?_
    refine Or'.ok ⟨d.1, d.2.1, a3.indent, .inr ⟨rfl, a3.chars, ?_⟩⟩
    have := (((append_wr (fs := s.fs) (ly_switch hC v)).trans w1).trans w2).trans w3
    show Wr s.fs _ (itemsLex C (.switchHead v :: .opn :: (emit C.main false ss stk st).1 ++ [.cls]))
    simpa [itemsLex, itemLex] using this
  | nil =>
    intro kd hs _ stk st s hn hc _ _
    exact Or'.ok ⟨hn, rfl, rfl, .inr ⟨rfl, hc, Wr.refl _⟩⟩
  | cons a r iha ihr =>
    intro kd hs _ stk st s hn hc ho hv
    cases kd <;> try exact False.elim hs
    obtain ⟨h1, h2⟩ : Shape .instr a ∧ Shape .list r := hs
    have hv' : (∀ k ∈ stores a, C.known s.vars k) ∧ ∀ k ∈ stores r, C.known s.vars k :=
      ⟨fun k hk => hv k (List.mem_append_left _ hk), fun k hk => hv k (List.mem_append_right _ hk)⟩
    rw [Cfg.visit]
    refine (startLine_spec (a := s.fs.onNewline) ⟨rfl, rfl, hc⟩).bind fun f1 ⟨a1, w1⟩ => ?_
    refine (iha .instr h1 (by intro p hp; cases a <;> first | (exact False.elim h1) | (simp [sectionsOf] at hp)) stk st { s with fs := f1 } hn a1.chars (fun _ => a1.onNewline) hv'.1).bind
      fun s1 d1 => ?_
    obtain ⟨a2, w2⟩ := lineEnd_spec hC d1
    refine (ihr .list h2 (by intro p hp; cases r <;> first | (exact False.elim h2) | (simp [sectionsOf] at hp)) stk (emit C.main false a stk st).2
      { s1 with fs := Fmt.appendLine C.nl (if s1.fs.chars then Fmt.append s1.fs (w ";") else s1.fs) [] } d1.1 a2.chars (by simp)
      (by show ∀ k ∈ stores r, C.known s1.vars _; rw [d1.2.1]; exact hv'.2)).mono fun s2 d2 => ?_
    obtain ⟨c3, w3⟩ := d2.wr (ended_list h2)
    have hd : dropped false a r = false := by unfold dropped; split <;> rfl
    have he : emit C.main false (.cons a r) stk st = ((emit C.main false a stk st).1 ++ (emit C.main false r stk (emit C.main false a stk st).2).1,
        (emit C.main false r stk (emit C.main false a stk st).2).2) := by
      show (if dropped false a r = true then _ else _) = _
      rw [hd, if_neg (by simp)]
    refine ⟨by rw [he]; exact d2.1, d2.2.1.trans d1.2.1, d2.2.2.1.trans (a2.indent.trans a1.indent), .inr ⟨rfl, c3, ?_⟩⟩
    rw [he]
    have := (w1.trans w2).trans w3
    simpa [itemsLex] using this
  | bnil =>
    intro kd hs _ stk st s hn hc _ _
    exact Or'.ok ⟨hn, rfl, rfl, .inr ⟨rfl, hc, Wr.refl _⟩⟩
  | bcons lbl b r ihb ihr =>
    intro kd hs _ stk st s hn hc ho hv
    cases kd <;> try exact False.elim hs
    obtain ⟨h1, h2⟩ : Shape .list b ∧ Shape .blocks r := hs
    have hv' : (∀ k ∈ stores b, C.known s.vars k) ∧ ∀ k ∈ stores r, C.known s.vars k :=
      ⟨fun k hk => hv k (List.mem_append_left _ hk), fun k hk => hv k (List.mem_append_right _ hk)⟩
    rw [Cfg.visit]
    refine (openBrace_wr hC.nl (at_self s.fs)).bind fun f1 ⟨a1, w1⟩ => ?_
    refine braced_spec hC (s := s) (st := st) h1 a1 hv'.1 hn
      (fun s' e1 e2 e3 => ihb .list h1 (by intro p hp; cases b <;> first | (exact False.elim h1) | (simp [sectionsOf] at hp)) _ _ s' e1 e2 (by simp) e3)
      (f := fun s => C.visit r stk s) fun s2 f2 n2 v2 a2 w2 => ?_
    refine (ihr .blocks h2 (by intro p hp; cases r <;> first | (exact False.elim h2) | (simp [sectionsOf] at hp)) stk _ { s2 with fs := f2 } n2 a2.chars (by simp)
      (by show ∀ k ∈ stores r, C.known s2.vars _; rw [v2]; exact hv'.2)).mono fun s3 d => ?_
    obtain ⟨c3, w3⟩ := d.wr (ended_blocks h2)
    refine ⟨d.1, d.2.1.trans v2, d.2.2.1.trans a2.indent, .inr ⟨rfl, c3, ?_⟩⟩
    have := (w1.trans w2).trans w3
    show Wr s.fs _ (itemsLex C (.opn :: Stmt.blockLabel lbl b ++ (emit C.main false b stk st).1 ++ (if false = true ∧ _ then _ else []) ++ .cls ::
      (emit C.main false r stk (emit C.main false b stk st).2).1))
    simpa [itemsLex, itemLex] using this
  | hnil =>
    intro kd hs _ stk st s hn hc _ _
    exact Or'.ok ⟨hn, rfl, rfl, .inr ⟨rfl, hc, Wr.refl _⟩⟩
  | hcons hid lbl f r n ihf ihr ihn =>
    intro kd hsh _ stk st s hn hc ho hv
    cases kd <;> try exact False.elim hsh
    obtain ⟨h1, rfl, h2⟩ : Shape .list f ∧ r = .bnil ∧ Shape .handlers n := hsh
    have hv' : (∀ k ∈ stores f, C.known s.vars k) ∧ ∀ k ∈ stores n, C.known s.vars k :=
      ⟨fun k hk => hv k (by simp [stores, hk]), fun k hk => hv k (by simp [stores, hk])⟩
    rw [Cfg.visit]
    refine (indented_spec (at_self s.fs) _).bind fun f0 ⟨a0, f0', w0, o0⟩ => ?_
    refine (openBrace_wr hC.nl a0).bind fun f1 ⟨a1, w1⟩ => ?_
    refine braced_spec hC (s := s) (st := st) h1 a1 hv'.1 hn
      (fun s' e1 e2 e3 => ihf .list h1 (by intro p hp; cases f <;> first | (exact False.elim h1) | (simp [sectionsOf] at hp)) _ _ s' e1 e2 (by simp) e3)
      (f := fun s => C.visit n stk s) fun s2 f2 n2 v2 a2 w2 => ?_
    refine (ihn .handlers h2 (by intro p hp; cases n <;> first | (exact False.elim h2) | (simp [sectionsOf] at hp)) stk _ { s2 with fs := f2 } n2 a2.chars (by simp)
      (by show ∀ k ∈ stores n, C.known s2.vars _; rw [v2]; exact hv'.2)).mono fun s3 d => ?_
    obtain ⟨c3, w3⟩ := d.wr (ended_handlers h2)
    refine ⟨d.1, d.2.1.trans v2, d.2.2.1.trans a2.indent, .inr ⟨rfl, c3, ?_⟩⟩
    have wc : Wr f0' f0 (itemLex C (.catchHead hid)) := ⟨_, o0, ly_catch hC hid⟩
    have := (((w0.trans wc).trans w1).trans w2).trans w3
    show Wr s.fs _ (itemsLex C (.catchHead hid :: .opn :: Stmt.blockLabel lbl f ++ (emit C.main false f stk st).1 ++ .cls :: (emit C.main false n stk (emit C.main false f stk st).2).1))
    simpa [itemsLex, itemLex] using this
  | snil =>
    intro kd hs _ stk st s hn hc _ _
    exact Or'.ok ⟨hn, rfl, rfl, .inr ⟨rfl, hc, Wr.refl _⟩⟩
  | scons ls b r ihb ihr =>
    intro kd hs hl stk st s hn hc ho hv
    cases kd <;> try exact False.elim hs
    obtain ⟨h1, _, h2⟩ : Shape .instr b ∧ (falls b = false ∨ r = .snil) ∧ Shape .sections r := hs
    have hv' : (∀ k ∈ stores b, C.known s.vars k) ∧ ∀ k ∈ stores r, C.known s.vars k :=
      ⟨fun k hk => hv k (List.mem_append_left _ hk), fun k hk => hv k (List.mem_append_right _ hk)⟩
    have hls := hl (ls, b) (by simp [sectionsOf])
    rw [Cfg.visit]
    refine (caseText_spec hC hls.1 hls.2 (a := s.fs.onNewline) ⟨rfl, rfl, hc⟩).bind fun f1 ⟨a1, w1⟩ => ?_
    refine (indentedEmpty_spec a1).bind fun f2 ⟨a2, w2⟩ => ?_
    refine (ihb .instr h1 (by intro p hp; cases b <;> first | (exact False.elim h1) | (simp [sectionsOf] at hp)) stk st { s with fs := f2 } hn a2.chars (fun _ => a2.onNewline) hv'.1).bind
      fun s1 d1 => ?_
    obtain ⟨a3, w3⟩ := sectionEnd_spec hC d1
    refine (ihr .sections h2 (fun p hp => hl p (by simp [sectionsOf, hp])) stk (emit C.main false b stk st).2
      { s1 with fs := Fmt.appendLine C.nl s1.fs (w ";") } d1.1 a3.chars (by simp) (by show ∀ k ∈ stores r, C.known s1.vars _; rw [d1.2.1]; exact hv'.2)).mono fun s2 d2 => ?_
    obtain ⟨c4, w4⟩ := d2.wr (ended_sections h2)
    refine ⟨d2.1, d2.2.1.trans d1.2.1, d2.2.2.1.trans (a3.indent.trans a2.indent), .inr ⟨rfl, c4, ?_⟩⟩
    have := ((w1.trans w2).trans w3).trans w4
    show Wr s.fs _ (itemsLex C (Stmt.caseHead ls :: (emit C.main false b stk st).1 ++ (semiSec b ++ (emit C.main false r stk (emit C.main false b stk st).2).1)))
    simpa [itemsLex] using this

end Verif.Text
