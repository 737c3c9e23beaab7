import Verif.CppRead
/-!
# Lemmas on reading characters
-/
namespace Verif.Read
open Cpp Sem
open Verif.IntVal (Ty)

/-! ## Lexemes -/

/-- The characters that follow an expression: space, `)`, `,`, `:`, `;`. -/
def isSep (c : Nat) : Bool := c == 32 || c == 41 || c == 44 || c == 58 || c == 59

def Sep : WStr → Prop
  | [] => True
  | c :: _ => isSep c = true

theorem sep_cases {c : Nat} (h : isSep c = true) : c = 32 ∨ c = 41 ∨ c = 44 ∨ c = 58 ∨ c = 59 := by
  simp only [isSep, Bool.or_eq_true, beq_iff_eq] at h
  omega

/-- `s` is read as the lexemes `ls` in front of every separator. -/
def Lx (s : WStr) (ls : List Lexeme) : Prop := ∀ rest, Sep rest → lexS .none (s ++ rest) = (lexS .none rest).map (ls ++ ·)

/-- `s` is read as the lexemes `ls` whatever follows. -/
def Ly (s : WStr) (ls : List Lexeme) : Prop := ∀ rest, lexS .none (s ++ rest) = (lexS .none rest).map (ls ++ ·)

theorem Ly.lx {s : WStr} {ls : List Lexeme} (h : Ly s ls) : Lx s ls := fun rest _ => h rest

theorem Ly.nil : Ly [] [] := fun rest => by simp

theorem Ly.lx_append {a b : WStr} {la lb : List Lexeme} (h : Ly a la) (g : Lx b lb) : Lx (a ++ b) (la ++ lb) := by
  intro rest hr
  rw [List.append_assoc, h, g rest hr, Option.map_map]
  congr 1
  funext x
  simp

theorem Ly.append {a b : WStr} {la lb : List Lexeme} (h : Ly a la) (g : Ly b lb) : Ly (a ++ b) (la ++ lb) := by
  intro rest
  rw [List.append_assoc, h, g rest, Option.map_map]
  congr 1
  funext x
  simp

theorem Lx.ly_append {a b : WStr} {la lb : List Lexeme} (h : Lx a la) (g : Ly b lb) (hb : ∃ c r, b = c :: r ∧ isSep c = true) : Ly (a ++ b) (la ++ lb) := by
  intro rest
  obtain ⟨c, r, rfl, hc⟩ := hb
  rw [List.append_assoc, h _ (show Sep (c :: r ++ rest) from hc), g rest, Option.map_map]
  congr 1
  funext x
  simp

theorem lex_none_cons (c : Nat) (r : WStr) : lexS .none (c :: r) = (start c).bind fun st => lexS st r := by
  rw [lexS]
  rw [if_neg (by simp [St.extends]), if_neg (by simp)]
  cases start c with
  | none => rfl
  | some st => simp [St.flush]

/-- The lexeme ends before `c`. -/
theorem lex_break {st : St} {c : Nat} (h : st.extends c = false) (hs : st ≠ .punct [47]) (r : WStr) :
    lexS st (c :: r) = (lexS .none (c :: r)).map (st.flush ++ ·) := by
  rw [lex_none_cons, lexS, h, if_neg (by simp), if_neg (fun x => hs x.1)]
  cases start c <;> rfl

theorem lex_end (st : St) : lexS st [] = (lexS .none []).map (st.flush ++ ·) := by simp [lexS, St.flush]

theorem lex_ext {st : St} {c : Nat} (h : st.extends c = true) (r : WStr) : lexS st (c :: r) = lexS (st.push c) r := by
  rw [lexS, if_pos h]

/-- A white space is skipped. -/
theorem ly_space : Ly (w " ") [] := by
  intro rest
  show lexS .none (32 :: rest) = _
  rw [lex_none_cons]
  have : start 32 = some .none := by decide
  rw [this]
  simp

/-- Identifiers. -/
theorem lex_word (s : WStr) : ∀ (a rest : WStr), (∀ c ∈ s, isPart c = true) → lexS (.word a) (s ++ rest) = lexS (.word (a ++ s)) rest := by
  induction s with
  | nil => intro a rest _; simp
  | cons c s ih =>
    intro a rest h
    rw [List.cons_append, lex_ext (show (St.word a).extends c = true from h c List.mem_cons_self)]
    show lexS (.word (a ++ [c])) (s ++ rest) = _
    rw [ih _ _ (fun d hd => h d (List.mem_cons_of_mem _ hd)), List.append_assoc, List.singleton_append]

theorem lex_num (s : WStr) : ∀ (a rest : WStr), (∀ c ∈ s, isDigit c = true) → lexS (.num a) (s ++ rest) = lexS (.num (a ++ s)) rest := by
  induction s with
  | nil => intro a rest _; simp
  | cons c s ih =>
    intro a rest h
    rw [List.cons_append, lex_ext (show (St.num a).extends c = true by
      simp only [St.extends, isPart, h c List.mem_cons_self, Bool.or_true, Bool.true_or])]
    show lexS (.num (a ++ [c])) (s ++ rest) = _
    rw [ih _ _ (fun d hd => h d (List.mem_cons_of_mem _ hd)), List.append_assoc, List.singleton_append]

/-- What is lexically an identifier, as in CppLexSpec. -/
theorem ident_parts {s : WStr} (h : CppLex.isIdent s = true) : ∃ c r, s = c :: r ∧ isStart c = true ∧ ∀ d ∈ r, isPart d = true := by
  cases s with
  | nil => cases h
  | cons c r =>
    simp only [CppLex.isIdent, Bool.and_eq_true, List.all_eq_true] at h
    refine ⟨c, r, rfl, h.1, fun d hd => ?_⟩
    have := h.2 d hd
    simp only [isPart, isStart, isDigit, Bool.or_eq_true] at this ⊢
    rcases this with h | h
    · exact .inl h
    · exact .inr h

theorem start_word {c : Nat} (h : isStart c = true) : start c = some (.word [c]) := by
  unfold start
  have hw : isWhite c = false := by
    simp only [isStart, isWhite, Bool.or_eq_true, Bool.and_eq_true, beq_iff_eq, decide_eq_true_eq, Bool.or_eq_false_iff, beq_eq_false_iff_ne] at *
    omega
  rw [hw, if_neg (by simp), if_pos h]

theorem start_num {c : Nat} (h : isDigit c = true) : start c = some (.num [c]) := by
  unfold start
  have hw : isWhite c = false := by
    simp only [isDigit, isWhite, Bool.or_eq_true, Bool.and_eq_true, beq_iff_eq, decide_eq_true_eq, Bool.or_eq_false_iff, beq_eq_false_iff_ne] at *
    omega
  have hs : isStart c = false := by
    simp only [isDigit, isStart, Bool.or_eq_true, Bool.and_eq_true, beq_iff_eq, decide_eq_true_eq, Bool.or_eq_false_iff, beq_eq_false_iff_ne,
      Bool.and_eq_false_iff, decide_eq_false_iff_not] at *
    omega
  rw [hw, hs, if_neg (by simp), if_neg (by simp), if_pos h]

theorem lex_ident {s : WStr} (h : CppLex.isIdent s = true) (rest : WStr) : lexS .none (s ++ rest) = lexS (.word s) rest := by
  obtain ⟨c, r, rfl, hc, hr⟩ := ident_parts h
  rw [List.cons_append, lex_none_cons, start_word hc]
  show lexS (.word [c]) (r ++ rest) = _
  rw [lex_word r _ _ hr]
  rfl

/-- An identifier before a character that cannot belong to it. -/
theorem lex_ident_break {s : WStr} (h : CppLex.isIdent s = true) {c : Nat} (hc : isPart c = false) (r : WStr) :
    lexS .none (s ++ c :: r) = (lexS .none (c :: r)).map (Lexeme.word s :: ·) := by
  rw [lex_ident h, lex_break (show (St.word s).extends c = false from hc) (by simp)]
  rfl

theorem lx_ident {s : WStr} (h : CppLex.isIdent s = true) : Lx s [.word s] := by
  intro rest hr
  cases rest with
  | nil => rw [lex_ident h, lex_end]; rfl
  | cons c r =>
    refine lex_ident_break h ?_ r
    rcases sep_cases hr with rfl | rfl | rfl | rfl | rfl <;> decide

theorem lx_num {s : WStr} (h : s ≠ []) (hd : ∀ c ∈ s, isDigit c = true) : Lx s [.num s] := by
  intro rest hr
  have e : ∀ rest, lexS .none (s ++ rest) = lexS (.num s) rest := by
    intro rest
    cases s with
    | nil => exact absurd rfl h
    | cons c r =>
      rw [List.cons_append, lex_none_cons, start_num (hd c List.mem_cons_self)]
      show lexS (.num [c]) (r ++ rest) = _
      rw [lex_num r _ _ (fun d hx => hd d (List.mem_cons_of_mem _ hx))]
      rfl
  rw [e]
  cases rest with
  | nil => rw [lex_end]; rfl
  | cons c r =>
    rw [lex_break (show (St.num s).extends c = false from ?_) (by simp)]
    · rfl
    · rcases sep_cases hr with rfl | rfl | rfl | rfl | rfl <;> simp [St.extends, isPart, isStart, isDigit]

/-- A punctuator of one character that no longer one starts with. -/
theorem ly_one (c : Nat) (h1 : start c = some (.punct [c])) (h2 : ∀ d, puncts.contains [c, d] = false) (h3 : c ≠ 47) : Ly [c] [.punct [c]] := by
  intro rest
  rw [List.singleton_append, lex_none_cons, h1]
  show lexS (.punct [c]) rest = _
  cases rest with
  | nil => rw [lex_end]; rfl
  | cons d r =>
    rw [lex_break (show (St.punct [c]).extends d = false from h2 d) (by intro e; injection e with e; injection e with e _; exact h3 e)]
    rfl

theorem ly_lp : Ly (w "(") [.punct (w "(")] := ly_one 40 (by decide) (by intro d; simp [puncts, w]) (by decide)
theorem ly_rp : Ly (w ")") [.punct (w ")")] := ly_one 41 (by decide) (by intro d; simp [puncts, w]) (by decide)
theorem ly_comma : Ly (w ",") [.punct (w ",")] := ly_one 44 (by decide) (by intro d; simp [puncts, w]) (by decide)
theorem ly_tilde : Ly (w "~") [.punct (w "~")] := ly_one 126 (by decide) (by intro d; simp [puncts, w]) (by decide)
theorem ly_ques : Ly (w "?") [.punct (w "?")] := ly_one 63 (by decide) (by intro d; simp [puncts, w]) (by decide)
theorem ly_semi : Ly (w ";") [.punct (w ";")] := ly_one 59 (by decide) (by intro d; simp [puncts, w]) (by decide)
theorem ly_lb : Ly (w "{") [.punct (w "{")] := ly_one 123 (by decide) (by intro d; simp [puncts, w]) (by decide)
theorem ly_rb : Ly (w "}") [.punct (w "}")] := ly_one 125 (by decide) (by intro d; simp [puncts, w]) (by decide)

/-- A punctuator in front of a space. -/
theorem ly_punct_space (p : WStr) (hp : p ≠ [47]) (h1 : ∀ rest, lexS .none (p ++ rest) = lexS (.punct p) rest) (h2 : puncts.contains (p ++ [32]) = false) :
    Ly (p ++ w " ") [.punct p] := by
  intro rest
  rw [List.append_assoc, h1]
  show lexS (.punct p) (32 :: rest) = _
  rw [lex_break (show (St.punct p).extends 32 = false from h2) (by simpa using hp)]
  have := ly_space rest
  rw [show w " " ++ rest = 32 :: rest from rfl] at this
  rw [this]
  cases lexS .none rest <;> rfl

theorem run_one (c : Nat) (h1 : start c = some (.punct [c])) (rest : WStr) : lexS .none ([c] ++ rest) = lexS (.punct [c]) rest := by
  rw [List.singleton_append, lex_none_cons, h1]; rfl

theorem run_two (c d : Nat) (h1 : start c = some (.punct [c])) (h2 : puncts.contains [c, d] = true) (rest : WStr) :
    lexS .none ([c, d] ++ rest) = lexS (.punct [c, d]) rest := by
  rw [List.cons_append, List.singleton_append, lex_none_cons, h1]
  show lexS (.punct [c]) (d :: rest) = _
  rw [lex_ext (show (St.punct [c]).extends d = true from h2)]
  rfl

/-! ## Tokens -/

/-- The lexemes do not continue a name. -/
def NoScope : List Lexeme → Prop
  | .punct p :: _ => p ≠ w "::"
  | _ => True

/-- `ls` are the tokens `ts` before everything that does not continue a name. -/
def Rx (ents : List (WStr × Entity)) (ls : List Lexeme) (ts : List Tok) : Prop :=
  ∀ rest, NoScope rest → resolve ents (ls ++ rest) = (resolve ents rest).map (ts ++ ·)

theorem Rx.nil (ents : List (WStr × Entity)) : Rx ents [] [] := fun rest _ => by simp

theorem noScope_append {a b : List Lexeme} (ha : NoScope a) (hb : NoScope b) : NoScope (a ++ b) := by
  cases a with
  | nil => exact hb
  | cons x r => cases x <;> first | exact ha | trivial

theorem Rx.append {ents : List (WStr × Entity)} {a b : List Lexeme} {ta tb : List Tok} (h : Rx ents a ta) (g : Rx ents b tb) (hb : NoScope b) :
    Rx ents (a ++ b) (ta ++ tb) := by
  intro rest hr
  rw [List.append_assoc, h _ (noScope_append hb hr), g rest hr, Option.map_map]
  congr 1
  funext x
  simp

theorem rx_punct (ents : List (WStr × Entity)) {p : WStr} {t : Tok} (h : punctTok p = some t) : Rx ents [.punct p] [t] := by
  intro rest _
  show resolve ents (.punct p :: rest) = _
  rw [resolve, h]
  rfl

theorem rx_num (ents : List (WStr × Entity)) {s : WStr} {t : Tok} (h : numTok ents s = some t) : Rx ents [.num s] [t] := by
  intro rest _
  show resolve ents (.num s :: rest) = _
  rw [resolve, h]
  rfl

theorem rx_word (ents : List (WStr × Entity)) {s : WStr} {t : Tok} (h : nameTok ents s = some t) : Rx ents [.word s] [t] := by
  intro rest hr
  show resolve ents (.word s :: rest) = _
  match rest, hr with
  | .punct p :: .word b :: r, hr =>
    rw [resolve, if_neg hr, h]
    rfl
  | [], _ => simp [resolve, h]
  | .word a :: r, _ => rw [resolve, h]; rfl; simp
  | .num a :: r, _ => rw [resolve, h]; rfl; simp
  | [.punct p], _ => rw [resolve, h]; rfl; simp
  | .punct p :: .punct b :: r, _ => rw [resolve, h]; rfl; simp
  | .punct p :: .num b :: r, _ => rw [resolve, h]; rfl; simp

theorem rx_scoped (ents : List (WStr × Entity)) {a b : WStr} {t : Tok} (h : nameTok ents (a ++ w "::" ++ b) = some t) :
    Rx ents [.word a, .punct (w "::"), .word b] [t] := by
  intro rest _
  show resolve ents (.word a :: .punct (w "::") :: .word b :: rest) = _
  rw [resolve, if_pos rfl, h]
  rfl

/-! ## Characters to tokens -/

/-- `s` is read as the tokens `ts` in front of every separator. -/
def Tx (ents : List (WStr × Entity)) (s : WStr) (ts : List Tok) : Prop := ∃ ls, Lx s ls ∧ Rx ents ls ts ∧ NoScope ls

/-- `s` is read as the tokens `ts` whatever follows. -/
def Ty' (ents : List (WStr × Entity)) (s : WStr) (ts : List Tok) : Prop := ∃ ls, Ly s ls ∧ Rx ents ls ts ∧ NoScope ls

theorem Ty'.tx {ents : List (WStr × Entity)} {s : WStr} {ts : List Tok} (h : Ty' ents s ts) : Tx ents s ts := by
  obtain ⟨ls, a, b, c⟩ := h
  exact ⟨ls, a.lx, b, c⟩

theorem Ty'.tx_append {ents : List (WStr × Entity)} {a b : WStr} {ta tb : List Tok} (h : Ty' ents a ta) (g : Tx ents b tb) : Tx ents (a ++ b) (ta ++ tb) := by
  obtain ⟨la, a1, a2, a3⟩ := h
  obtain ⟨lb, b1, b2, b3⟩ := g
  exact ⟨la ++ lb, a1.lx_append b1, a2.append b2 b3, noScope_append a3 b3⟩

theorem Ty'.append {ents : List (WStr × Entity)} {a b : WStr} {ta tb : List Tok} (h : Ty' ents a ta) (g : Ty' ents b tb) : Ty' ents (a ++ b) (ta ++ tb) := by
  obtain ⟨la, a1, a2, a3⟩ := h
  obtain ⟨lb, b1, b2, b3⟩ := g
  exact ⟨la ++ lb, a1.append b1, a2.append b2 b3, noScope_append a3 b3⟩

theorem Tx.ty_append {ents : List (WStr × Entity)} {a b : WStr} {ta tb : List Tok} (h : Tx ents a ta) (g : Ty' ents b tb)
    (hb : ∃ c r, b = c :: r ∧ isSep c = true) : Ty' ents (a ++ b) (ta ++ tb) := by
  obtain ⟨la, a1, a2, a3⟩ := h
  obtain ⟨lb, b1, b2, b3⟩ := g
  exact ⟨la ++ lb, a1.ly_append b1 hb, a2.append b2 b3, noScope_append a3 b3⟩

theorem Tx.reads {ents : List (WStr × Entity)} {s : WStr} {ts : List Tok} (h : Tx ents s ts) : ∃ ls, lex s = some ls ∧ resolve ents ls = some ts := by
  obtain ⟨ls, a, b, _⟩ := h
  refine ⟨ls, ?_, ?_⟩
  · have := a [] trivial
    rw [List.append_nil] at this
    unfold lex
    rw [this]
    simp [lexS, St.flush]
  · have := b [] trivial
    rw [List.append_nil] at this
    rw [this]
    simp [resolve]

theorem ty_space (ents : List (WStr × Entity)) : Ty' ents (w " ") [] := ⟨[], ly_space, Rx.nil ents, trivial⟩

theorem ty_punct (ents : List (WStr × Entity)) {s p : WStr} {t : Tok} (h : Ly s [.punct p]) (ht : punctTok p = some t) (hn : p ≠ w "::") : Ty' ents s [t] :=
  ⟨_, h, rx_punct ents ht, hn⟩

theorem ty_lp (ents : List (WStr × Entity)) : Ty' ents (w "(") [.lp] := ty_punct ents ly_lp rfl (by decide)
theorem ty_rp (ents : List (WStr × Entity)) : Ty' ents (w ")") [.rp] := ty_punct ents ly_rp rfl (by decide)
theorem ty_comma (ents : List (WStr × Entity)) : Ty' ents (w ",") [.comma] := ty_punct ents ly_comma rfl (by decide)
theorem ty_tilde (ents : List (WStr × Entity)) : Ty' ents (w "~") [.tilde] := ty_punct ents ly_tilde rfl (by decide)
theorem ty_ques (ents : List (WStr × Entity)) : Ty' ents (w "?") [.ques] := ty_punct ents ly_ques rfl (by decide)
theorem ty_colon (ents : List (WStr × Entity)) : Ty' ents (w ": ") [.colon] :=
  ty_punct ents (ly_punct_space [58] (by decide) (run_one 58 (by decide)) (by decide)) rfl (by decide)
theorem ty_asg (ents : List (WStr × Entity)) : Ty' ents (w "= ") [.asg] :=
  ty_punct ents (ly_punct_space [61] (by decide) (run_one 61 (by decide)) (by decide)) rfl (by decide)

theorem tx_word (ents : List (WStr × Entity)) {s : WStr} {t : Tok} (hi : CppLex.isIdent s = true) (h : nameTok ents s = some t) : Tx ents s [t] :=
  ⟨_, lx_ident hi, rx_word ents h, trivial⟩

/-! ## Entities -/

theorem position_append_some {a b : List (WStr × Entity)} {s : WStr} {x : Nat × Entity} (h : position a s = some x) : position (a ++ b) s = some x := by
  induction a generalizing x with
  | nil => cases h
  | cons p a ih =>
    obtain ⟨n, e⟩ := p
    simp only [List.cons_append, position] at h ⊢
    by_cases hs : s = n
    · rw [if_pos hs] at h ⊢; exact h
    · rw [if_neg hs] at h ⊢
      cases hp : position a s with
      | none => rw [hp] at h; cases h
      | some y => rw [hp] at h; rw [ih hp]; exact h

theorem position_append_none {a b : List (WStr × Entity)} {s : WStr} (h : ∀ e ∈ a, s ≠ e.1) :
    position (a ++ b) s = (position b s).map fun x => (x.1 + a.length, x.2) := by
  induction a with
  | nil => simp
  | cons p a ih =>
    obtain ⟨n, e⟩ := p
    simp only [List.cons_append, position]
    rw [if_neg (h _ List.mem_cons_self), ih (fun e he => h e (List.mem_cons_of_mem _ he)), Option.map_map]
    congr 1

theorem position_vars (vars : List (WStr × Ty)) (m : Nat) (hd : (vars.map (·.1)).Nodup) (k : Nat) (n : WStr) (ty : Ty) (h : vars[k]? = some (n, ty)) :
    position ((List.range' m vars.length).zipWith (fun k p => (p.1, Entity.var p.2 k)) vars) n = some (k, .var ty (m + k)) := by
  induction vars generalizing m k with
  | nil => simp at h
  | cons p vars ih =>
    rw [List.length_cons, List.range'_succ, List.zipWith_cons_cons]
    simp only [position]
    rw [List.map_cons, List.nodup_cons] at hd
    cases k with
    | zero =>
      simp only [List.getElem?_cons_zero, Option.some.injEq] at h
      subst h
      simp
    | succ k =>
      rw [List.getElem?_cons_succ] at h
      have hne : n ≠ p.1 := by
        rintro rfl
        apply hd.1
        exact List.mem_map.mpr ⟨_, List.mem_of_getElem? h, rfl⟩
      rw [if_neg hne, ih (m + 1) hd.2 k h]
      simp [Nat.add_comm, Nat.add_left_comm]

/-- The variables of a method have names of their own: identifiers, different from each other, not keywords and not names of the library. -/
structure Scope (vars : List (WStr × Ty)) : Prop where
  ident : ∀ p ∈ vars, CppLex.isIdent p.1 = true
  keyword : ∀ p ∈ vars, ¬ CppLex.isKeyword p.1
  distinct : (vars.map (·.1)).Nodup
  free : ∀ p ∈ vars, ∀ e ∈ library, p.1 ≠ e.1

/-- The static members of a program: names `Class::Method`, different from each other and from the names of the library. -/
structure Funs (funs : List Fun) : Prop where
  parts : ∀ p ∈ funs, ∃ a b, CppLex.isIdent a = true ∧ CppLex.isIdent b = true ∧ p.name = a ++ w "::" ++ b
  distinct : (funs.map (·.name)).Nodup
  free : ∀ p ∈ funs, ∀ e ∈ library, p.name ≠ e.1

theorem funs_nil : Funs [] := ⟨fun _ h => absurd h List.not_mem_nil, List.nodup_nil, fun _ h => absurd h List.not_mem_nil⟩

theorem entities_length (vars : List (WStr × Ty)) (funs : List Fun) : (entities vars funs).length = library.length + vars.length + funs.length := by
  simp [entities, Nat.add_assoc]

theorem entities_var (vars : List (WStr × Ty)) (funs : List Fun) (k : Nat) (n : WStr) (ty : Ty) (h : vars[k]? = some (n, ty)) :
    (entities vars funs)[library.length + k]? = some (n, .var ty k) := by
  unfold entities
  have hk : k < vars.length := by
    rcases Nat.lt_or_ge k vars.length with h' | h'
    · exact h'
    · rw [List.getElem?_eq_none h'] at h; cases h
  rw [List.append_assoc, List.getElem?_append_right (by omega), Nat.add_sub_cancel_left, List.getElem?_append_left (by simpa using hk), List.getElem?_zipWith, h]
  rw [List.getElem?_range hk]

theorem entities_lib (vars : List (WStr × Ty)) (funs : List Fun) (k : Nat) (x : WStr × Entity) (h : library[k]? = some x) : (entities vars funs)[k]? = some x := by
  unfold entities
  rw [List.append_assoc, List.getElem?_append_left]
  · exact h
  · rcases Nat.lt_or_ge k library.length with h' | h'
    · exact h'
    · rw [List.getElem?_eq_none h'] at h; cases h

theorem entities_fun (vars : List (WStr × Ty)) (funs : List Fun) (f : Nat) (p : Fun) (h : funs[f]? = some p) :
    (entities vars funs)[library.length + vars.length + f]? = some (p.name, p.entity f) := by
  unfold entities
  have hk : f < funs.length := by
    rcases Nat.lt_or_ge f funs.length with h' | h'
    · exact h'
    · rw [List.getElem?_eq_none h'] at h; cases h
  have hl : (library ++ (List.range vars.length).zipWith (fun k p => (p.1, Entity.var p.2 k)) vars).length = library.length + vars.length := by simp
  rw [List.getElem?_append_right (by omega), hl, Nat.add_sub_cancel_left, List.getElem?_zipWith, h, List.getElem?_range hk]

theorem Fun.entity_notVar (p : Fun) (f : Nat) : (p.entity f).isVar = false := by
  unfold Fun.entity
  cases p.place with
  | some k => rfl
  | none => show Entity.isVar (if p.void then _ else _) = false; cases p.void <;> rfl

theorem Fun.entity_tok (p : Fun) (f n : Nat) : (match p.entity f with | .type _ => Tok.ty n | _ => Tok.id n) = .id n := by
  unfold Fun.entity
  cases p.place with
  | some k => rfl
  | none => cases p.void <;> rfl

theorem slotOf_entities (vars : List (WStr × Ty)) (funs : List Fun) : slotOf (entities vars funs) = vars.length := by
  unfold slotOf entities
  have h1 : library.filter (fun e => e.2.isVar) = [] := by decide +kernel
  have h2 : ∀ (l : List Nat) (vars : List (WStr × Ty)), l.length = vars.length → ((l.zipWith (fun k p => (p.1, Entity.var p.2 k)) vars).filter (fun e => e.2.isVar)).length = vars.length := by
    intro l vars h
    rw [List.filter_eq_self.mpr]
    · simp [h]
    · intro x hx
      obtain ⟨i, hi, rfl⟩ := List.mem_iff_getElem.mp hx
      simp [Entity.isVar]
  have h3 : ∀ (l : List Nat) (funs : List Fun), (l.zipWith (fun f p => (p.name, p.entity f)) funs).filter (fun e => e.2.isVar) = [] := by
    intro l funs
    rw [List.filter_eq_nil_iff]
    intro x hx
    obtain ⟨i, hi, rfl⟩ := List.mem_iff_getElem.mp hx
    simp only [List.getElem_zipWith]
    rw [Fun.entity_notVar]
    simp
  rw [List.filter_append, List.filter_append, h1, h3, List.nil_append, List.append_nil, h2 _ _ (by simp)]

theorem nameTok_var {vars : List (WStr × Ty)} (hs : Scope vars) (funs : List Fun) {k : Nat} {n : WStr} {ty : Ty} (h : vars[k]? = some (n, ty)) :
    nameTok (entities vars funs) n = some (.id (library.length + k)) := by
  unfold nameTok entities
  have hm := List.mem_of_getElem? h
  have hk : (CppLex.keywords.map w).contains n = false := by
    rw [Bool.eq_false_iff]
    intro hc
    rw [List.contains_iff_mem, List.mem_map] at hc
    obtain ⟨x, hx, e⟩ := hc
    exact hs.keyword _ hm ⟨x, hx, e.symm⟩
  rw [hk, if_neg (by simp), List.append_assoc, position_append_none (fun e he => hs.free _ hm e he), List.range_eq_range',
    position_append_some (position_vars vars 0 hs.distinct k n ty h)]
  simp [Nat.add_comm]

theorem nameTok_lib (vars : List (WStr × Ty)) (funs : List Fun) {s : WStr} {t : Tok} (h : nameTok library s = some t) : nameTok (entities vars funs) s = some t := by
  unfold nameTok at *
  by_cases hk : (CppLex.keywords.map w).contains s = true
  · rw [if_pos hk] at h; cases h
  rw [if_neg hk] at h ⊢
  cases hp : position library s with
  | none => rw [hp] at h; cases h
  | some x => unfold entities; rw [List.append_assoc, position_append_some hp]; rw [hp] at h; exact h

theorem position_funs (funs : List Fun) (m : Nat) (hd : (funs.map (·.name)).Nodup) (k : Nat) (p : Fun) (h : funs[k]? = some p) :
    position ((List.range' m funs.length).zipWith (fun f p => (p.name, p.entity f)) funs) p.name = some (k, p.entity (m + k)) := by
  induction funs generalizing m k with
  | nil => simp at h
  | cons q funs ih =>
    rw [List.length_cons, List.range'_succ, List.zipWith_cons_cons]
    simp only [position]
    rw [List.map_cons, List.nodup_cons] at hd
    cases k with
    | zero =>
      simp only [List.getElem?_cons_zero, Option.some.injEq] at h
      subst h
      simp
    | succ k =>
      rw [List.getElem?_cons_succ] at h
      have hne : p.name ≠ q.name := by
        intro e
        apply hd.1
        rw [← e]
        exact List.mem_map.mpr ⟨_, List.mem_of_getElem? h, rfl⟩
      rw [if_neg hne, ih (m + 1) hd.2 k h]
      simp [Nat.add_comm, Nat.add_left_comm]

theorem colon_not_ident {a b : WStr} {s : WStr} (e : s = a ++ w "::" ++ b) : CppLex.isIdent s = false := by
  rw [Bool.eq_false_iff]
  intro h
  obtain ⟨c, r, h1, h2, h3⟩ := ident_parts h
  have hm : 58 ∈ s := by rw [e]; simp [w]
  rw [h1, List.mem_cons] at hm
  rcases hm with hm | hm
  · rw [← hm] at h2; revert h2; decide
  · have := h3 58 hm; revert this; decide

theorem nameTok_fun {vars : List (WStr × Ty)} (hs : Scope vars) {funs : List Fun} (hf : Funs funs) {f : Nat} {p : Fun} (h : funs[f]? = some p) :
    nameTok (entities vars funs) p.name = some (.id (library.length + vars.length + f)) := by
  unfold nameTok entities
  have hm := List.mem_of_getElem? h
  obtain ⟨a, b, _, _, e⟩ := hf.parts p hm
  have hk : (CppLex.keywords.map w).contains p.name = false := by
    rw [Bool.eq_false_iff]
    intro hc
    rw [List.contains_iff_mem] at hc
    have hall : ∀ s ∈ CppLex.keywords.map w, 58 ∉ s := by decide +kernel
    exact hall _ hc (by rw [e]; simp [w])
  rw [hk, if_neg (by simp), position_append_none, List.range_eq_range' (n := funs.length), position_funs funs 0 hf.distinct f p h]
  · simp [Nat.add_comm]
    exact Fun.entity_tok p f _
  · intro x hx
    rw [List.mem_append] at hx
    rcases hx with hx | hx
    · exact hf.free p hm x hx
    · obtain ⟨i, hi, rfl⟩ := List.mem_iff_getElem.mp hx
      rw [List.getElem_zipWith]
      intro e'
      have hi' : i < vars.length := by simpa using hi
      have := hs.ident (vars[i]) (List.getElem_mem hi')
      rw [← show p.name = vars[i].1 from e', colon_not_ident e] at this
      cases this

end Verif.Read
