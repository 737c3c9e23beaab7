import Verif.ExprModel
/-!
# C60: the text written for an expression parses back to the expression
-/
namespace Verif.Expr
open Cpp

/-! ## Specification -/

/-- The C++ expression that has the structure of the instruction tree. -/
def tree : E → T
  | .atom k => .id k
  | .negLit k => .neg (.id k)
  | .bin o l r => .bin o (tree l) (tree r)
  | .div f ty l r => .call (.id f) (.acons (.cast ty (tree l)) (.acons (.cast ty (tree r)) .anil))
  | .remf f l r => .call (.id f) (.acons (tree l) (.acons (tree r) .anil))
  | .cmp o l r => .bin o (tree l) (tree r)
  | .conv (some ty) e => .cast ty (tree e)
  | .conv none e => tree e
  | .bitNot e => .compl (tree e)
  | .addr e => tree e
  | .box ty e => .new ty (.acons (tree e) .anil)
  | .castClass ty e => .cast ty (tree e)
  | .tern c t f => .tern (tree c) (tree t) (tree f)
  | .ldLen m e => .call (.member (tree e) m) .anil
  | .field e k => .member (tree e) k
  | .call e k args => .call (.member (tree e) k) (tree args)
  | .scall f args => .call (.id f) (tree args)
  | .newObj ty args => .new ty (tree args)
  | .newStruct ty args => .construct ty (tree args)
  | .newArr arr el args => .new arr (.acons (.id el) (tree args))
  | .elem ty m a args => .deref (.cast ty (.call (.member (tree a) m) (tree args)))
  | .wrap ty e => .construct ty (.acons (tree e) .anil)
  | .assign x v => .assign (.id x) (tree v)
  | .anil => .anil
  | .acons none a rest => .acons (tree a) (tree rest)
  | .acons (some k) a rest => .acons (.cast k (tree a)) (tree rest)

/-- How the text of an instruction ends up in the grammar: 0 an assignment, 1 a unary expression, 2 a postfix expression, 3 an argument list. -/
def level : E → Nat
  | .assign _ _ => 0
  | .negLit _ | .bitNot _ | .castClass _ _ | .newArr _ _ _ => 1
  | .anil | .acons _ _ _ => 3
  | _ => 2

/-- The instruction writes a conditional expression. -/
def isTern : E → Bool
  | .tern _ _ _ => true
  | _ => false

/-- The trees without the structures the translator mishandles: an assignment directly under an operator, a cast (`castclass`), complement,
negative constant or array creation directly before `->`, and a conditional as the condition of a conditional. -/
def Ok : E → Prop
  | .atom _ | .negLit _ | .anil => True
  | .bin _ l r | .div _ _ l r => (Ok l ∧ (level l = 1 ∨ level l = 2)) ∧ (Ok r ∧ (level r = 1 ∨ level r = 2))
  | .remf _ l r => (Ok l ∧ level l ≤ 2) ∧ (Ok r ∧ level r ≤ 2)
  | .cmp _ l r => (Ok l ∧ level l ≤ 2) ∧ (Ok r ∧ (level r = 1 ∨ level r = 2))
  | .conv (some _) e => Ok e ∧ (level e = 1 ∨ level e = 2)
  | .conv none e => Ok e ∧ level e ≤ 2
  | .bitNot e | .castClass _ e => Ok e ∧ (level e = 1 ∨ level e = 2)
  | .addr e | .box _ e | .wrap _ e | .assign _ e => Ok e ∧ level e ≤ 2
  | .tern c t f => (Ok c ∧ (level c = 1 ∨ level c = 2) ∧ isTern c = false) ∧ (Ok t ∧ level t ≤ 2) ∧ (Ok f ∧ level f ≤ 2)
  | .ldLen _ e | .field e _ => Ok e ∧ level e = 2
  | .call e _ args => (Ok e ∧ level e = 2) ∧ (Ok args ∧ level args = 3)
  | .scall _ args | .newObj _ args | .newStruct _ args => Ok args ∧ level args = 3
  | .newArr _ _ args => Ok args ∧ level args = 3 ∧ args ≠ .anil
  | .elem _ _ a args => (Ok a ∧ level a = 2) ∧ (Ok args ∧ level args = 3)
  | .acons _ a rest => (Ok a ∧ level a ≤ 2) ∧ (Ok rest ∧ level rest = 3)

/-! ## Proof -/

/-- For all large enough fuels. -/
abbrev Ev (p : Nat → Prop) : Prop := ∃ N, ∀ n, N ≤ n → p n

theorem Ev.step {p q : Nat → Prop} (h : Ev p) (s : ∀ n, p n → q (n + 1)) : Ev q := by
  obtain ⟨N, h⟩ := h
  refine ⟨N + 1, fun n hn => ?_⟩
  obtain ⟨m, rfl⟩ : ∃ m, n = m + 1 := ⟨n - 1, by omega⟩
  exact s m (h m (by omega))

theorem Ev.and {p q : Nat → Prop} (h : Ev p) (g : Ev q) : Ev fun n => p n ∧ q n := by
  obtain ⟨N, h⟩ := h
  obtain ⟨M, g⟩ := g
  exact ⟨max N M, fun n hn => ⟨h n (by omega), g n (by omega)⟩⟩

theorem Ev.const {p : Nat → Prop} (h : ∀ n, p (n + 1)) : Ev p :=
  ⟨1, fun n hn => by obtain ⟨m, rfl⟩ : ∃ m, n = m + 1 := ⟨n - 1, by omega⟩; exact h m⟩

/-- The text does not continue a postfix expression. -/
def NoPost : List Tok → Prop
  | .arrow :: _ | .lp :: _ => False
  | _ => True

/-- The text continues neither a postfix nor a binary expression. -/
def StopB : List Tok → Prop
  | .arrow :: _ | .lp :: _ | .op _ :: _ => False
  | _ => True

/-- The text continues no expression. -/
def Stop : List Tok → Prop
  | .arrow :: _ | .lp :: _ | .op _ :: _ | .ques :: _ | .asg :: _ => False
  | _ => True

theorem Stop.b {r : List Tok} (h : Stop r) : StopB r := by
  unfold StopB; split <;> simp_all [Stop]

theorem StopB.noPost {r : List Tok} (h : StopB r) : NoPost r := by
  unfold NoPost; split <;> simp_all [StopB]

theorem pP_stop {t : T} {r : List Tok} (h : NoPost r) : Ev fun n => pP n t r = some (t, r) := by
  refine Ev.const fun n => ?_
  unfold pP
  split <;> simp_all [NoPost]

theorem pL_stop {p : Nat} {t : T} {r : List Tok} (h : StopB r) : Ev fun n => pL n p t r = some (t, r) := by
  refine Ev.const fun n => ?_
  unfold pL
  split <;> simp_all [StopB]

/-- Texts that start an expression: not a closing parenthesis and not a type name in parentheses. -/
def Start (ts : List Tok) : Prop := (∃ t r, ts = t :: r ∧ t ≠ .rp) ∧ ∀ k r, ts ≠ .ty k :: .rp :: r

theorem start_emit (e : E) : Ok e → level e ≤ 2 → ∀ rest, Start (emitB false e ++ rest) := by
  have tok : ∀ (t : Tok) (r : List Tok), (∀ k, t ≠ .ty k) → t ≠ .rp → Start (t :: r) := by
    intro t r h1 h2
    exact ⟨⟨t, r, rfl, h2⟩, fun k r' e => h1 k (by injection e)⟩
  have tyl : ∀ (k : Nat) (r : List Tok), Start (.ty k :: .lp :: r) := by
    intro k r
    refine ⟨⟨_, _, rfl, by simp⟩, ?_⟩
    intro k r' e
    simp at e
  induction e with
  | anil => intro _ h; simp [level] at h
  | acons c a r => intro _ h; simp [level] at h
  | ldLen m e ih => intro h _ rest; unfold emitB; rw [List.append_assoc]; exact ih h.1 (by rw [h.2]; exact Nat.le_refl _) _
  | field e k ih => intro h _ rest; unfold emitB; rw [List.append_assoc]; exact ih h.1 (by rw [h.2]; exact Nat.le_refl _) _
  | call e k args ih _ =>
    intro h _ rest; unfold emitB; rw [List.append_assoc, List.append_assoc]; exact ih h.1.1 (by rw [h.1.2]; exact Nat.le_refl _) _
  | newStruct ty args => intro _ _ rest; unfold emitB; exact tyl _ _
  | wrap ty e => intro _ _ rest; unfold emitB; exact tyl _ _
  | _ => intro _ _ rest; unfold emitB; exact tok _ _ (by simp) (by simp)

/-- Parenthesised expression. -/
theorem pU_paren {n : Nat} {ts : List Tok} (h : Start ts) : pU (n + 1) (.lp :: ts) =
    match pE n ts with
    | some (t, .rp :: r') => pP n t r'
    | _ => none := by
  rw [pU]
  · rfl
  · exact fun k r e => h.2 k r e

theorem pArgs_cons {n : Nat} {ts : List Tok} (h : Start ts) : pArgs (n + 1) ts =
    match pE n ts with
    | some (a, .rp :: r) => some (.acons a .anil, r)
    | some (a, .comma :: r) => match pArgs n r with
      | some (.acons b c, r') => some (.acons a (.acons b c), r')
      | _ => none
    | _ => none := by
  rw [pArgs]
  · rfl
  · intro r e
    obtain ⟨⟨t, r', e', hne⟩, _⟩ := h
    rw [e] at e'
    exact hne (by injection e' with a _; exact a.symm)

/-- What is proved of every tree by induction, by the level of its text. -/
structure Main (e : E) : Prop where
  post : level e = 2 → ∀ rest res, Ev (fun n => pP n (tree e) rest = some res) → Ev fun n => pU n (emitB false e ++ rest) = some res
  un : level e = 1 → ∀ rest, NoPost rest → Ev fun n => pU n (emitB false e ++ rest) = some (tree e, rest)
  asg : level e = 0 → ∀ rest, Stop rest → Ev fun n => pE n (emitB false e ++ rest) = some (tree e, rest)
  args : level e = 3 → ∀ rest, Ev fun n => pArgs n (emitB false e ++ .rp :: rest) = some (tree e, rest)

theorem Main.u {e : E} (m : Main e) (h : level e = 1 ∨ level e = 2) {rest : List Tok} (hr : NoPost rest) :
    Ev fun n => pU n (emitB false e ++ rest) = some (tree e, rest) := by
  rcases h with h | h
  · exact m.un h rest hr
  · exact m.post h rest _ (pP_stop hr)

theorem Main.b {e : E} (m : Main e) (h : level e = 1 ∨ level e = 2) (p : Nat) {rest : List Tok} (hr : StopB rest) :
    Ev fun n => pB n p (emitB false e ++ rest) = some (tree e, rest) := by
  refine Ev.step ((m.u h hr.noPost).and (pL_stop (p := p) (t := tree e) hr)) ?_
  rintro n ⟨h1, h2⟩
  rw [pB, h1]
  exact h2

theorem pC_stop {n : Nat} {ts : List Tok} {t : T} {r : List Tok} (h : pB n 0 ts = some (t, r)) (hr : Stop r) : pC (n + 1) ts = some (t, r) := by
  rw [pC, h]
  cases r with
  | nil => rfl
  | cons x xs => cases x <;> simp_all [Stop]

theorem pE_stop {n : Nat} {ts : List Tok} {t : T} {r : List Tok} (h : pC n ts = some (t, r)) (hr : Stop r) : pE (n + 1) ts = some (t, r) := by
  rw [pE, h]
  cases r with
  | nil => rfl
  | cons x xs => cases x <;> simp_all [Stop]

theorem ev_pE {ts : List Tok} {t : T} {r : List Tok} (h : Ev fun n => pB n 0 ts = some (t, r)) (hr : Stop r) : Ev fun n => pE n ts = some (t, r) :=
  Ev.step (Ev.step h fun n h => pC_stop h hr) fun n h => pE_stop h hr

theorem Main.v {e : E} (m : Main e) (h : level e ≤ 2) {rest : List Tok} (hr : Stop rest) :
    Ev fun n => pE n (emitB false e ++ rest) = some (tree e, rest) := by
  by_cases h0 : level e = 0
  · exact m.asg h0 rest hr
  · exact ev_pE (m.b (by omega) 0 hr.b) hr

/-- Postfix text in parentheses: `( X )`. -/
theorem paren_post {X : List Tok} {t : T} (hs : ∀ r, Start (X ++ r)) (h : ∀ rest, Stop rest → Ev fun n => pE n (X ++ rest) = some (t, rest))
    (rest : List Tok) (res : T × List Tok) (hp : Ev fun n => pP n t rest = some res) : Ev fun n => pU n (.lp :: X ++ [.rp] ++ rest) = some res := by
  have e : Tok.lp :: X ++ [.rp] ++ rest = .lp :: (X ++ .rp :: rest) := by simp
  rw [e]
  refine Ev.step ((h (.rp :: rest) trivial).and hp) ?_
  rintro n ⟨h1, h2⟩
  rw [pU_paren (hs _), h1]
  exact h2

theorem paren_v {X : List Tok} {t : T} (hs : ∀ r, Start (X ++ r)) (h : ∀ rest, Stop rest → Ev fun n => pE n (X ++ rest) = some (t, rest))
    {rest : List Tok} (hr : Stop rest) : Ev fun n => pE n (.lp :: X ++ [.rp] ++ rest) = some (t, rest) := by
  refine ev_pE ?_ hr
  refine Ev.step ((paren_post hs h rest _ (pP_stop hr.b.noPost)).and (pL_stop (p := 0) (t := t) hr.b)) ?_
  rintro n ⟨h1, h2⟩
  rw [pB, h1]
  exact h2

theorem emit_cond {c : E} (h : isTern c = false) : emitB true c = emitB false c := by
  cases c with
  | tern => simp [isTern] at h
  | acons c a r => cases c <;> rfl
  | _ => rfl

/-- A cast: `(T) X`. -/
theorem cast_un {X : List Tok} {t : T} (k : Nat) (rest : List Tok) (h : Ev fun n => pU n (X ++ rest) = some (t, rest)) :
    Ev fun n => pU n (.lp :: .ty k :: .rp :: X ++ rest) = some (.cast k t, rest) := by
  refine Ev.step h ?_
  intro n h
  rw [List.cons_append, List.cons_append, List.cons_append, pU, h]

theorem ev_pB {ts : List Tok} {t : T} {r : List Tok} (p : Nat) (h : Ev fun n => pU n ts = some (t, r)) (hr : StopB r) :
    Ev fun n => pB n p ts = some (t, r) := by
  refine Ev.step (h.and (pL_stop (p := p) (t := t) hr)) ?_
  rintro n ⟨h1, h2⟩
  rw [pB, h1]
  exact h2

theorem ev_pU_pE {ts : List Tok} {t : T} {r : List Tok} (h : Ev fun n => pU n ts = some (t, r)) (hr : Stop r) :
    Ev fun n => pE n ts = some (t, r) := ev_pE (ev_pB 0 h hr.b) hr

/-- `L op R` at the top of a parenthesis. -/
theorem bin_v {L R : List Tok} {l r : T} (o : Op) (hl : ∀ rest, NoPost rest → Ev fun n => pU n (L ++ rest) = some (l, rest))
    (hr : ∀ rest, StopB rest → ∀ p, Ev fun n => pB n p (R ++ rest) = some (r, rest)) (rest : List Tok) (hs : Stop rest) :
    Ev fun n => pE n (L ++ .op o :: R ++ rest) = some (.bin o l r, rest) := by
  refine ev_pE ?_ hs
  have e : L ++ .op o :: R ++ rest = L ++ (.op o :: (R ++ rest)) := by simp
  rw [e]
  have hL : Ev fun n => pL n 0 l (.op o :: (R ++ rest)) = some (.bin o l r, rest) := by
    refine Ev.step ((hr rest hs.b (o.prec + 1)).and (pL_stop (p := 0) (t := .bin o l r) hs.b)) ?_
    rintro n ⟨h1, h2⟩
    rw [pL, if_pos (Nat.zero_le _), h1]
    exact h2
  refine Ev.step ((hl (.op o :: (R ++ rest)) trivial).and hL) ?_
  rintro n ⟨h1, h2⟩
  rw [pB, h1]
  exact h2

/-- Arguments: the last one. -/
theorem args_last {X : List Tok} {a : T} (hs : ∀ r, Start (X ++ r)) (h : ∀ rest, Stop rest → Ev fun n => pE n (X ++ rest) = some (a, rest))
    (rest : List Tok) : Ev fun n => pArgs n (X ++ .rp :: rest) = some (.acons a .anil, rest) := by
  refine Ev.step (h (.rp :: rest) trivial) ?_
  intro n h
  rw [pArgs_cons (hs _), h]

/-- Arguments: one before others. -/
theorem args_more {X Y : List Tok} {a b c : T} (hs : ∀ r, Start (X ++ r)) (h : ∀ rest, Stop rest → Ev fun n => pE n (X ++ rest) = some (a, rest))
    (rest : List Tok) (g : Ev fun n => pArgs n (Y ++ .rp :: rest) = some (.acons b c, rest)) :
    Ev fun n => pArgs n (X ++ .comma :: Y ++ .rp :: rest) = some (.acons a (.acons b c), rest) := by
  have e : X ++ .comma :: Y ++ .rp :: rest = X ++ (.comma :: (Y ++ .rp :: rest)) := by simp
  rw [e]
  refine Ev.step ((h (.comma :: (Y ++ .rp :: rest)) trivial).and g) ?_
  rintro n ⟨h, g⟩
  rw [pArgs_cons (hs _), h]
  simp only []
  rw [g]

/-- A call of a name. -/
theorem call_post {A : List Tok} {f : Nat} {a : T} (hA : ∀ rest, Ev fun n => pArgs n (A ++ .rp :: rest) = some (a, rest)) (rest : List Tok)
    (res : T × List Tok) (hp : Ev fun n => pP n (.call (.id f) a) rest = some res) :
    Ev fun n => pU n (.id f :: .lp :: A ++ [.rp] ++ rest) = some res := by
  have e : Tok.id f :: .lp :: A ++ [.rp] ++ rest = .id f :: .lp :: (A ++ .rp :: rest) := by simp
  rw [e]
  refine Ev.step (Ev.step ((hA rest).and hp) (q := fun n => pP n (.id f) (.lp :: (A ++ .rp :: rest)) = some res) ?_) ?_
  · rintro n ⟨h1, h2⟩
    rw [pP, h1]
    exact h2
  · intro n h
    rw [pU]
    exact h

/-- `-> m ( A )` after a postfix expression. -/
theorem method_post {A : List Tok} {t : T} {m : Nat} {a : T} (hA : ∀ rest, Ev fun n => pArgs n (A ++ .rp :: rest) = some (a, rest)) (rest : List Tok)
    (res : T × List Tok) (hp : Ev fun n => pP n (.call (.member t m) a) rest = some res) :
    Ev fun n => pP n t (.arrow :: .id m :: .lp :: A ++ [.rp] ++ rest) = some res := by
  have e : Tok.arrow :: .id m :: .lp :: A ++ [.rp] ++ rest = .arrow :: .id m :: .lp :: (A ++ .rp :: rest) := by simp
  rw [e]
  refine Ev.step (Ev.step ((hA rest).and hp) (q := fun n => pP n (.member t m) (.lp :: (A ++ .rp :: rest)) = some res) ?_) ?_
  · rintro n ⟨h1, h2⟩
    rw [pP, h1]
    exact h2
  · intro n h
    rw [pP]
    exact h

theorem new_un {A : List Tok} {ty : Nat} {a : T} (hA : ∀ rest, Ev fun n => pArgs n (A ++ .rp :: rest) = some (a, rest)) (rest : List Tok) :
    Ev fun n => pU n (.nw :: .ty ty :: .lp :: A ++ [.rp] ++ rest) = some (.new ty a, rest) := by
  have e : Tok.nw :: .ty ty :: .lp :: A ++ [.rp] ++ rest = .nw :: .ty ty :: .lp :: (A ++ .rp :: rest) := by simp
  rw [e]
  refine Ev.step (hA rest) ?_
  intro n h
  rw [pU, h]

theorem construct_post {A : List Tok} {ty : Nat} {a : T} (hA : ∀ rest, Ev fun n => pArgs n (A ++ .rp :: rest) = some (a, rest)) (rest : List Tok)
    (res : T × List Tok) (hp : Ev fun n => pP n (.construct ty a) rest = some res) :
    Ev fun n => pU n (.ty ty :: .lp :: A ++ [.rp] ++ rest) = some res := by
  have e : Tok.ty ty :: .lp :: A ++ [.rp] ++ rest = .ty ty :: .lp :: (A ++ .rp :: rest) := by simp
  rw [e]
  refine Ev.step ((hA rest).and hp) ?_
  rintro n ⟨h1, h2⟩
  rw [pU, h1]
  exact h2

theorem start_nw (r : List Tok) : Start (.nw :: r) := ⟨⟨_, _, rfl, by simp⟩, by simp⟩
theorem start_lp (r : List Tok) : Start (.lp :: r) := ⟨⟨_, _, rfl, by simp⟩, by simp⟩
theorem start_op (o : Op) (r : List Tok) : Start (.op o :: r) := ⟨⟨_, _, rfl, by simp⟩, by simp⟩
theorem start_id (k : Nat) (r : List Tok) : Start (.id k :: r) := ⟨⟨_, _, rfl, by simp⟩, by simp⟩

/-- An expression whose text is a postfix expression has only the `post` obligation. -/
theorem Main.ofPost {e : E} (h : level e = 2)
    (p : ∀ rest res, Ev (fun n => pP n (tree e) rest = some res) → Ev fun n => pU n (emitB false e ++ rest) = some res) : Main e :=
  ⟨fun _ => p, fun h' => by omega, fun h' => by omega, fun h' => by omega⟩

theorem Main.ofUn {e : E} (h : level e = 1)
    (p : ∀ rest, NoPost rest → Ev fun n => pU n (emitB false e ++ rest) = some (tree e, rest)) : Main e :=
  ⟨fun h' => by omega, fun _ => p, fun h' => by omega, fun h' => by omega⟩

theorem main (e : E) : Ok e → Main e := by
  induction e with
  | atom k =>
    intro _
    refine Main.ofPost rfl fun rest res h => Ev.step h fun n h => ?_
    show pU (n + 1) (.id k :: rest) = some res
    rw [pU]
    exact h
  | negLit k =>
    intro _
    refine Main.ofUn rfl fun rest hr => ?_
    refine Ev.step (Ev.step (pP_stop (t := .id k) hr) (q := fun n => pU n (.id k :: rest) = some (.id k, rest)) ?_) ?_
    · intro n h; rw [pU]; exact h
    · intro n h
      show pU (n + 1) (.op .sub :: .id k :: rest) = _
      rw [pU, h]
      rfl
  | bin o l r ihl ihr =>
    rintro ⟨⟨hl, ll⟩, hr, lr⟩
    refine Main.ofPost rfl fun rest res h => ?_
    have hv := bin_v (L := emitB false l) (R := emitB false r) o (fun rest h => (ihl hl).u ll h) (fun rest h p => (ihr hr).b lr p h)
    have hs : ∀ q, Start (emitB false l ++ .op o :: emitB false r ++ q) := by
      intro q; rw [List.append_assoc]; exact start_emit l hl (by omega) _
    have := paren_post hs hv rest res h
    simpa [emitB] using this
  | div f ty l r ihl ihr =>
    rintro ⟨⟨hl, ll⟩, hr, lr⟩
    refine Main.ofPost rfl fun rest res h => ?_
    have cl : ∀ rest, Stop rest → Ev fun n => pE n (.lp :: .ty ty :: .rp :: emitB false l ++ rest) = some (.cast ty (tree l), rest) :=
      fun rest hs => ev_pU_pE (cast_un ty rest ((ihl hl).u ll hs.b.noPost)) hs
    have cr : ∀ rest, Stop rest → Ev fun n => pE n (.lp :: .ty ty :: .rp :: emitB false r ++ rest) = some (.cast ty (tree r), rest) :=
      fun rest hs => ev_pU_pE (cast_un ty rest ((ihr hr).u lr hs.b.noPost)) hs
    have hA := fun rest => args_more (X := .lp :: .ty ty :: .rp :: emitB false l) (Y := .lp :: .ty ty :: .rp :: emitB false r)
      (fun r => start_lp _) cl rest (args_last (fun r => start_lp _) cr rest)
    have := call_post (f := f) hA rest res h
    simpa [emitB] using this
  | remf f l r ihl ihr =>
    rintro ⟨⟨hl, ll⟩, hr, lr⟩
    refine Main.ofPost rfl fun rest res h => ?_
    have hA := fun rest => args_more (X := emitB false l) (Y := emitB false r) (start_emit l hl ll) (fun rest hs => (ihl hl).v ll hs) rest
      (args_last (start_emit r hr lr) (fun rest hs => (ihr hr).v lr hs) rest)
    have := call_post (f := f) hA rest res h
    simpa [emitB] using this
  | cmp o l r ihl ihr =>
    rintro ⟨⟨hl, ll⟩, hr, lr⟩
    refine Main.ofPost rfl fun rest res h => ?_
    have hL : ∀ rest, NoPost rest → Ev fun n => pU n ((.lp :: emitB false l ++ [.rp]) ++ rest) = some (tree l, rest) :=
      fun rest hp => paren_post (start_emit l hl ll) (fun rest hs => (ihl hl).v ll hs) rest _ (pP_stop hp)
    have hv := bin_v (L := .lp :: emitB false l ++ [.rp]) (R := emitB false r) o hL (fun rest h p => (ihr hr).b lr p h)
    have hs : ∀ q, Start ((.lp :: emitB false l ++ [.rp]) ++ .op o :: emitB false r ++ q) := fun q => start_lp _
    have := paren_post hs hv rest res h
    simpa [emitB] using this
  | conv ty e ih =>
    cases ty with
    | none =>
      rintro ⟨he, le⟩
      refine Main.ofPost rfl fun rest res h => ?_
      have := paren_post (start_emit e he le) (fun rest hs => (ih he).v le hs) rest res h
      simpa [emitB, castToks] using this
    | some ty =>
      rintro ⟨he, le⟩
      refine Main.ofPost rfl fun rest res h => ?_
      have hv : ∀ rest, Stop rest → Ev fun n => pE n (.lp :: .ty ty :: .rp :: emitB false e ++ rest) = some (.cast ty (tree e), rest) :=
        fun rest hs => ev_pU_pE (cast_un ty rest ((ih he).u le hs.b.noPost)) hs
      have := paren_post (fun q => start_lp _) hv rest res h
      simpa [emitB, castToks] using this
  | bitNot e ih =>
    rintro ⟨he, le⟩
    refine Main.ofUn rfl fun rest hr => ?_
    refine Ev.step ((ih he).u le hr) ?_
    intro n h
    show pU (n + 1) (.tilde :: (emitB false e ++ rest)) = _
    rw [pU, h]
    rfl
  | addr e ih =>
    rintro ⟨he, le⟩
    refine Main.ofPost rfl fun rest res h => ?_
    have := paren_post (start_emit e he le) (fun rest hs => (ih he).v le hs) rest res h
    simpa [emitB] using this
  | box ty e ih =>
    rintro ⟨he, le⟩
    refine Main.ofPost rfl fun rest res h => ?_
    have hA := args_last (start_emit e he le) (fun rest hs => (ih he).v le hs)
    have hv : ∀ rest, Stop rest → Ev fun n => pE n ((.nw :: .ty ty :: .lp :: emitB false e ++ [.rp]) ++ rest) = some (.new ty _, rest) :=
      fun rest hs => ev_pU_pE (new_un hA rest) hs
    have := paren_post (fun q => start_nw _) hv rest res h
    simpa [emitB] using this
  | castClass ty e ih =>
    rintro ⟨he, le⟩
    refine Main.ofUn rfl fun rest hr => ?_
    exact cast_un ty rest ((ih he).u le hr)
  | tern c t f ihc iht ihf =>
    rintro ⟨⟨hc, lc, tc⟩, ⟨ht, lt⟩, hf, lf⟩
    refine Main.ofPost rfl fun rest res h => ?_
    have pt : ∀ rest, Stop rest → Ev fun n => pE n (.lp :: emitB false t ++ [.rp] ++ rest) = some (tree t, rest) :=
      fun rest hs => paren_v (start_emit t ht lt) (fun rest hs => (iht ht).v lt hs) hs
    have pf : ∀ rest, Stop rest → Ev fun n => pE n (.lp :: emitB false f ++ [.rp] ++ rest) = some (tree f, rest) :=
      fun rest hs => paren_v (start_emit f hf lf) (fun rest hs => (ihf hf).v lf hs) hs
    have hv : ∀ rest, Stop rest → Ev fun n => pE n ((emitB false c ++ .ques :: (.lp :: emitB false t ++ [.rp]) ++ .colon ::
        (.lp :: emitB false f ++ [.rp])) ++ rest) = some (.tern (tree c) (tree t) (tree f), rest) := by
      intro rest hs
      have h1 := (ihc hc).b lc 0 (rest := .ques :: ((.lp :: emitB false t ++ [.rp]) ++ .colon :: ((.lp :: emitB false f ++ [.rp]) ++ rest))) trivial
      have h2 := pt (.colon :: ((.lp :: emitB false f ++ [.rp]) ++ rest)) trivial
      have h3 := pf rest hs
      refine Ev.step (Ev.step ((h1.and h2).and h3) (q := fun n => pC n ((emitB false c ++ .ques :: (.lp :: emitB false t ++ [.rp]) ++ .colon ::
        (.lp :: emitB false f ++ [.rp])) ++ rest) = some (.tern (tree c) (tree t) (tree f), rest)) ?_) fun n h => pE_stop h hs
      rintro n ⟨⟨h1, h2⟩, h3⟩
      simp only [List.cons_append, List.append_assoc, List.nil_append] at h1 h2 h3 ⊢
      rw [pC, h1]
      simp only []
      rw [h2]
      simp only []
      rw [h3]
    have hs : ∀ q, Start ((emitB false c ++ .ques :: (.lp :: emitB false t ++ [.rp]) ++ .colon :: (.lp :: emitB false f ++ [.rp])) ++ q) := by
      intro q
      rw [List.append_assoc, List.append_assoc]
      exact start_emit c hc (by omega) _
    have := paren_post hs hv rest res h
    simpa [emitB, emit_cond tc] using this
  | ldLen m e ih =>
    rintro ⟨he, le⟩
    refine Main.ofPost rfl fun rest res h => ?_
    have hA : ∀ rest, Ev fun n => pArgs n ([] ++ .rp :: rest) = some (.anil, rest) := fun rest => Ev.const fun n => by
      rw [List.nil_append, pArgs]
    have := (ih he).post le _ res (method_post (m := m) hA rest res h)
    simpa [emitB] using this
  | field e k ih =>
    rintro ⟨he, le⟩
    refine Main.ofPost rfl fun rest res h => ?_
    have hp : Ev fun n => pP n (tree e) (.arrow :: .id k :: rest) = some res := Ev.step h fun n h => by rw [pP]; exact h
    have := (ih he).post le _ res hp
    simpa [emitB] using this
  | call e k args ihe iha =>
    rintro ⟨⟨he, le⟩, ha, la⟩
    refine Main.ofPost rfl fun rest res h => ?_
    have := (ihe he).post le _ res (method_post (m := k) ((iha ha).args la) rest res h)
    simpa [emitB] using this
  | scall f args iha =>
    rintro ⟨ha, la⟩
    refine Main.ofPost rfl fun rest res h => ?_
    have := call_post (f := f) ((iha ha).args la) rest res h
    simpa [emitB] using this
  | newObj ty args iha =>
    rintro ⟨ha, la⟩
    refine Main.ofPost rfl fun rest res h => ?_
    have hv : ∀ rest, Stop rest → Ev fun n => pE n ((.nw :: .ty ty :: .lp :: emitB false args ++ [.rp]) ++ rest) = some (.new ty _, rest) :=
      fun rest hs => ev_pU_pE (new_un ((iha ha).args la) rest) hs
    have := paren_post (fun q => start_nw _) hv rest res h
    simpa [emitB] using this
  | newStruct ty args iha =>
    rintro ⟨ha, la⟩
    refine Main.ofPost rfl fun rest res h => ?_
    have := construct_post ((iha ha).args la) rest res h
    simpa [emitB] using this
  | newArr arr el args iha =>
    rintro ⟨ha, la, hne⟩
    refine Main.ofUn rfl fun rest hr => ?_
    have hid : ∀ rest, Stop rest → Ev fun n => pE n ([.id el] ++ rest) = some (.id el, rest) := by
      intro rest hs
      refine ev_pU_pE (Ev.step (pP_stop (t := .id el) hs.b.noPost) fun n h => ?_) hs
      show pU (n + 1) (.id el :: rest) = _
      rw [pU]
      exact h
    obtain ⟨b, c, e⟩ : ∃ b c, tree args = .acons b c := by
      cases args with
      | anil => exact absurd rfl hne
      | acons o a r => cases o <;> exact ⟨_, _, rfl⟩
      | _ => simp [level] at la
    have hA : ∀ rest, Ev fun n => pArgs n ([.id el] ++ .comma :: emitB false args ++ .rp :: rest) = some (.acons (.id el) (tree args), rest) := by
      intro rest
      have h := (iha ha).args la rest
      rw [e] at h ⊢
      exact args_more (fun r => start_id _ _) hid rest h
    have := new_un (ty := arr) hA rest
    simpa [emitB, tree] using this
  | elem ty m a args iha ihr =>
    rintro ⟨⟨ha, la⟩, hr, lr⟩
    refine Main.ofPost rfl fun rest res h => ?_
    have inner : ∀ rest, Stop rest → Ev fun n => pE n ((.lp :: .ty ty :: .rp :: emitB false a ++ (.arrow :: .id m :: .lp :: emitB false args ++ [.rp])) ++ rest)
        = some (.cast ty (.call (.member (tree a) m) (tree args)), rest) := by
      intro rest hs
      have := cast_un (X := emitB false a ++ (.arrow :: .id m :: .lp :: emitB false args ++ [.rp])) ty rest (by
        have := (iha ha).post la _ _ (method_post (m := m) ((ihr hr).args lr) rest _ (pP_stop hs.b.noPost))
        simpa using this)
      exact ev_pU_pE (by simpa using this) hs
    have mid : ∀ rest, Stop rest → Ev fun n => pE n ((.op .mul :: (.lp :: (.lp :: .ty ty :: .rp :: emitB false a ++ (.arrow :: .id m :: .lp ::
        emitB false args ++ [.rp])) ++ [.rp])) ++ rest) = some (.deref (.cast ty (.call (.member (tree a) m) (tree args))), rest) := by
      intro rest hs
      refine ev_pU_pE (Ev.step (paren_post (fun q => start_lp _) inner rest _ (pP_stop hs.b.noPost)) fun n h => ?_) hs
      rw [List.cons_append, pU, h]
    have := paren_post (fun q => start_op _ _) mid rest res h
    simpa [emitB] using this
  | wrap ty e ih =>
    rintro ⟨he, le⟩
    refine Main.ofPost rfl fun rest res h => ?_
    have := construct_post (args_last (start_emit e he le) (fun rest hs => (ih he).v le hs)) rest res h
    simpa [emitB] using this
  | assign x v ih =>
    rintro ⟨hv, lv⟩
    refine ⟨fun h => by simp [level] at h, fun h => by simp [level] at h, fun _ rest hs => ?_, fun h => by simp [level] at h⟩
    have hid : Ev fun n => pC n (.id x :: .asg :: (emitB false v ++ rest)) = some (.id x, .asg :: (emitB false v ++ rest)) := by
      have hu : Ev fun n => pU n (.id x :: .asg :: (emitB false v ++ rest)) = some (.id x, .asg :: (emitB false v ++ rest)) :=
        Ev.step (pP_stop (t := .id x) (r := .asg :: (emitB false v ++ rest)) trivial) fun n h => by rw [pU]; exact h
      exact Ev.step (ev_pB 0 hu trivial) fun n h => by rw [pC, h]
    refine Ev.step (hid.and ((ih hv).v lv hs)) ?_
    rintro n ⟨h1, h2⟩
    show pE (n + 1) (.id x :: .asg :: (emitB false v ++ rest)) = _
    rw [pE, h1]
    simp only []
    rw [h2]
    rfl
  | anil =>
    intro _
    refine ⟨fun h => by simp [level] at h, fun h => by simp [level] at h, fun h => by simp [level] at h, fun _ rest => ?_⟩
    refine Ev.const fun n => ?_
    show pArgs (n + 1) (.rp :: rest) = _
    rw [pArgs]
    rfl
  | acons c a r iha ihr =>
    rintro ⟨⟨ha, la⟩, hr, lr⟩
    refine ⟨fun h => by cases c <;> simp [level] at h, fun h => by cases c <;> simp [level] at h, fun h => by cases c <;> simp [level] at h,
      fun _ rest => ?_⟩
    have hone : ∃ X t, (∀ r, Start (X ++ r)) ∧ (∀ rest, Stop rest → Ev fun n => pE n (X ++ rest) = some (t, rest)) ∧
        emitB false (.acons c a r) = X ++ (if isNil r then [] else .comma :: emitB false r) ∧ tree (.acons c a r) = .acons t (tree r) := by
      cases c with
      | none => exact ⟨_, _, start_emit a ha la, fun rest hs => (iha ha).v la hs, rfl, rfl⟩
      | some k =>
        refine ⟨.lp :: .ty k :: .rp :: (.lp :: emitB false a ++ [.rp]), .cast k (tree a), fun r => start_lp _, ?_, by simp [emitB], rfl⟩
        intro rest hs
        exact ev_pU_pE (cast_un k rest (paren_post (start_emit a ha la) (fun rest hs => (iha ha).v la hs) rest _ (pP_stop hs.b.noPost))) hs
    obtain ⟨X, t, hs, hv, e1, e2⟩ := hone
    rw [e1, e2]
    by_cases hn : isNil r = true
    · rw [if_pos hn, List.append_nil]
      have : r = .anil := by cases r <;> simp_all [isNil]
      rw [this]
      exact args_last hs hv rest
    · rw [if_neg hn]
      obtain ⟨b, d, e⟩ : ∃ b d, tree r = .acons b d := by
        cases r with
        | anil => exact absurd rfl hn
        | acons o a r => cases o <;> exact ⟨_, _, rfl⟩
        | _ => simp [level] at lr
      have h := (ihr hr).args lr rest
      rw [e] at h ⊢
      exact args_more hs hv rest h

/-- C60: the text of every expression tree (without the structures listed at `Ok`) is, under C++ precedence, an expression with exactly that
structure, for trees of every size. -/
theorem C60_parses_partial (e : E) (h : Ok e) (hl : level e ≤ 2) : Parses (emit e) (tree e) := by
  obtain ⟨N, h⟩ := (main e h).v hl (rest := []) trivial
  exact ⟨N, fun n hn => by simpa using h n hn⟩

/-- `(a.f + ~b) * (Int64)g(c, -1)`, compared with a conditional. -/
def sample : E :=
  .cmp .lt (.bin .mul (.bin .add (.field (.atom 1) 2) (.bitNot (.atom 3))) (.conv (some 7) (.scall 4 (.acons none (.atom 5) (.acons (some 8) (.negLit 6) .anil)))))
    (.tern (.atom 9) (.ldLen 10 (.atom 11)) (.assign 12 (.atom 13)))

example : Parses (emit sample) (tree sample) :=
  C60_parses_partial sample (by simp [sample, Ok, level, isTern]) (by simp [sample, level])

/-- Precedence matters for the check: without the parentheses the translator writes, `a - (b - c)` would not parse to itself. -/
example : pE 20 [.id 1, .op .sub, .id 2, .op .sub, .id 3] = some (.bin .sub (.bin .sub (.id 1) (.id 2)) (.id 3), []) ∧
    Parses (emit (.bin .sub (.atom 1) (.bin .sub (.atom 2) (.atom 3)))) (.bin .sub (.id 1) (.bin .sub (.id 2) (.id 3))) :=
  ⟨by decide +kernel, C60_parses_partial _ (by simp [Ok, level]) (by simp [level])⟩

/-- C60 fails: a member of a cast object, `((Foo)o).Bar()`, is written `(Foo*)o->Bar()`, which casts the result of `o->Bar()`. -/
theorem C60_cast_member_refuted :
    Parses (emit (.call (.castClass 1 (.atom 2)) 3 .anil)) (.cast 1 (.call (.member (.id 2) 3) .anil)) ∧
      ¬ Parses (emit (.call (.castClass 1 (.atom 2)) 3 .anil)) (tree (.call (.castClass 1 (.atom 2)) 3 .anil)) := by
  have h : Parses (emit (.call (.castClass 1 (.atom 2)) 3 .anil)) (.cast 1 (.call (.member (.id 2) 3) .anil)) :=
    Parses.of_run (n := 20) (by decide +kernel)
  refine ⟨h, fun g => ?_⟩
  have := h.unique g
  simp [tree] at this

/-- C60 fails: the length of a new array, `new int[n].Length`, is written `new Array(Int32Type,n)->get_Length()`, which is not an expression. -/
theorem C60_new_array_refuted : ∀ t, ¬ Parses (emit (.ldLen 5 (.newArr 1 2 (.acons none (.atom 3) .anil)))) t :=
  not_parses (n := 30) (t := .new 1 (.acons (.id 2) (.acons (.id 3) .anil))) (r := [.arrow, .id 5, .lp, .rp]) (by decide +kernel) (by simp)

/-- C60 fails: `(a ? b : c) ? d : e` is written `(a ? (b) : (c) ? (d) : (e))`, which is `a ? b : (c ? d : e)`; so `(a && b) ? d : e` yields `b`
instead of `d`. -/
theorem C60_condition_refuted :
    Parses (emit (.tern (.tern (.atom 1) (.atom 2) (.atom 3)) (.atom 4) (.atom 5))) (.tern (.id 1) (.id 2) (.tern (.id 3) (.id 4) (.id 5))) ∧
      tree (.tern (.tern (.atom 1) (.atom 2) (.atom 3)) (.atom 4) (.atom 5)) = .tern (.tern (.id 1) (.id 2) (.id 3)) (.id 4) (.id 5) :=
  ⟨Parses.of_run (n := 40) (by decide +kernel), rfl⟩

/-- C60 fails: an assignment used as an operand, `(x = y) + 1`, is written `(x = y + 1)`, which assigns something else. -/
theorem C60_assignment_refuted :
    Parses (emit (.bin .add (.assign 1 (.atom 2)) (.atom 3))) (.assign (.id 1) (.bin .add (.id 2) (.id 3))) ∧
      tree (.bin .add (.assign 1 (.atom 2)) (.atom 3)) = .bin .add (.assign (.id 1) (.id 2)) (.id 3) :=
  ⟨Parses.of_run (n := 40) (by decide +kernel), rfl⟩

/-- The condition from which `emitTest` takes its text. -/
def inner : E → E
  | .tern c _ _ => inner c
  | e => e

/-- C104: the text between the parentheses of an `if` is an expression with the structure of the condition exactly when the condition is not a
conditional; `a && b` and `a || b` are conditionals in the IL (`a ? b : 0`, `a ? 1 : b`). -/
theorem C104_text_partial (c : E) (h : Ok (inner c)) (hl : level (inner c) ≤ 2) : Parses (emitTest c) (tree c) ↔ isTern c = false := by
  have he : ∀ c, emitTest c = emit (inner c) := by
    intro c
    induction c with
    | tern c t f ih _ _ => exact ih
    | _ => rfl
  have hs : ∀ c, sizeOf (tree (inner c)) ≤ sizeOf (tree c) ∧ (isTern c = true → sizeOf (tree (inner c)) < sizeOf (tree c)) := by
    intro c
    induction c with
    | tern c t f ih _ _ =>
      have : sizeOf (tree (inner (.tern c t f))) < sizeOf (tree (.tern c t f)) := by
        have := ih.1
        simp only [inner, tree, T.tern.sizeOf_spec]
        omega
      exact ⟨Nat.le_of_lt this, fun _ => this⟩
    | _ => exact ⟨Nat.le_refl _, fun h => by cases h⟩
  have hp := C60_parses_partial (inner c) h hl
  rw [he]
  constructor
  · intro g
    cases ht : isTern c with
    | false => rfl
    | true =>
      have := (hs c).2 ht
      rw [hp.unique g] at this
      omega
  · intro ht
    have : inner c = c := by cases c <;> first | rfl | cases ht
    rw [this] at hp ⊢
    exact hp

/-- `if (a < b)`. -/
example : Parses (emitTest (.cmp .lt (.atom 1) (.atom 2))) (.bin .lt (.id 1) (.id 2)) :=
  (C104_text_partial (.cmp .lt (.atom 1) (.atom 2)) (by simp [inner, Ok, level]) (by simp [inner, level])).mpr rfl

/-- `if (a && b)` is written `if (a)`. -/
example : emitTest (.tern (.atom 1) (.atom 2) (.atom 0)) = [.id 1] := rfl

end Verif.Expr
