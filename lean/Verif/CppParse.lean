import Verif.Prelude
/-!
# Specification: a fragment of the C++ expression grammar as an executable parser

Independent of the translator.  Lexemes are tokens; names known to be types are `ty` tokens (a C++ compiler knows which names are types).
Precedence and associativity follow the C++ standard, [expr]: assignment < conditional < `|` < `^` < `&` < equality < relational < shift <
additive < multiplicative < unary (casts, `~`, `-`, `*`, `new`) < postfix (`->`, call) < primary.  The parsers take fuel to be structurally
recursive; `Parses` says that all large enough fuels give the result, so the result is unique.
-/
namespace Verif.Cpp

/-- Binary operators. -/
inductive Op where
  | mul | div | rem | add | sub | shl | shr | lt | le | gt | ge | eq | ne | band | xor | bor
deriving Repr, DecidableEq

/-- Binding strength ([expr.mul] ... [expr.or]). -/
def Op.prec : Op → Nat
  | .mul | .div | .rem => 10
  | .add | .sub => 9
  | .shl | .shr => 8
  | .lt | .le | .gt | .ge => 7
  | .eq | .ne => 6
  | .band => 5
  | .xor => 4
  | .bor => 3

inductive Tok where
  | id (k : Nat) | ty (k : Nat) | lp | rp | comma | op (o : Op) | tilde | arrow | ques | colon | asg | nw
deriving Repr, DecidableEq

/-- Syntax trees.  Argument lists are `anil`/`acons`. -/
inductive T where
  | id (k : Nat)
  | neg (t : T) | compl (t : T) | deref (t : T)
  | cast (ty : Nat) (t : T)
  | bin (o : Op) (l r : T)
  | tern (c t f : T)
  | assign (l r : T)
  | call (f args : T)
  | member (t : T) (k : Nat)
  | new (ty : Nat) (args : T)
  | construct (ty : Nat) (args : T)
  | anil
  | acons (a rest : T)
deriving Repr, DecidableEq

mutual
/-- assignment-expression -/
def pE : Nat → List Tok → Option (T × List Tok)
  | 0, _ => none
  | n + 1, ts =>
    match pC n ts with
    | some (l, .asg :: r) => match pE n r with
      | some (v, r') => some (.assign l v, r')
      | none => none
    | x => x
/-- conditional-expression -/
def pC : Nat → List Tok → Option (T × List Tok)
  | 0, _ => none
  | n + 1, ts =>
    match pB n 0 ts with
    | some (c, .ques :: r) => match pE n r with
      | some (t, .colon :: r') => match pE n r' with
        | some (f, r'') => some (.tern c t f, r'')
        | none => none
      | _ => none
    | x => x
/-- binary expression whose operators bind at least as strongly as `p` -/
def pB : Nat → Nat → List Tok → Option (T × List Tok)
  | 0, _, _ => none
  | n + 1, p, ts =>
    match pU n ts with
    | some (l, r) => pL n p l r
    | none => none
/-- the rest of a binary expression after its first operand (left associative) -/
def pL : Nat → Nat → T → List Tok → Option (T × List Tok)
  | 0, _, _, _ => none
  | n + 1, p, l, .op o :: r =>
    if p ≤ o.prec then
      match pB n (o.prec + 1) r with
      | some (x, r') => pL n p (.bin o l x) r'
      | none => none
    else some (l, .op o :: r)
  | _ + 1, _, l, ts => some (l, ts)
/-- unary-expression, cast-expression and new-expression -/
def pU : Nat → List Tok → Option (T × List Tok)
  | 0, _ => none
  | n + 1, .lp :: .ty k :: .rp :: r => match pU n r with
    | some (t, r') => some (.cast k t, r')
    | none => none
  | n + 1, .tilde :: r => match pU n r with
    | some (t, r') => some (.compl t, r')
    | none => none
  | n + 1, .op .sub :: r => match pU n r with
    | some (t, r') => some (.neg t, r')
    | none => none
  | n + 1, .op .mul :: r => match pU n r with
    | some (t, r') => some (.deref t, r')
    | none => none
  | n + 1, .nw :: .ty k :: .lp :: r => match pArgs n r with
    | some (a, r') => some (.new k a, r')
    | none => none
  | n + 1, .lp :: r => match pE n r with
    | some (t, .rp :: r') => pP n t r'
    | _ => none
  | n + 1, .id k :: r => pP n (.id k) r
  | n + 1, .ty k :: .lp :: r => match pArgs n r with
    | some (a, r') => pP n (.construct k a) r'
    | none => none
  | _ + 1, _ => none
/-- the rest of a postfix expression -/
def pP : Nat → T → List Tok → Option (T × List Tok)
  | 0, _, _ => none
  | n + 1, t, .arrow :: .id k :: r => pP n (.member t k) r
  | n + 1, t, .lp :: r => match pArgs n r with
    | some (a, r') => pP n (.call t a) r'
    | none => none
  | _ + 1, t, ts => some (t, ts)
/-- arguments up to the closing parenthesis -/
def pArgs : Nat → List Tok → Option (T × List Tok)
  | 0, _ => none
  | _ + 1, .rp :: r => some (.anil, r)
  | n + 1, ts => match pE n ts with
    | some (a, .rp :: r) => some (.acons a .anil, r)
    | some (a, .comma :: r) => match pArgs n r with
      | some (.acons b c, r') => some (.acons a (.acons b c), r')
      | _ => none
    | _ => none
end

/-- The text is an expression with this syntax tree. -/
def Parses (ts : List Tok) (t : T) : Prop := ∃ N, ∀ n, N ≤ n → pE n ts = some (t, [])

/-- A text has at most one syntax tree. -/
theorem Parses.unique {ts : List Tok} {a b : T} (h1 : Parses ts a) (h2 : Parses ts b) : a = b := by
  obtain ⟨N, h1⟩ := h1
  obtain ⟨M, h2⟩ := h2
  have e1 := h1 (max N M) (Nat.le_max_left ..)
  have e2 := h2 (max N M) (Nat.le_max_right ..)
  rw [e1] at e2
  injection e2 with e
  injection e

/-- More fuel never changes a result. -/
structure Mono (n : Nat) : Prop where
  e : ∀ ts r, pE n ts = some r → pE (n + 1) ts = some r
  c : ∀ ts r, pC n ts = some r → pC (n + 1) ts = some r
  b : ∀ p ts r, pB n p ts = some r → pB (n + 1) p ts = some r
  l : ∀ p t ts r, pL n p t ts = some r → pL (n + 1) p t ts = some r
  u : ∀ ts r, pU n ts = some r → pU (n + 1) ts = some r
  p : ∀ t ts r, pP n t ts = some r → pP (n + 1) t ts = some r
  a : ∀ ts r, pArgs n ts = some r → pArgs (n + 1) ts = some r

theorem mono (n : Nat) : Mono n := by
  induction n with
  | zero =>
    constructor <;> intros <;> rename_i h <;>
      first
        | (rw [pE] at h; cases h) | (rw [pC] at h; cases h) | (rw [pB] at h; cases h) | (rw [pL] at h; cases h) | (rw [pU] at h; cases h)
        | (rw [pP] at h; cases h) | (rw [pArgs] at h; cases h)
  | succ n ih =>
    constructor
    · intro ts r h
      rw [pE] at h ⊢
      cases hc : pC n ts with
      | none => rw [hc] at h; cases h
      | some x =>
        rw [hc] at h
        rw [ih.c _ _ hc]
        obtain ⟨l, q⟩ := x
        match q, h with
        | .asg :: q', h =>
          simp only [] at h ⊢
          cases he : pE n q' with
          | none => rw [he] at h; cases h
          | some y => rw [he] at h; rw [ih.e _ _ he]; exact h
        | [], h => exact h
        | .id _ :: _, h | .ty _ :: _, h | .lp :: _, h | .rp :: _, h | .comma :: _, h | .op _ :: _, h | .tilde :: _, h | .arrow :: _, h
        | .ques :: _, h | .colon :: _, h | .nw :: _, h => exact h
    · intro ts r h
      rw [pC] at h ⊢
      cases hc : pB n 0 ts with
      | none => rw [hc] at h; cases h
      | some x =>
        rw [hc] at h
        rw [ih.b _ _ _ hc]
        obtain ⟨l, q⟩ := x
        match q, h with
        | .ques :: q', h =>
          simp only [] at h ⊢
          cases he : pE n q' with
          | none => rw [he] at h; cases h
          | some y =>
            rw [he] at h; rw [ih.e _ _ he]
            obtain ⟨t, z⟩ := y
            match z, h with
            | .colon :: z', h =>
              simp only [] at h ⊢
              cases hf : pE n z' with
              | none => rw [hf] at h; cases h
              | some v => rw [hf] at h; rw [ih.e _ _ hf]; exact h
            | [], h => exact h
            | .id _ :: _, h | .ty _ :: _, h | .lp :: _, h | .rp :: _, h | .comma :: _, h | .op _ :: _, h | .tilde :: _, h | .arrow :: _, h
            | .ques :: _, h | .asg :: _, h | .nw :: _, h => exact h
        | [], h => exact h
        | .id _ :: _, h | .ty _ :: _, h | .lp :: _, h | .rp :: _, h | .comma :: _, h | .op _ :: _, h | .tilde :: _, h | .arrow :: _, h
        | .asg :: _, h | .colon :: _, h | .nw :: _, h => exact h
    · intro p ts r h
      rw [pB] at h ⊢
      cases hc : pU n ts with
      | none => rw [hc] at h; cases h
      | some x => rw [hc] at h; rw [ih.u _ _ hc]; exact ih.l _ _ _ _ h
    · intro p t ts r h
      match ts, h with
      | .op o :: q, h =>
        rw [pL] at h ⊢
        by_cases hp : p ≤ o.prec
        · rw [if_pos hp] at h ⊢
          cases hb : pB n (o.prec + 1) q with
          | none => rw [hb] at h; cases h
          | some x => rw [hb] at h; rw [ih.b _ _ _ hb]; exact ih.l _ _ _ _ h
        · rw [if_neg hp] at h ⊢
          exact h
      | [], h => rw [pL] at h ⊢ <;> first | exact h | simp
      | .id _ :: _, h | .ty _ :: _, h | .lp :: _, h | .rp :: _, h | .comma :: _, h | .tilde :: _, h | .arrow :: _, h
      | .asg :: _, h | .colon :: _, h | .nw :: _, h | .ques :: _, h => rw [pL] at h ⊢ <;> first | exact h | simp
    · intro ts r h
      unfold pU at h ⊢
      split at h
      · rename_i he; cases he
      · rename_i m k q he
        cases he
        cases hc : pU n q with
        | none => rw [hc] at h; cases h
        | some x => rw [hc] at h; rw [ih.u _ _ hc]; exact h
      · rename_i m q he
        cases he
        cases hc : pU n q with
        | none => rw [hc] at h; cases h
        | some x => rw [hc] at h; rw [ih.u _ _ hc]; exact h
      · rename_i m q he
        cases he
        cases hc : pU n q with
        | none => rw [hc] at h; cases h
        | some x => rw [hc] at h; rw [ih.u _ _ hc]; exact h
      · rename_i m q he
        cases he
        cases hc : pU n q with
        | none => rw [hc] at h; cases h
        | some x => rw [hc] at h; rw [ih.u _ _ hc]; exact h
      · rename_i m k q he
        cases he
        cases hc : pArgs n q with
        | none => rw [hc] at h; cases h
        | some x => rw [hc] at h; rw [ih.a _ _ hc]; exact h
      · rename_i m q hne he
        cases he
        cases hc : pE n q with
        | none => rw [hc] at h; cases h
        | some x =>
          rw [hc] at h; rw [ih.e _ _ hc]
          obtain ⟨t, z⟩ := x
          match z, h with
          | .rp :: z', h => exact ih.p _ _ _ h
      · rename_i m k q he
        cases he
        exact ih.p _ _ _ h
      · rename_i m k q he
        cases he
        cases hc : pArgs n q with
        | none => rw [hc] at h; cases h
        | some x => rw [hc] at h; rw [ih.a _ _ hc]; exact ih.p _ _ _ h
      · cases h
    · intro t ts r h
      unfold pP at h ⊢
      split at h
      · rename_i he; cases he
      · rename_i he2
        have hm' := Nat.succ.inj he2
        subst hm'
        exact ih.p _ _ _ h
      · rename_i m t' q he
        cases he
        cases hc : pArgs n q with
        | none => rw [hc] at h; cases h
        | some x => rw [hc] at h; rw [ih.a _ _ hc]; exact ih.p _ _ _ h
      · exact h
    · intro ts' r h
      unfold pArgs at h ⊢
      split at h
      · rename_i he; cases he
      · exact h
      · rename_i ts _ _ m hm hne
        have hm' := Nat.succ.inj hm
        subst hm'
        cases hc : pE n ts with
        | none => rw [hc] at h; cases h
        | some x =>
          rw [hc] at h; rw [ih.e _ _ hc]
          obtain ⟨t, z⟩ := x
          match z, h with
          | .rp :: z', h => exact h
          | .comma :: z', h =>
            simp only [] at h ⊢
            cases ha : pArgs n z' with
            | none => rw [ha] at h; cases h
            | some y => rw [ha] at h; rw [ih.a _ _ ha]; exact h

/-- One evaluation of the parser determines the result for all larger fuels. -/
theorem stable {n : Nat} {ts : List Tok} {r : T × List Tok} (h : pE n ts = some r) : ∀ m, n ≤ m → pE m ts = some r := by
  intro m hm
  induction hm with
  | refl => exact h
  | step _ ih => exact (mono _).e _ _ ih

theorem Parses.of_run {n : Nat} {ts : List Tok} {t : T} (h : pE n ts = some (t, [])) : Parses ts t := ⟨n, stable h⟩

/-- A text of which the parser leaves something unread is not an expression. -/
theorem not_parses {n : Nat} {ts r : List Tok} {t : T} (h : pE n ts = some (t, r)) (hr : r ≠ []) : ∀ t', ¬ Parses ts t' := by
  rintro t' ⟨N, h'⟩
  have a := h' (max N n) (Nat.le_max_left ..)
  rw [stable h (max N n) (Nat.le_max_right ..)] at a
  injection a with a
  injection a with _ a
  exact hr a

end Verif.Cpp
