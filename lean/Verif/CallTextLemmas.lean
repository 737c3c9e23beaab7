import Verif.ExprTextProps
/-!
# Lemmas for C173: the characters of an integer expression with a call of a static method
-/
namespace Verif.Text
open Cpp Sem Read Expr
open Verif.IntVal (Ty)

/-! ## Tokens -/

/-- `Class::Method(`. -/
theorem ty_scoped_lp (ents : List (WStr × Entity)) {a b : WStr} {t : Tok} (ha : CppLex.isIdent a = true) (hb : CppLex.isIdent b = true)
    (h : nameTok ents (a ++ w "::" ++ b) = some t) : Ty' ents (a ++ w "::" ++ b ++ w "(") [t, .lp] := by
  refine ⟨[.word a, .punct (w "::"), .word b, .punct (w "(")], ?_, ?_, trivial⟩
  · intro rest
    have e : a ++ w "::" ++ b ++ w "(" ++ rest = a ++ 58 :: (58 :: (b ++ 40 :: rest)) := by simp [w]
    rw [e, lex_ident_break ha (by decide)]
    have e2 := run_two 58 58 (by decide) (by decide) (b ++ 40 :: rest)
    rw [show [58, 58] ++ (b ++ 40 :: rest) = 58 :: 58 :: (b ++ 40 :: rest) from rfl] at e2
    rw [e2]
    obtain ⟨c, r, hbr, hc, hrr⟩ := ident_parts hb
    have hbrk : lexS (.punct [58, 58]) (b ++ 40 :: rest) = (lexS .none (b ++ 40 :: rest)).map ([Lexeme.punct [58, 58]] ++ ·) := by
      rw [hbr, List.cons_append, lex_break (show (St.punct [58, 58]).extends c = false from ?_) (by simp)]
      · rfl
      · have : ∀ c, puncts.contains [58, 58, c] = false := by intro c; simp [puncts, w]
        exact this c
    rw [hbrk, lex_ident_break hb (by decide)]
    have := ly_lp rest
    rw [show w "(" ++ rest = 40 :: rest from rfl] at this
    rw [this, Option.map_map, Option.map_map, Option.map_map]
    rfl
  · exact (rx_scoped _ h).append (rx_punct _ (p := w "(") rfl) (show w "(" ≠ w "::" by decide)

/-- The arguments as an instruction tree. -/
def argsE (V : Nat → E) (N : Nat) : List Ty → List X → E
  | ty :: tys, e :: es => .acons (some (tyPos ty)) (toE V N e) (argsE V N tys es)
  | _, _ => .anil

theorem argsE_ok {V : Nat → E} (hV : ∀ k, Atomic (V k)) (N : Nat) : ∀ (tys : List Ty) (es : List X), (∀ e ∈ es, NoCond e) → Ok (argsE V N tys es) ∧ level (argsE V N tys es) = 3
  | [], _, _ => by cases ‹List X› <;> exact ⟨trivial, rfl⟩
  | _ :: _, [], _ => ⟨trivial, rfl⟩
  | ty :: tys, e :: es, h => by
    have ih := argsE_ok hV N tys es (fun x hx => h x (List.mem_cons_of_mem _ hx))
    exact ⟨⟨⟨toE_ok hV N e (h e List.mem_cons_self), le2 (toE_level hV N e)⟩, ih⟩, rfl⟩

theorem ty_comma_space (ents : List (WStr × Entity)) : Ty' ents (w ", ") [.comma] := by
  have := (ty_comma ents).append (ty_space ents)
  simpa [w] using this

theorem isNil_argsE (V : Nat → E) (N : Nat) (tys : List Ty) (es : List X) : isNil (argsE V N tys es) = (tys.isEmpty || es.isEmpty) := by
  cases tys <;> cases es <;> rfl

theorem ty_arg {vars : List (WStr × Ty)} {funs : List Fun} {name : Nat → WStr} {V : Nat → E} (ty : Ty) {e : X}
    (h : Typed (fun _ k => ∀ b, Tx (entities vars funs) (name k) (emitB b (V k))) e) :
    Ty' (entities vars funs) (argText name ty e) (.lp :: .ty (tyPos ty) :: .rp :: .lp :: emitB false (toE V (entities vars funs).length e) ++ [.rp]) := by
  have := (ty_cast vars funs ty).append ((ty_lp _).append ((tx_gen vars funs name V e h false).ty_append (ty_rp _) ⟨41, [], rfl, by decide⟩))
  simpa [argText] using this

theorem ty_rest {vars : List (WStr × Ty)} {funs : List Fun} {name : Nat → WStr} {V : Nat → E} : ∀ (tys : List Ty) (es : List X),
    (∀ e ∈ es, Typed (fun _ k => ∀ b, Tx (entities vars funs) (name k) (emitB b (V k))) e) →
    Ty' (entities vars funs) (argsRest name tys es) (if isNil (argsE V (entities vars funs).length tys es) then [] else .comma :: emitB false (argsE V (entities vars funs).length tys es))
  | [], es, _ => by
    have : argsRest name [] es = [] := by cases es <;> rfl
    rw [this, isNil_argsE]
    exact ⟨[], Ly.nil, Rx.nil _, trivial⟩
  | _ :: _, [], _ => ⟨[], Ly.nil, Rx.nil _, trivial⟩
  | ty :: tys, e :: es, h => by
    have ih := ty_rest tys es (fun x hx => h x (List.mem_cons_of_mem _ hx))
    have := (ty_comma_space (entities vars funs)).append ((ty_arg ty (h e List.mem_cons_self)).append ih)
    rw [isNil_argsE]
    simpa [argsRest, argsE, emitB] using this

theorem ty_args {vars : List (WStr × Ty)} {funs : List Fun} {name : Nat → WStr} {V : Nat → E} (tys : List Ty) (es : List X)
    (h : ∀ e ∈ es, Typed (fun _ k => ∀ b, Tx (entities vars funs) (name k) (emitB b (V k))) e) :
    Ty' (entities vars funs) (argsText name tys es) (emitB false (argsE V (entities vars funs).length tys es)) := by
  cases tys with
  | nil =>
    have : argsText name [] es = [] := by cases es <;> rfl
    rw [this]
    cases es <;> exact ⟨[], Ly.nil, Rx.nil _, trivial⟩
  | cons ty tys =>
    cases es with
    | nil => exact ⟨[], Ly.nil, Rx.nil _, trivial⟩
    | cons e es =>
      have := (ty_arg ty (h e List.mem_cons_self)).append (ty_rest tys es (fun x hx => h x (List.mem_cons_of_mem _ hx)))
      simpa [argsText, argsE, emitB] using this

/-- The place of function `f` among the names in scope. -/
def funPos (vars : List (WStr × Ty)) (f : Nat) : Nat := library.length + vars.length + f

/-! ## Variables and static fields -/

/-- The member that is kept in variable `k`. -/
def fieldIx (funs : List Fun) (k : Nat) : Nat := funs.findIdx fun p => p.place == some k

/-- Number `k` is a variable of the function or a static field, of the type. -/
def Known (vars : List (WStr × Ty)) (funs : List Fun) (ty : Ty) (k : Nat) : Prop :=
  (∃ n, vars[k]? = some (n, ty)) ∨ (vars.length < k ∧ ∃ p, funs[fieldIx funs k]? = some p ∧ p.place = some k ∧ p.ret = ty)

/-- A variable or static field as an instruction. -/
def baseE (vars : List (WStr × Ty)) (funs : List Fun) (k : Nat) : E := if k < vars.length then nameE k else .atom (funPos vars (fieldIx funs k))

/-- How it is written. -/
def nameAt (vars : List (WStr × Ty)) (funs : List Fun) (k : Nat) : WStr := if k < vars.length then nameOf vars k else ((funs[fieldIx funs k]?).map (·.name)).getD []

theorem baseE_atom (vars : List (WStr × Ty)) (funs : List Fun) (k : Nat) : ∃ j, baseE vars funs k = .atom j := by
  unfold baseE
  by_cases h : k < vars.length
  · rw [if_pos h]; exact ⟨_, rfl⟩
  · rw [if_neg h]; exact ⟨_, rfl⟩

theorem atomic_base (vars : List (WStr × Ty)) (funs : List Fun) (k : Nat) : Atomic (baseE vars funs k) := by
  obtain ⟨j, e⟩ := baseE_atom vars funs k
  rw [e]; exact atomic_atom _

theorem calls_base (vars : List (WStr × Ty)) (funs : List Fun) (ents : List (WStr × Entity)) (k : Nat) : callsIn ents (tree (baseE vars funs k)) = [] := by
  obtain ⟨j, e⟩ := baseE_atom vars funs k
  rw [e]; rfl

theorem tx_base {vars : List (WStr × Ty)} (hs : Scope vars) {funs : List Fun} (hf : Funs funs) {ty : Ty} {k : Nat} (h : Known vars funs ty k) (b : Bool) :
    Tx (entities vars funs) (nameAt vars funs k) (emitB b (baseE vars funs k)) := by
  unfold nameAt baseE
  rcases h with ⟨n, hn⟩ | ⟨hk, p, hp, _, _⟩
  · have hk : k < vars.length := (List.getElem?_eq_some_iff.mp hn).1
    rw [if_pos hk, if_pos hk]
    exact tx_name hs funs hn b
  · rw [if_neg (by omega), if_neg (by omega), hp]
    obtain ⟨a, c, ha, hc, e⟩ := hf.parts p (List.mem_of_getElem? hp)
    have hn := nameTok_fun hs hf hp
    show Tx _ p.name [.id _]
    rw [e] at hn ⊢
    exact tx_scoped _ ha hc hn

theorem typed_base (vars : List (WStr × Ty)) (funs : List Fun) {ty : Ty} {k : Nat} (h : Known vars funs ty k) : typed (entities vars funs) (tree (baseE vars funs k)) = some (.var ty k) := by
  unfold baseE
  rcases h with ⟨n, hn⟩ | ⟨hk, p, hp, hpl, hr⟩
  · have hk : k < vars.length := (List.getElem?_eq_some_iff.mp hn).1
    rw [if_pos hk]
    exact typed_name vars funs hn
  · rw [if_neg (by omega)]
    show atomX _ _ = _
    unfold atomX funPos
    rw [entities_fun vars funs _ p hp]
    unfold Fun.entity
    rw [hpl, hr]

/-- The call as an instruction tree. -/
def callE (vars : List (WStr × Ty)) (funs : List Fun) (f : Nat) (tys : List Ty) (es : List X) : E := .scall (funPos vars f) (argsE (baseE vars funs) (entities vars funs).length tys es)

theorem atomic_call (vars : List (WStr × Ty)) (funs : List Fun) (f : Nat) (tys : List Ty) (es : List X) (h : ∀ e ∈ es, NoCond e) : Atomic (callE vars funs f tys es) :=
  ⟨argsE_ok (atomic_base vars funs) _ tys es h, rfl, rfl, fun _ => rfl⟩

theorem tx_call {vars : List (WStr × Ty)} (hs : Scope vars) {funs : List Fun} (hf : Funs funs) {f : Nat} {p : Fun} (hp : funs[f]? = some p) (es : List X) (h : ∀ e ∈ es, Typed (Known vars funs) e) (b : Bool) :
    Tx (entities vars funs) (callText (nameAt vars funs) p.name p.params es) (emitB b (callE vars funs f p.params es)) := by
  obtain ⟨a, c, ha, hc, e⟩ := hf.parts p (List.mem_of_getElem? hp)
  have hn := nameTok_fun hs hf hp
  have h1 : Ty' (entities vars funs) (p.name ++ w "(") [.id (funPos vars f), .lp] := by
    rw [e] at hn ⊢
    exact ty_scoped_lp _ ha hc hn
  have h2 := ty_args (name := nameAt vars funs) (V := baseE vars funs) (funs := funs) (vars := vars) p.params es
    (fun x hx => Typed.mono (fun _ _ hk => tx_base hs hf hk) x (h x hx))
  have := h1.append (h2.append (ty_rp _))
  simpa [callText, callE, emitB] using this.tx

/-! ## The place of the call -/

/-- The expression does not use variable `k`. -/
def noUse (k : Nat) : X → Bool
  | .var _ j => j != k
  | .i4 _ | .i8 _ => true
  | .bin _ _ _ l r | .shift _ _ l r | .comp _ _ l r => noUse k l && noUse k r
  | .bitNot e | .conv _ _ _ e => noUse k e
  | .ite c t f => noUse k c && noUse k t && noUse k f

/-- Moreover no exception can come from it, and it does not use static fields (they have larger numbers): no division, no remainder, no check for overflow. -/
def still (k : Nat) : X → Bool
  | .var _ j => decide (j < k)
  | .i4 _ | .i8 _ => true
  | .bin .div _ _ _ _ | .bin (.arith .rem) _ _ _ _ => false
  | .bin _ _ chk l r => !chk && still k l && still k r
  | .shift _ _ l r | .comp _ _ l r => still k l && still k r
  | .bitNot e => still k e
  | .conv _ chk _ e => !chk && still k e
  | .ite c t f => still k c && still k t && still k f

/-- Variable `k` is used exactly once, always, and before anything that can raise an exception. -/
def first (k : Nat) : X → Bool
  | .var _ j => j == k
  | .i4 _ | .i8 _ => false
  | .bin _ _ _ l r | .shift _ _ l r | .comp _ _ l r => (first k l && still k r) || (still k l && first k r)
  | .bitNot e | .conv _ _ _ e => first k e
  | .ite c t f => first k c && noUse k t && noUse k f

theorem still_noUse (k : Nat) (x : X) (h : still k x = true) : noUse k x = true := by
  induction x with
  | var ty j =>
    simp only [still, decide_eq_true_eq] at h
    simp only [noUse, bne_iff_ne]; omega
  | i4 n => rfl
  | i8 n => rfl
  | bin o un chk l r ihl ihr =>
    cases o with
    | div => cases h
    | arith o =>
      cases o <;> first | (cases h; done) | (simp only [still, Bool.and_eq_true] at h; simp only [noUse, Bool.and_eq_true]; exact ⟨ihl h.1.2, ihr h.2⟩)
  | shift o un l r ihl ihr => simp only [still, Bool.and_eq_true] at h; simp only [noUse, Bool.and_eq_true]; exact ⟨ihl h.1, ihr h.2⟩
  | comp o un l r ihl ihr => simp only [still, Bool.and_eq_true] at h; simp only [noUse, Bool.and_eq_true]; exact ⟨ihl h.1, ihr h.2⟩
  | bitNot e ih => exact ih h
  | conv ty chk un e ih => simp only [still, Bool.and_eq_true] at h; exact ih h.2
  | ite c t f ihc iht ihf => simp only [still, Bool.and_eq_true] at h; simp only [noUse, Bool.and_eq_true]; exact ⟨⟨ihc h.1.1, iht h.1.2⟩, ihf h.2⟩

/-- The C++ expression uses a variable where the source does. -/
structure Like (c : CX) (x : X) : Prop where
  none : ∀ k, noUse k x = true → without k c = true
  quiet : ∀ k, still k x = true → quiet k c = true
  once : ∀ k, first k x = true → once k c = true

theorem like_const (vars : List (WStr × Ty)) (funs : List Fun) (x : Int) {c : CX} (h : typed (entities vars funs) (tree (constE (entities vars funs).length x)) = some c) (hl : library.length ≤ (entities vars funs).length) :
    ∀ k, without k c = true ∧ Read.quiet k c = true := by
  intro k
  have hlib : ∀ j, j < library.length → ∀ c, atomX (entities vars funs) j = some c → without k c = true ∧ Read.quiet k c = true := by
    intro j hj c hc
    unfold atomX at hc
    rw [entities_lib vars funs j library[j] (List.getElem?_eq_getElem hj)] at hc
    have hall : ∀ e ∈ library, (match e.2 with | .var _ _ | .field _ _ => true | _ => false) = false := by decide +kernel
    have hv := hall _ (List.getElem_mem hj)
    cases he : library[j] with
    | mk n e =>
      rw [he] at hc hv
      cases e with
      | var ty i => cases hv
      | const v => simp only [Option.some.injEq] at hc; subst hc; exact ⟨rfl, rfl⟩
      | type ty => cases hc
      | divide => cases hc
      | func a b c => cases hc
      | proc a b => cases hc
      | field ty i => cases hv
  have hlit : ∀ n c, atomX (entities vars funs) ((entities vars funs).length + n) = some c → without k c = true ∧ Read.quiet k c = true := by
    intro n c hc
    unfold atomX at hc
    rw [List.getElem?_eq_none (by omega)] at hc
    simp only [Option.some.injEq] at hc
    subst hc
    exact ⟨rfl, rfl⟩
  have hL : library.length = 21 := by decide +kernel
  have key : ∀ (p : Prop) [Decidable p] (j : Nat) (e : E), j < 21 → (∀ c, typed (entities vars funs) (tree e) = some c → without k c = true ∧ Read.quiet k c = true) →
      ∀ c, typed (entities vars funs) (tree (if p then E.atom j else e)) = some c → without k c = true ∧ Read.quiet k c = true := by
    intro p _ j e hj he c hc
    by_cases hp : p
    · rw [if_pos hp] at hc; exact hlib j (by omega) c hc
    · rw [if_neg hp] at hc; exact he c hc
  revert h
  generalize c = c'
  revert c'
  unfold constE
  repeat apply key _ _ _ (by decide)
  by_cases hn : x < 0
  · rw [if_pos hn]
    intro c hc
    have hc : (atomX _ _).map _ = some c := hc
    cases ha : atomX (entities vars funs) ((entities vars funs).length + x.natAbs) with
    | none => rw [ha] at hc; cases hc
    | some y =>
      rw [ha, Option.map_some, Option.some.injEq] at hc
      subst hc
      have := hlit _ _ ha
      simp only [without, Read.quiet, Bool.true_and]
      exact this
  · rw [if_neg hn]
    exact fun c hc => hlit _ _ hc

theorem like_bin {a b c : CX} {l r x : X} (ha : Like a l) (hb : Like b r) (hw : ∀ k, without k c = (without k a && without k b)) (hq : ∀ k, still k x = true → Read.quiet k c = true)
    (ho : ∀ k, Read.once k c = ((Read.once k a && Read.quiet k b) || (Read.quiet k a && Read.once k b))) (hn : ∀ k, noUse k x = (noUse k l && noUse k r))
    (hf : ∀ k, first k x = ((first k l && still k r) || (still k l && first k r))) : Like c x where
  none k h := by
    rw [hn, Bool.and_eq_true] at h
    rw [hw, ha.none k h.1, hb.none k h.2]; rfl
  quiet := hq
  once k h := by
    rw [hf, Bool.or_eq_true, Bool.and_eq_true, Bool.and_eq_true] at h
    rw [ho]
    rcases h with h | h
    · rw [ha.once k h.1, hb.quiet k h.2]; rfl
    · rw [ha.quiet k h.1, hb.once k h.2]; simp

theorem typed_like (vars : List (WStr × Ty)) (funs : List Fun) (V : Nat → E) (x : X) (h : Typed (fun ty k => typed (entities vars funs) (tree (V k)) = some (.var ty k)) x) (hn : NoCond x) :
    ∃ c, typed (entities vars funs) (tree (toE V (entities vars funs).length x)) = some c ∧ Same c (trK x none) ∧ Like c x := by
  have hL : library.length ≤ (entities vars funs).length := by rw [entities_length]; omega
  have const : ∀ n : Int, (∃ c, typed (entities vars funs) (tree (constE (entities vars funs).length n)) = some c ∧ Same c (constX n)) → ∀ y : X, (∀ k, first k y = false) →
      ∃ c, typed (entities vars funs) (tree (constE (entities vars funs).length n)) = some c ∧ Same c (constX n) ∧ Like c y := by
    rintro n ⟨c, h1, h2⟩ y hy
    have := like_const vars funs n h1 hL
    exact ⟨c, h1, h2, fun k _ => (this k).1, fun k _ => (this k).2, fun k hk => by rw [hy] at hk; cases hk⟩
  induction x with
  | var ty k => exact ⟨.var ty k, h, ⟨rfl, fun _ => rfl⟩, fun _ h => h, fun _ h => h, fun _ h => h⟩
  | i4 n =>
    refine const n (typed_const vars funs n ?_) _ (fun _ => rfl)
    have : I32 n := h
    unfold I32 at this; unfold I64; omega
  | i8 n => exact const n (typed_const vars funs n h) _ (fun _ => rfl)
  | bin o un chk l r ihl ihr =>
    obtain ⟨a, ha, sa, la⟩ := ihl h.1 hn.1
    obtain ⟨b, hb, sb, lb⟩ := ihr h.2 hn.2
    cases o with
    | arith o =>
      refine ⟨.arith o a b, ?_, same_arith sa sb o, like_bin la lb (fun _ => rfl) (fun k hk => ?_) (fun _ => rfl) (fun _ => rfl) (fun _ => rfl)⟩
      · simp only [toE, tree, typed, ha, hb, Option.bind_some, binX_arith]
      · cases o <;> first | (cases hk; done) | (simp only [still, Bool.and_eq_true] at hk; simp only [Read.quiet, Bool.and_eq_true]; exact ⟨la.quiet k hk.1.2, lb.quiet k hk.2⟩)
    | div =>
      refine ⟨.divide (.cast .int64 a) (.cast .int64 b), ?_, same_divide sa sb, like_bin la lb (fun _ => rfl) (fun k hk => ?_) (fun _ => rfl) (fun _ => rfl) (fun _ => rfl)⟩
      · have hd : isDivide (entities vars funs) 8 = true := by
          unfold isDivide
          rw [entities_lib vars funs 8 (w "Math::Divide", .divide) rfl]
        have ht := typeOf_pos vars funs .int64
        simp only [tyPos] at ht
        simp only [toE, tree, typed, hd, if_true, ht, Option.bind_some, ha, hb, Option.map_some, CX.ty, promote, and_self]
      · cases hk
  | shift o un l r ihl ihr =>
    obtain ⟨a, ha, sa, la⟩ := ihl h.1 hn.1
    obtain ⟨b, hb, sb, lb⟩ := ihr h.2 hn.2
    refine ⟨.shift o a b, ?_, same_shift sa sb o, like_bin la lb (fun _ => rfl) (fun k hk => ?_) (fun _ => rfl) (fun _ => rfl) (fun _ => rfl)⟩
    · simp only [toE, tree, typed, ha, hb, Option.bind_some, binX_shift]
    · simp only [still, Bool.and_eq_true] at hk; simp only [Read.quiet, Bool.and_eq_true]; exact ⟨la.quiet k hk.1, lb.quiet k hk.2⟩
  | comp o un l r ihl ihr =>
    obtain ⟨a, ha, sa, la⟩ := ihl h.1 hn.1
    obtain ⟨b, hb, sb, lb⟩ := ihr h.2 hn.2
    refine ⟨.rel o a b, ?_, same_rel sa sb o, like_bin la lb (fun _ => rfl) (fun k hk => ?_) (fun _ => rfl) (fun _ => rfl) (fun _ => rfl)⟩
    · simp only [toE, tree, typed, ha, hb, Option.bind_some, binX_rel]
    · simp only [still, Bool.and_eq_true] at hk; simp only [Read.quiet, Bool.and_eq_true]; exact ⟨la.quiet k hk.1, lb.quiet k hk.2⟩
  | bitNot e ih =>
    obtain ⟨a, ha, sa, la⟩ := ih h hn
    exact ⟨.compl a, by simp only [toE, tree, typed, ha, Option.map_some], same_compl sa, la.none, la.quiet, la.once⟩
  | conv ty chk un e ih =>
    obtain ⟨a, ha, sa, la⟩ := ih h hn
    refine ⟨.cast ty a, by simp only [toE, tree, typed, typeOf_pos, ha, Option.bind_some, Option.map_some], same_cast sa ty, la.none, fun k hk => ?_, la.once⟩
    simp only [still, Bool.and_eq_true] at hk
    exact la.quiet k hk.2
  | ite c t f ihc iht ihf =>
    obtain ⟨a, ha, sa, la⟩ := ihc h.1 hn.2.1
    obtain ⟨b, hb, sb, lb⟩ := iht h.2.1 hn.2.2.1
    obtain ⟨d, hd, sd, ld⟩ := ihf h.2.2 hn.2.2.2
    refine ⟨.tern a b d, by simp only [toE, tree, typed, ha, hb, hd, Option.bind_some, Option.map_some], ?_, ?_, ?_, ?_⟩
    · have : trK (.ite c t f) none = .tern (trK c none) (trK t none) (trK f none) := by
        have hc : ∀ K, trK c K = K.fin (trK c none) := by
          intro K
          cases c with
          | ite => cases hn.1
          | bin o _ _ _ _ => cases o <;> rfl
          | _ => rfl
        show trK c (some (trK t none, trK f none)) = _
        rw [hc]; rfl
      rw [this]
      exact same_tern sa sb sd
    · intro k hk
      simp only [noUse, Bool.and_eq_true] at hk
      simp only [without, Bool.and_eq_true]
      exact ⟨⟨la.none k hk.1.1, lb.none k hk.1.2⟩, ld.none k hk.2⟩
    · intro k hk
      simp only [still, Bool.and_eq_true] at hk
      simp only [Read.quiet, Bool.and_eq_true]
      exact ⟨⟨la.quiet k hk.1.1, lb.quiet k hk.1.2⟩, ld.quiet k hk.2⟩
    · intro k hk
      simp only [first, Bool.and_eq_true] at hk
      simp only [Read.once, Bool.and_eq_true]
      exact ⟨⟨la.once k hk.1.1, lb.none k hk.1.2⟩, ld.none k hk.2⟩

/-! ## The calls in the text -/

theorem calls_const (ents : List (WStr × Entity)) (N : Nat) (x : Int) : callsIn ents (tree (constE N x)) = [] := by
  rcases constE_cases N x with ⟨k, e⟩ | ⟨k, e⟩ <;> rw [e] <;> rfl

theorem calls_divide (vars : List (WStr × Ty)) (funs : List Fun) (t : T) : callsIn (entities vars funs) (.call (.id 8) t) = callsIn (entities vars funs) t := by
  simp only [callsIn]
  rw [entities_lib vars funs 8 (w "Math::Divide", .divide) rfl]

/-- Without the variable that stands for the call there is no call. -/
theorem calls_none (vars : List (WStr × Ty)) (funs : List Fun) (V : Nat → E) (N j : Nat) (hV : ∀ k, k ≠ j → callsIn (entities vars funs) (tree (V k)) = []) (x : X) (h : noUse j x = true) :
    callsIn (entities vars funs) (tree (toE V N x)) = [] := by
  induction x with
  | var ty k =>
    have hk : k ≠ j := by simpa [noUse] using h
    exact hV k hk
  | i4 n => exact calls_const _ _ _
  | i8 n => exact calls_const _ _ _
  | bin o un chk l r ihl ihr =>
    simp only [noUse, Bool.and_eq_true] at h
    cases o with
    | arith o => simp only [toE, tree, callsIn, ihl h.1, ihr h.2, List.append_nil]
    | div => simp only [toE, tree, calls_divide]; simp only [callsIn, ihl h.1, ihr h.2, List.append_nil]
  | shift o un l r ihl ihr =>
    simp only [noUse, Bool.and_eq_true] at h
    simp only [toE, tree, callsIn, ihl h.1, ihr h.2, List.append_nil]
  | comp o un l r ihl ihr =>
    simp only [noUse, Bool.and_eq_true] at h
    simp only [toE, tree, callsIn, ihl h.1, ihr h.2, List.append_nil]
  | bitNot e ih => exact ih h
  | conv ty chk un e ih => exact ih h
  | ite c t f ihc iht ihf =>
    simp only [noUse, Bool.and_eq_true] at h
    simp only [toE, tree, callsIn, ihc h.1.1, iht h.1.2, ihf h.2, List.append_nil]

/-- With it there is one. -/
theorem calls_first (vars : List (WStr × Ty)) (funs : List Fun) (V : Nat → E) (N j : Nat) (hV : ∀ k, k ≠ j → callsIn (entities vars funs) (tree (V k)) = []) (x : X) (h : first j x = true) :
    callsIn (entities vars funs) (tree (toE V N x)) = callsIn (entities vars funs) (tree (V j)) := by
  induction x with
  | var ty k =>
    have hk : k = j := by simpa [first] using h
    rw [hk]; rfl
  | i4 n => cases h
  | i8 n => cases h
  | bin o un chk l r ihl ihr =>
    simp only [first, Bool.or_eq_true, Bool.and_eq_true] at h
    rcases h with ⟨h1, h2⟩ | ⟨h1, h2⟩
    · cases o with
      | arith o => simp only [toE, tree, callsIn, ihl h1, calls_none vars funs V N j hV r (still_noUse j r h2), List.append_nil]
      | div => simp only [toE, tree, calls_divide]; simp only [callsIn, ihl h1, calls_none vars funs V N j hV r (still_noUse j r h2), List.append_nil]
    · cases o with
      | arith o => simp only [toE, tree, callsIn, ihr h2, calls_none vars funs V N j hV l (still_noUse j l h1), List.nil_append]
      | div => simp only [toE, tree, calls_divide]; simp only [callsIn, ihr h2, calls_none vars funs V N j hV l (still_noUse j l h1), List.nil_append, List.append_nil]
  | shift o un l r ihl ihr =>
    simp only [first, Bool.or_eq_true, Bool.and_eq_true] at h
    rcases h with ⟨h1, h2⟩ | ⟨h1, h2⟩
    · simp only [toE, tree, callsIn, ihl h1, calls_none vars funs V N j hV r (still_noUse j r h2), List.append_nil]
    · simp only [toE, tree, callsIn, ihr h2, calls_none vars funs V N j hV l (still_noUse j l h1), List.nil_append]
  | comp o un l r ihl ihr =>
    simp only [first, Bool.or_eq_true, Bool.and_eq_true] at h
    rcases h with ⟨h1, h2⟩ | ⟨h1, h2⟩
    · simp only [toE, tree, callsIn, ihl h1, calls_none vars funs V N j hV r (still_noUse j r h2), List.append_nil]
    · simp only [toE, tree, callsIn, ihr h2, calls_none vars funs V N j hV l (still_noUse j l h1), List.nil_append]
  | bitNot e ih => exact ih h
  | conv ty chk un e ih => exact ih h
  | ite c t f ihc iht ihf =>
    simp only [first, Bool.and_eq_true] at h
    simp only [toE, tree, callsIn, ihc h.1.1, calls_none vars funs V N j hV t h.1.2, calls_none vars funs V N j hV f h.2, List.append_nil]

theorem noUse_typed (vars : List (WStr × Ty)) (x : X) (h : WellTyped vars x) : noUse vars.length x = true := by
  induction x with
  | var ty k =>
    obtain ⟨n, hn⟩ := h
    have hk : k < vars.length := by
      rcases Nat.lt_or_ge k vars.length with h' | h'
      · exact h'
      · rw [List.getElem?_eq_none h'] at hn; cases hn
    simp only [noUse, bne_iff_ne]; omega
  | i4 n => rfl
  | i8 n => rfl
  | bin o un chk l r ihl ihr => simp only [noUse, ihl h.1, ihr h.2]; rfl
  | shift o un l r ihl ihr => simp only [noUse, ihl h.1, ihr h.2]; rfl
  | comp o un l r ihl ihr => simp only [noUse, ihl h.1, ihr h.2]; rfl
  | bitNot e ih => exact ih h
  | conv ty chk un e ih => exact ih h
  | ite c t f ihc iht ihf => simp only [noUse, ihc h.1, iht h.2.1, ihf h.2.2]; rfl

theorem noUse_known (vars : List (WStr × Ty)) (funs : List Fun) (x : X) (h : Typed (Known vars funs) x) : noUse vars.length x = true := by
  induction x with
  | var ty k =>
    simp only [noUse, bne_iff_ne]
    rcases h with ⟨n, hn⟩ | ⟨hk, _⟩
    · have hk : k < vars.length := (List.getElem?_eq_some_iff.mp hn).1
      omega
    · omega
  | i4 n => rfl
  | i8 n => rfl
  | bin o un chk l r ihl ihr => simp only [noUse, ihl h.1, ihr h.2]; rfl
  | shift o un l r ihl ihr => simp only [noUse, ihl h.1, ihr h.2]; rfl
  | comp o un l r ihl ihr => simp only [noUse, ihl h.1, ihr h.2]; rfl
  | bitNot e ih => exact ih h
  | conv ty chk un e ih => exact ih h
  | ite c t f ihc iht ihf => simp only [noUse, ihc h.1, iht h.2.1, ihf h.2.2]; rfl

theorem typed_known (vars : List (WStr × Ty)) (funs : List Fun) (x : X) (h : Typed (Known vars funs) x) (hn : NoCond x) :
    ∃ c, typed (entities vars funs) (tree (toE (baseE vars funs) (entities vars funs).length x)) = some c ∧ Same c (trK x none) :=
  typed_gen vars funs (baseE vars funs) x (Typed.mono (fun _ _ hk => typed_base vars funs hk) x h) hn

/-- The arguments of a call: cast to the types of the parameters. -/
theorem args_read (vars : List (WStr × Ty)) (funs : List Fun) : ∀ (tys : List Ty) (es : List X), tys.length = es.length → (∀ e ∈ es, Typed (Known vars funs) e ∧ NoCond e) →
    ∃ cs : List CX, argsOf (entities vars funs) tys (tree (argsE (baseE vars funs) (entities vars funs).length tys es)) = some cs ∧ cs.length = es.length ∧
      ∀ (i : Nat) ty e c, tys[i]? = some ty → es[i]? = some e → cs[i]? = some c → ∃ c', c = .cast ty c' ∧ Same c' (trK e none)
  | [], [], _, _ => ⟨[], rfl, rfl, fun i ty e c h => by simp at h⟩
  | [], _ :: _, h, _ => by simp at h
  | _ :: _, [], h, _ => by simp at h
  | ty :: tys, e :: es, hl, h => by
    obtain ⟨cs, h1, h2, h3⟩ := args_read vars funs tys es (by simpa using hl) (fun x hx => h x (List.mem_cons_of_mem _ hx))
    obtain ⟨he, hn⟩ := h e List.mem_cons_self
    obtain ⟨c, c1, c2⟩ := typed_known vars funs e he hn
    have hc : callsIn (entities vars funs) (tree (toE (baseE vars funs) (entities vars funs).length e)) = [] :=
      calls_none vars funs (baseE vars funs) _ vars.length (fun k _ => calls_base vars funs _ k) e (noUse_known vars funs e he)
    refine ⟨.cast ty c :: cs, ?_, by simp [h2], ?_⟩
    · simp only [argsE, tree, argsOf, callsIn, hc, if_true, typed, typeOf_pos, c1, h1, Option.bind_some, Option.map_some]
    · intro i ty' e' c' g1 g2 g3
      cases i with
      | zero =>
        simp only [List.getElem?_cons_zero, Option.some.injEq] at g1 g2 g3
        subst g1 g2 g3
        exact ⟨c, rfl, c2⟩
      | succ i =>
        simp only [List.getElem?_cons_succ] at g1 g2 g3
        exact h3 i ty' e' c' g1 g2 g3

end Verif.Text
