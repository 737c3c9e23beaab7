import Verif.ReadLemmas
import Verif.ExprText
import Verif.ExprProps
import Verif.SemProps
import Verif.ConstProps
/-!
# Lemmas for C155: the characters of an integer expression as tokens and as a typed expression
-/
namespace Verif.Text
open Cpp Sem Read Expr
open Verif.IntVal (Ty)

/-! ## Specification -/

/-- The name of variable `k`. -/
def nameOf (vars : List (WStr × Ty)) (k : Nat) : WStr := ((vars[k]?).map (·.1)).getD []

/-- The variables of the expression are among `vars` and its constants fit their types. -/
def WellTyped (vars : List (WStr × Ty)) : X → Prop
  | .var ty k => ∃ n, vars[k]? = some (n, ty)
  | .i4 n => I32 n
  | .i8 n => I64 n
  | .bin _ _ _ l r | .shift _ _ l r | .comp _ _ l r => WellTyped vars l ∧ WellTyped vars r
  | .bitNot e | .conv _ _ _ e => WellTyped vars e
  | .ite c t f => WellTyped vars c ∧ WellTyped vars t ∧ WellTyped vars f

/-- No conditional is the condition of another one. -/
def NoCond : X → Prop
  | .var _ _ | .i4 _ | .i8 _ => True
  | .bin _ _ _ l r | .shift _ _ l r | .comp _ _ l r => NoCond l ∧ NoCond r
  | .bitNot e | .conv _ _ _ e => NoCond e
  | .ite c t f => isIte c = false ∧ NoCond c ∧ NoCond t ∧ NoCond f

/-! ## The expression with numbered names -/

/-- Place of a type among the library's names. -/
def tyPos : Ty → Nat
  | .sbyte => 0 | .byte => 1 | .int16 => 2 | .uint16 => 3 | .int32 => 4 | .uint32 => 5 | .int64 => 6 | .uint64 => 7

def aop : AOp → Op
  | .add => .add | .sub => .sub | .mul => .mul | .rem => .rem | .band => .band | .bor => .bor | .xor => .xor
def sop : SOp → Op
  | .shl => .shl | .shr => .shr
def rop : ROp → Op
  | .eq => .eq | .ne => .ne | .lt => .lt | .le => .le | .gt => .gt | .ge => .ge

def constE (N : Nat) (x : Int) : E :=
  if x = 255 then .atom 9
  else if x = 127 then .atom 10
  else if x = 32767 then .atom 11
  else if x = 2147483647 then .atom 12
  else if x = 9223372036854775807 then .atom 13
  else if x = 65535 then .atom 14
  else if x = 4294967295 then .atom 15
  else if x = -128 then .atom 17
  else if x = -32768 then .atom 18
  else if x = -2147483648 then .atom 19
  else if x = -9223372036854775808 then .atom 20
  else if x < 0 then .negLit (N + x.natAbs) else .atom (N + x.toNat)

/-- An expression, with `V k` in the place of variable `k`. -/
def toE (V : Nat → E) (N : Nat) : X → E
  | .var _ k => V k
  | .i4 n => constE N n
  | .i8 n => constE N n
  | .bin (.arith o) _ _ l r => .bin (aop o) (toE V N l) (toE V N r)
  | .bin .div _ _ l r => .div 8 6 (toE V N l) (toE V N r)
  | .shift o _ l r => .bin (sop o) (toE V N l) (toE V N r)
  | .comp o _ l r => .cmp (rop o) (toE V N l) (toE V N r)
  | .bitNot e => .bitNot (toE V N e)
  | .conv ty _ _ e => .conv (some (tyPos ty)) (toE V N e)
  | .ite c t f => .tern (toE V N c) (toE V N t) (toE V N f)

/-- What can stand in the place of a variable: a name or a call. -/
structure Atomic (e : E) : Prop where
  ok : Ok e
  level : level e = 2
  tern : isTern e = false
  emit : ∀ b, emitB b e = emitB false e

/-- A variable is its name. -/
def nameE (k : Nat) : E := .atom (library.length + k)

theorem atomic_atom (k : Nat) : Atomic (.atom k) := ⟨trivial, rfl, rfl, fun _ => rfl⟩

theorem constE_cases (N : Nat) (x : Int) : (∃ k, constE N x = .atom k) ∨ ∃ k, constE N x = .negLit k := by
  have key : ∀ (p : Prop) [Decidable p] (k : Nat) (e : E), ((∃ k, e = .atom k) ∨ ∃ k, e = .negLit k) →
      (∃ j, (if p then E.atom k else e) = .atom j) ∨ ∃ j, (if p then E.atom k else e) = .negLit j := by
    intro p _ k e h
    by_cases hp : p
    · rw [if_pos hp]; exact .inl ⟨k, rfl⟩
    · rw [if_neg hp]; exact h
  unfold constE
  repeat apply key
  by_cases hn : x < 0
  · rw [if_pos hn]; exact .inr ⟨_, rfl⟩
  · rw [if_neg hn]; exact .inl ⟨_, rfl⟩

theorem constE_level (N : Nat) (x : Int) : level (constE N x) = 1 ∨ level (constE N x) = 2 := by
  rcases constE_cases N x with ⟨k, e⟩ | ⟨k, e⟩ <;> rw [e]
  · exact .inr rfl
  · exact .inl rfl

theorem constE_ok (N : Nat) (x : Int) : Ok (constE N x) := by
  rcases constE_cases N x with ⟨k, e⟩ | ⟨k, e⟩ <;> rw [e] <;> trivial

theorem constE_tern (N : Nat) (x : Int) : isTern (constE N x) = false := by
  rcases constE_cases N x with ⟨k, e⟩ | ⟨k, e⟩ <;> rw [e] <;> rfl

theorem constE_emit (N : Nat) (x : Int) (b : Bool) : emitB b (constE N x) = emit (constE N x) := by
  rcases constE_cases N x with ⟨k, e⟩ | ⟨k, e⟩ <;> rw [e] <;> rfl

theorem toE_level {V : Nat → E} (hV : ∀ k, Atomic (V k)) (N : Nat) (x : X) : level (toE V N x) = 1 ∨ level (toE V N x) = 2 := by
  cases x with
  | var ty k => exact .inr (hV k).level
  | i4 n => exact constE_level N n
  | i8 n => exact constE_level N n
  | bin o un chk l r => cases o <;> exact .inr rfl
  | bitNot e => exact .inl rfl
  | _ => exact .inr rfl

theorem toE_tern {V : Nat → E} (hV : ∀ k, Atomic (V k)) (N : Nat) (x : X) (h : isIte x = false) : isTern (toE V N x) = false := by
  cases x with
  | var ty k => exact (hV k).tern
  | i4 n => exact constE_tern N n
  | i8 n => exact constE_tern N n
  | bin o un chk l r => cases o <;> rfl
  | ite c t f => cases h
  | _ => rfl

theorem le2 {n : Nat} (h : n = 1 ∨ n = 2) : n ≤ 2 := by omega

theorem toE_ok {V : Nat → E} (hV : ∀ k, Atomic (V k)) (N : Nat) (x : X) (h : NoCond x) : Ok (toE V N x) := by
  induction x with
  | var ty k => exact (hV k).ok
  | i4 n => exact constE_ok N n
  | i8 n => exact constE_ok N n
  | bin o un chk l r ihl ihr =>
    cases o <;> exact ⟨⟨ihl h.1, toE_level hV N l⟩, ihr h.2, toE_level hV N r⟩
  | shift o un l r ihl ihr => exact ⟨⟨ihl h.1, toE_level hV N l⟩, ihr h.2, toE_level hV N r⟩
  | comp o un l r ihl ihr => exact ⟨⟨ihl h.1, le2 (toE_level hV N l)⟩, ihr h.2, toE_level hV N r⟩
  | bitNot e ih => exact ⟨ih h, toE_level hV N e⟩
  | conv ty chk un e ih => exact ⟨ih h, toE_level hV N e⟩
  | ite c t f ihc iht ihf =>
    exact ⟨⟨ihc h.2.1, toE_level hV N c, toE_tern hV N c h.1⟩, ⟨iht h.2.2.1, le2 (toE_level hV N t)⟩, ihf h.2.2.2, le2 (toE_level hV N f)⟩

/-! ## Characters to tokens -/

theorem tx_scoped (ents : List (WStr × Entity)) {a b : WStr} {t : Tok} (ha : CppLex.isIdent a = true) (hb : CppLex.isIdent b = true)
    (h : nameTok ents (a ++ w "::" ++ b) = some t) : Tx ents (a ++ w "::" ++ b) [t] := by
  refine ⟨[.word a, .punct (w "::"), .word b], ?_, rx_scoped ents h, trivial⟩
  intro rest hr
  have e : a ++ w "::" ++ b ++ rest = a ++ 58 :: (58 :: (b ++ rest)) := by simp [w]
  rw [e, lex_ident_break ha (by decide)]
  have e2 := run_two 58 58 (by decide) (by decide) (b ++ rest)
  rw [show [58, 58] ++ (b ++ rest) = 58 :: 58 :: (b ++ rest) from rfl] at e2
  rw [e2]
  obtain ⟨c, r, hbr, hc, hrr⟩ := ident_parts hb
  have hbrk : lexS (.punct [58, 58]) (b ++ rest) = (lexS .none (b ++ rest)).map ([Lexeme.punct [58, 58]] ++ ·) := by
    rw [hbr, List.cons_append, lex_break (show (St.punct [58, 58]).extends c = false from ?_) (by simp)]
    · rfl
    · have : ∀ c, puncts.contains [58, 58, c] = false := by intro c; simp [puncts, w]
      exact this c
  rw [hbrk, lx_ident hb rest hr, Option.map_map, Option.map_map]
  rfl

theorem numTok_dec (ents : List (WStr × Entity)) (n : Nat) (h : n ≤ 9223372036854775807) : numTok ents (dec n) = some (.id (ents.length + n)) := by
  unfold numTok
  rw [Const.intLiteral_dec n h]
  rfl

theorem tx_dec (ents : List (WStr × Entity)) (n : Nat) (h : n ≤ 9223372036854775807) : Tx ents (dec n) [.id (ents.length + n)] :=
  ⟨_, lx_num (dec_ne_nil n) (dec_digits n), rx_num ents (numTok_dec ents n h), trivial⟩

theorem tx_neg (ents : List (WStr × Entity)) (n : Nat) (h : n ≤ 9223372036854775807) : Tx ents (45 :: dec n) [.op .sub, .id (ents.length + n)] := by
  refine ⟨[.punct (w "-"), .num (dec n)], ?_, ?_, by show w "-" ≠ w "::"; decide⟩
  · intro rest hr
    have hb : lexS .none (45 :: (dec n ++ rest)) = (lexS .none (dec n ++ rest)).map (Lexeme.punct (w "-") :: ·) := by
      rw [show 45 :: (dec n ++ rest) = [45] ++ (dec n ++ rest) from rfl, run_one 45 (by decide)]
      cases hd : dec n with
      | nil => exact absurd hd (dec_ne_nil n)
      | cons c r =>
        have hc : isDigit c = true := dec_digits n c (by rw [hd]; exact List.mem_cons_self)
        rw [List.cons_append, lex_break (show (St.punct [45]).extends c = false from ?_) (by simp)]
        · rfl
        · have hc' := (isDigit_iff c).mp hc
          have : ∀ c, 48 ≤ c ∧ c ≤ 57 → puncts.contains [45, c] = false := by
            intro c hc
            simp [puncts, w]
            omega
          exact this c hc'
    rw [List.cons_append, hb, lx_num (dec_ne_nil n) (dec_digits n) rest hr, Option.map_map]
    rfl
  · exact (rx_punct ents (show punctTok (w "-") = some (.op .sub) from rfl)).append (rx_num ents (numTok_dec ents n h)) trivial

theorem tx_lib (vars : List (WStr × Ty)) (funs : List Fun) (a b : WStr) (k : Nat) (ha : CppLex.isIdent a = true) (hb : CppLex.isIdent b = true)
    (h : nameTok library (a ++ w "::" ++ b) = some (.id k)) : Tx (entities vars funs) (a ++ w "::" ++ b) [.id k] :=
  tx_scoped _ ha hb (nameTok_lib vars funs h)

theorem tx_const (vars : List (WStr × Ty)) (funs : List Fun) (x : Int) (h : I64 x) : Tx (entities vars funs) (Const.ldcI8 x) (emit (constE (entities vars funs).length x)) := by
  unfold Const.ldcI8 Const.convert constE
  rw [Const.find_dec]
  unfold I64 at h
  by_cases h1 : x = 255
  · rw [if_pos h1, if_pos h1]; exact tx_lib vars funs (w "ByteValue") (w "MaxValue") 9 (by decide) (by decide) (by decide +kernel)
  rw [if_neg h1, if_neg h1]
  by_cases h2 : x = 127
  · rw [if_pos h2, if_pos h2]; exact tx_lib vars funs (w "SByteValue") (w "MaxValue") 10 (by decide) (by decide) (by decide +kernel)
  rw [if_neg h2, if_neg h2]
  by_cases h3 : x = 32767
  · rw [if_pos h3, if_pos h3]; exact tx_lib vars funs (w "Int16Value") (w "MaxValue") 11 (by decide) (by decide) (by decide +kernel)
  rw [if_neg h3, if_neg h3]
  by_cases h4 : x = 2147483647
  · rw [if_pos h4, if_pos h4]; exact tx_lib vars funs (w "Int32Value") (w "MaxValue") 12 (by decide) (by decide) (by decide +kernel)
  rw [if_neg h4, if_neg h4]
  by_cases h5 : x = 9223372036854775807
  · rw [if_pos h5, if_pos h5]; exact tx_lib vars funs (w "Int64Value") (w "MaxValue") 13 (by decide) (by decide) (by decide +kernel)
  rw [if_neg h5, if_neg h5]
  by_cases h6 : x = 65535
  · rw [if_pos h6, if_pos h6]; exact tx_lib vars funs (w "UInt16Value") (w "MaxValue") 14 (by decide) (by decide) (by decide +kernel)
  rw [if_neg h6, if_neg h6]
  by_cases h7 : x = 4294967295
  · rw [if_pos h7, if_pos h7]; exact tx_lib vars funs (w "UInt32Value") (w "MaxValue") 15 (by decide) (by decide) (by decide +kernel)
  rw [if_neg h7, if_neg h7]
  have h8 : ¬ x = 18446744073709551615 := by omega
  rw [if_neg h8]
  by_cases h9 : x = -128
  · rw [if_pos h9, if_pos h9]; exact tx_lib vars funs (w "SByteValue") (w "MinValue") 17 (by decide) (by decide) (by decide +kernel)
  rw [if_neg h9, if_neg h9]
  by_cases h10 : x = -32768
  · rw [if_pos h10, if_pos h10]; exact tx_lib vars funs (w "Int16Value") (w "MinValue") 18 (by decide) (by decide) (by decide +kernel)
  rw [if_neg h10, if_neg h10]
  by_cases h11 : x = -2147483648
  · rw [if_pos h11, if_pos h11]; exact tx_lib vars funs (w "Int32Value") (w "MinValue") 19 (by decide) (by decide) (by decide +kernel)
  rw [if_neg h11, if_neg h11]
  by_cases h12 : x = -9223372036854775808
  · rw [if_pos h12, if_pos h12]; exact tx_lib vars funs (w "Int64Value") (w "MinValue") 20 (by decide) (by decide) (by decide +kernel)
  rw [if_neg h12, if_neg h12]
  simp only []
  unfold decInt
  by_cases hn : x < 0
  · rw [if_pos hn, if_pos hn]
    exact tx_neg _ _ (by omega)
  · rw [if_neg hn, if_neg hn]
    exact tx_dec _ _ (by omega)

/-- A binary operator and the spaces around it. -/
theorem ty_op (ents : List (WStr × Entity)) (s : WStr) (o : Op) (h : Ly (s ++ w " ") [.punct s]) (ht : punctTok s = some (.op o)) (hn : s ≠ w "::") :
    Ty' ents (w " " ++ (s ++ w " ")) [.op o] := (ty_space ents).append (ty_punct ents h ht hn)

theorem ty_arith (ents : List (WStr × Entity)) (o : AOp) : Ty' ents (w " " ++ (arithSymbol o ++ w " ")) [.op (aop o)] := by
  cases o
  all_goals exact ty_op ents _ _ (ly_punct_space _ (by decide) (run_one _ (by decide)) (by decide)) (by decide) (by decide)

theorem ty_shift (ents : List (WStr × Entity)) (o : SOp) : Ty' ents (w " " ++ (shiftSymbol o ++ w " ")) [.op (sop o)] := by
  cases o
  all_goals exact ty_op ents _ _ (ly_punct_space _ (by decide) (run_two _ _ (by decide) (by decide)) (by decide)) (by decide) (by decide)

theorem ty_comp (ents : List (WStr × Entity)) (o : ROp) : Ty' ents (compSymbol o) [.op (rop o)] := by
  cases o
  · exact ty_op ents (w "==") _ (ly_punct_space _ (by decide) (run_two _ _ (by decide) (by decide)) (by decide)) (by decide) (by decide)
  · exact ty_op ents (w "!=") _ (ly_punct_space _ (by decide) (run_two _ _ (by decide) (by decide)) (by decide)) (by decide) (by decide)
  · exact ty_op ents (w "<") _ (ly_punct_space _ (by decide) (run_one _ (by decide)) (by decide)) (by decide) (by decide)
  · exact ty_op ents (w "<=") _ (ly_punct_space _ (by decide) (run_two _ _ (by decide) (by decide)) (by decide)) (by decide) (by decide)
  · exact ty_op ents (w ">") _ (ly_punct_space _ (by decide) (run_one _ (by decide)) (by decide)) (by decide) (by decide)
  · exact ty_op ents (w ">=") _ (ly_punct_space _ (by decide) (run_two _ _ (by decide) (by decide)) (by decide)) (by decide) (by decide)

theorem sep_rp {r : WStr} : ∃ c r', w ")" ++ r = c :: r' ∧ isSep c = true := ⟨41, r, rfl, by decide⟩

theorem ty_cast (vars : List (WStr × Ty)) (funs : List Fun) (ty : Ty) : Ty' (entities vars funs) (castText ty) [.lp, .ty (tyPos ty), .rp] := by
  have key : ∀ s : WStr, CppLex.isIdent s = true → nameTok library s = some (.ty (tyPos ty)) →
      Ty' (entities vars funs) (w "(" ++ (s ++ w ")")) [.lp, .ty (tyPos ty), .rp] := by
    intro s hi hn
    exact (ty_lp _).append ((tx_word _ hi (nameTok_lib vars funs hn)).ty_append (ty_rp _) ⟨41, [], rfl, by decide⟩)
  cases ty
  · exact key (w "SByte") (by decide) (by decide +kernel)
  · exact key (w "Byte") (by decide) (by decide +kernel)
  · exact key (w "Int16") (by decide) (by decide +kernel)
  · exact key (w "UInt16") (by decide) (by decide +kernel)
  · exact key (w "Int32") (by decide) (by decide +kernel)
  · exact key (w "UInt32") (by decide) (by decide +kernel)
  · exact key (w "Int64") (by decide) (by decide +kernel)
  · exact key (w "UInt64") (by decide) (by decide +kernel)

/-- `Math::Divide(`. -/
theorem ty_divide (vars : List (WStr × Ty)) (funs : List Fun) : Ty' (entities vars funs) (w "Math::Divide(") [.id 8, .lp] := by
  refine ⟨[.word (w "Math"), .punct (w "::"), .word (w "Divide"), .punct (w "(")], ?_, ?_, trivial⟩
  · intro rest
    have hb : CppLex.isIdent (w "Divide") = true := by decide
    have e : w "Math::Divide(" ++ rest = w "Math" ++ 58 :: (58 :: (w "Divide" ++ 40 :: rest)) := by simp [w]
    rw [e, lex_ident_break (by decide) (by decide)]
    have e2 := run_two 58 58 (by decide) (by decide) (w "Divide" ++ 40 :: rest)
    rw [show [58, 58] ++ (w "Divide" ++ 40 :: rest) = 58 :: 58 :: (w "Divide" ++ 40 :: rest) from rfl] at e2
    rw [e2]
    have hbrk : lexS (.punct [58, 58]) (w "Divide" ++ 40 :: rest) = (lexS .none (w "Divide" ++ 40 :: rest)).map ([Lexeme.punct [58, 58]] ++ ·) := by
      rw [show w "Divide" ++ 40 :: rest = 68 :: (w "ivide" ++ 40 :: rest) from rfl, lex_break (by decide) (by decide)]
      rfl
    rw [hbrk, lex_ident_break hb (by decide)]
    have := ly_lp rest
    rw [show w "(" ++ rest = 40 :: rest from rfl] at this
    rw [this, Option.map_map, Option.map_map, Option.map_map]
    rfl
  · exact (rx_scoped _ (nameTok_lib vars funs (s := w "Math" ++ w "::" ++ w "Divide") (t := .id 8) (by decide +kernel))).append (rx_punct _ (p := w "(") rfl) (show w "(" ≠ w "::" by decide)

/-- The variables of the expression satisfy `p` and its constants fit their types. -/
def Typed (p : Ty → Nat → Prop) : X → Prop
  | .var ty k => p ty k
  | .i4 n => I32 n
  | .i8 n => I64 n
  | .bin _ _ _ l r | .shift _ _ l r | .comp _ _ l r => Typed p l ∧ Typed p r
  | .bitNot e | .conv _ _ _ e => Typed p e
  | .ite c t f => Typed p c ∧ Typed p t ∧ Typed p f

theorem wellTyped_iff (vars : List (WStr × Ty)) (x : X) : WellTyped vars x ↔ Typed (fun ty k => ∃ n, vars[k]? = some (n, ty)) x := by
  induction x <;> simp_all [WellTyped, Typed]

theorem Typed.mono {p q : Ty → Nat → Prop} (h : ∀ ty k, p ty k → q ty k) (x : X) (hx : Typed p x) : Typed q x := by
  induction x with
  | var ty k => exact h _ _ hx
  | i4 n => exact hx
  | i8 n => exact hx
  | bin o un chk l r ihl ihr => exact ⟨ihl hx.1, ihr hx.2⟩
  | shift o un l r ihl ihr => exact ⟨ihl hx.1, ihr hx.2⟩
  | comp o un l r ihl ihr => exact ⟨ihl hx.1, ihr hx.2⟩
  | bitNot e ih => exact ih hx
  | conv ty chk un e ih => exact ih hx
  | ite c t f ihc iht ihf => exact ⟨ihc hx.1, iht hx.2.1, ihf hx.2.2⟩

/-- The characters of an expression are its tokens when those of its variables are. -/
theorem tx_gen (vars : List (WStr × Ty)) (funs : List Fun) (name : Nat → WStr) (V : Nat → E) (x : X)
    (h : Typed (fun _ k => ∀ b, Tx (entities vars funs) (name k) (emitB b (V k))) x) :
    ∀ b, Tx (entities vars funs) (textB name b x) (emitB b (toE V (entities vars funs).length x)) := by
  induction x with
  | var ty k =>
    intro b
    exact h b
  | i4 n =>
    intro b
    show Tx _ (Const.ldcI8 n) (emitB b (constE _ n))
    rw [constE_emit]
    refine tx_const vars funs n ?_
    have : I32 n := h
    unfold I32 at this; unfold I64; omega
  | i8 n =>
    intro b
    show Tx _ (Const.ldcI8 n) (emitB b (constE _ n))
    rw [constE_emit]
    exact tx_const vars funs n h
  | bin o un chk l r ihl ihr =>
    intro b
    have hl := ihl h.1 false
    have hr := ihr h.2 false
    cases o with
    | arith o =>
      have := (ty_lp (entities vars funs)).append ((hl.ty_append (ty_arith _ o) ⟨32, _, rfl, by decide⟩).append (hr.ty_append (ty_rp _) ⟨41, [], rfl, by decide⟩))
      simpa [textB, emitB, toE, List.append_assoc] using this.tx
    | div =>
      have hb := (ty_cast vars funs .int64).tx_append hr
      have := (ty_divide vars funs).append (((ty_cast vars funs .int64).tx_append hl).ty_append (ty_comma _) ⟨44, [], rfl, by decide⟩)
      have := this.append (hb.ty_append (ty_rp _) ⟨41, [], rfl, by decide⟩)
      simpa [textB, emitB, toE, List.append_assoc, castText, tyPos] using this.tx
  | shift o un l r ihl ihr =>
    intro b
    have hl := ihl h.1 false
    have hr := ihr h.2 false
    have := (ty_lp (entities vars funs)).append ((hl.ty_append (ty_shift _ o) ⟨32, _, rfl, by decide⟩).append (hr.ty_append (ty_rp _) ⟨41, [], rfl, by decide⟩))
    simpa [textB, emitB, toE, List.append_assoc] using this.tx
  | comp o un l r ihl ihr =>
    intro b
    have hl := ihl h.1 false
    have hr := ihr h.2 false
    have := ((ty_lp (entities vars funs)).append (ty_lp _)).append ((hl.ty_append (ty_rp _) ⟨41, [], rfl, by decide⟩).append
      ((ty_comp _ o).append (hr.ty_append (ty_rp _) ⟨41, [], rfl, by decide⟩)))
    have e : w "((" = w "(" ++ w "(" := rfl
    simpa [textB, emitB, toE, List.append_assoc, e] using this.tx
  | bitNot e ih =>
    intro b
    have := (ty_tilde (entities vars funs)).tx_append (ih h false)
    simpa [textB, emitB, toE] using this
  | conv ty chk un e ih =>
    intro b
    have := (ty_lp (entities vars funs)).append ((ty_cast vars funs ty).append ((ih h false).ty_append (ty_rp _) ⟨41, [], rfl, by decide⟩))
    simpa [textB, emitB, toE, castToks, List.append_assoc] using this.tx
  | ite c t f ihc iht ihf =>
    intro b
    have hc := ihc h.1 true
    have ht := iht h.2.1 false
    have hf := ihf h.2.2 false
    have e1 : w " ? (" = w " " ++ (w "?" ++ (w " " ++ w "(")) := rfl
    have e2 : w ") : (" = w ")" ++ (w " " ++ (w ": " ++ w "(")) := rfl
    have p1 : Ty' (entities vars funs) (w " ? (") [.ques, .lp] := by
      rw [e1]; exact (ty_space _).append ((ty_ques _).append ((ty_space _).append (ty_lp _)))
    have p2 : Ty' (entities vars funs) (w ") : (") [.rp, .colon, .lp] := by
      rw [e2]; exact (ty_rp _).append ((ty_space _).append ((ty_colon _).append (ty_lp _)))
    have body := (hc.ty_append p1 ⟨32, _, rfl, by decide⟩).append ((ht.ty_append p2 ⟨41, _, rfl, by decide⟩).append (hf.ty_append (ty_rp _) ⟨41, [], rfl, by decide⟩))
    cases b with
    | true => simpa [textB, emitB, toE, List.append_assoc] using body.tx
    | false =>
      have := ((ty_lp (entities vars funs)).append body).append (ty_rp _)
      simpa [textB, emitB, toE, List.append_assoc] using this.tx

theorem tx_name {vars : List (WStr × Ty)} (hs : Scope vars) (funs : List Fun) {k : Nat} {n : WStr} {ty : Ty} (hn : vars[k]? = some (n, ty)) (b : Bool) :
    Tx (entities vars funs) (nameOf vars k) (emitB b (nameE k)) := by
  have : nameOf vars k = n := by simp [nameOf, hn]
  rw [this]
  exact tx_word _ (hs.ident _ (List.mem_of_getElem? hn)) (nameTok_var hs funs hn)

theorem tx_text (vars : List (WStr × Ty)) (hs : Scope vars) (funs : List Fun) (x : X) (h : WellTyped vars x) (b : Bool) :
    Tx (entities vars funs) (textB (nameOf vars) b x) (emitB b (toE nameE (entities vars funs).length x)) :=
  tx_gen vars funs (nameOf vars) nameE x (Typed.mono (fun _ _ ⟨_, hn⟩ => tx_name hs funs hn) x ((wellTyped_iff vars x).mp h)) b

/-! ## Types and values -/

/-- Same type and same value. -/
def Same (a b : CX) : Prop := a.ty = b.ty ∧ ∀ env, a.eval env = b.eval env

theorem same_arith {a b c d : CX} (h : Same a b) (g : Same c d) (o : AOp) : Same (.arith o a c) (.arith o b d) :=
  ⟨by simp only [CX.ty, h.1, g.1], fun env => by simp only [CX.eval, h.1, g.1, h.2, g.2]⟩
theorem same_shift {a b c d : CX} (h : Same a b) (g : Same c d) (o : SOp) : Same (.shift o a c) (.shift o b d) :=
  ⟨by simp only [CX.ty, h.1], fun env => by simp only [CX.eval, h.1, h.2, g.2]⟩
theorem same_rel {a b c d : CX} (h : Same a b) (g : Same c d) (o : ROp) : Same (.rel o a c) (.rel o b d) :=
  ⟨rfl, fun env => by simp only [CX.eval, h.1, g.1, h.2, g.2]⟩
theorem same_compl {a b : CX} (h : Same a b) : Same (.compl a) (.compl b) :=
  ⟨by simp only [CX.ty, h.1], fun env => by simp only [CX.eval, h.1, h.2]⟩
theorem same_cast {a b : CX} (h : Same a b) (ty : Ty) : Same (.cast ty a) (.cast ty b) :=
  ⟨rfl, fun env => by simp only [CX.eval, h.2]⟩
theorem same_tern {a b c d e f : CX} (h : Same a b) (g : Same c d) (k : Same e f) : Same (.tern a c e) (.tern b d f) :=
  ⟨by simp only [CX.ty, g.1, k.1], fun env => by simp only [CX.eval, h.2, g.1, k.1, g.2, k.2]⟩

theorem wrapI64_idem (x : Int) : wrapI64 (wrapI64 x) = wrapI64 x := by unfold wrapI64; omega

theorem same_divide {a b c d : CX} (h : Same a b) (g : Same c d) : Same (.divide (.cast .int64 a) (.cast .int64 c)) (.divide b d) := by
  refine ⟨rfl, fun env => ?_⟩
  simp only [CX.eval, h.2, g.2]
  cases b.eval env with
  | ub => cases d.eval env <;> rfl
  | throw e => cases d.eval env <;> rfl
  | ok x =>
    cases d.eval env with
    | ub => rfl
    | throw e => rfl
    | ok y => simp only [Res.bind_ok, both, Ty.wrap, wrapI64_idem]

theorem typed_const (vars : List (WStr × Ty)) (funs : List Fun) (x : Int) (h : I64 x) :
    ∃ c, typed (entities vars funs) (tree (constE (entities vars funs).length x)) = some c ∧ Same c (constX x) := by
  have lib : ∀ (k : Nat) (v : ConstSpec.IVal) (n : WStr), library[k]? = some (n, .const v) → v.value = x →
      (CX.cast v.ty (.lit v.value)).ty = (constX x).ty → v.ty.wrap x = x →
      ∃ c, typed (entities vars funs) (tree (.atom k)) = some c ∧ Same c (constX x) := by
    intro k v n hk hv ht hw
    refine ⟨.cast v.ty (.lit v.value), ?_, ht, fun env => ?_⟩
    · show atomX _ k = _
      unfold atomX
      rw [entities_lib vars funs k _ hk]
    · show Res.ok (v.ty.wrap v.value) = _
      rw [hv, hw]
      unfold constX
      split
      · show _ = Res.ok (Ty.uint32.wrap x)
        rename_i hx; subst hx; rfl
      · rfl
  unfold I64 at h
  unfold constE
  by_cases h1 : x = 255
  · subst h1; rw [if_pos rfl]; exact lib 9 ⟨.byte, 255⟩ _ rfl rfl (by decide) (by decide)
  rw [if_neg h1]
  by_cases h2 : x = 127
  · subst h2; rw [if_pos rfl]; exact lib 10 ⟨.sbyte, 127⟩ _ rfl rfl (by decide) (by decide)
  rw [if_neg h2]
  by_cases h3 : x = 32767
  · subst h3; rw [if_pos rfl]; exact lib 11 ⟨.int16, 32767⟩ _ rfl rfl (by decide) (by decide)
  rw [if_neg h3]
  by_cases h4 : x = 2147483647
  · subst h4; rw [if_pos rfl]; exact lib 12 ⟨.int32, 2147483647⟩ _ rfl rfl (by decide) (by decide)
  rw [if_neg h4]
  by_cases h5 : x = 9223372036854775807
  · subst h5; rw [if_pos rfl]; exact lib 13 ⟨.int64, 9223372036854775807⟩ _ rfl rfl (by decide) (by decide)
  rw [if_neg h5]
  by_cases h6 : x = 65535
  · subst h6; rw [if_pos rfl]; exact lib 14 ⟨.uint16, 65535⟩ _ rfl rfl (by decide) (by decide)
  rw [if_neg h6]
  by_cases h7 : x = 4294967295
  · subst h7; rw [if_pos rfl]; exact lib 15 ⟨.uint32, 4294967295⟩ _ rfl rfl (by decide) (by decide)
  rw [if_neg h7]
  by_cases h9 : x = -128
  · subst h9; rw [if_pos rfl]; exact lib 17 ⟨.sbyte, -128⟩ _ rfl rfl (by decide) (by decide)
  rw [if_neg h9]
  by_cases h10 : x = -32768
  · subst h10; rw [if_pos rfl]; exact lib 18 ⟨.int16, -32768⟩ _ rfl rfl (by decide) (by decide)
  rw [if_neg h10]
  by_cases h11 : x = -2147483648
  · subst h11; rw [if_pos rfl]; exact lib 19 ⟨.int32, -2147483648⟩ _ rfl rfl (by decide) (by decide)
  rw [if_neg h11]
  by_cases h12 : x = -9223372036854775808
  · subst h12; rw [if_pos rfl]; exact lib 20 ⟨.int64, -9223372036854775808⟩ _ rfl rfl (by decide) (by decide)
  rw [if_neg h12]
  have hx : constX x = .lit x := if_neg h7
  rw [hx]
  have lit : ∀ n : Nat, atomX (entities vars funs) ((entities vars funs).length + n) = some (.lit n) := by
    intro n
    unfold atomX
    rw [List.getElem?_eq_none (by omega)]
    simp only [Nat.add_sub_cancel_left]
  by_cases hn : x < 0
  · rw [if_pos hn]
    refine ⟨.arith .sub (.lit 0) (.lit x.natAbs), ?_, ?_⟩
    · show (atomX _ _).map _ = _
      rw [lit]
      rfl
    · by_cases h32 : I32 x
      · have hm : I32 (x.natAbs : Int) := by unfold I32 at *; omega
        have t1 : (CX.lit (x.natAbs : Int)).ty = .i32 := if_pos hm
        have t0 : (CX.lit 0).ty = .i32 := by decide
        have t2 : (CX.lit x).ty = .i32 := if_pos h32
        refine ⟨by show common (CX.lit 0).ty (CX.lit (x.natAbs : Int)).ty = _; rw [t0, t1, t2]; rfl, fun env => ?_⟩
        simp only [CX.eval, t0, t1, both, common, arithOp, CT.conv, deliver]
        rw [show wrapI32 0 = 0 from by decide, wrapI32_of hm, if_pos (by rfl), if_pos (by simp only [CT.lo, CT.hi]; unfold I32 at h32; omega)]
        congr 1; omega
      · have hm : ¬ I32 (x.natAbs : Int) := by unfold I32 at *; omega
        have t1 : (CX.lit (x.natAbs : Int)).ty = .i64 := if_neg hm
        have t0 : (CX.lit 0).ty = .i32 := by decide
        have t2 : (CX.lit x).ty = .i64 := if_neg h32
        refine ⟨by show common (CX.lit 0).ty (CX.lit (x.natAbs : Int)).ty = _; rw [t0, t1, t2]; rfl, fun env => ?_⟩
        have hm64 : I64 (x.natAbs : Int) := by unfold I64; omega
        simp only [CX.eval, t0, t1, both, common, arithOp, CT.conv, deliver]
        rw [show wrapI64 0 = 0 from by decide, wrapI64_of hm64, if_pos (by rfl), if_pos (by simp only [CT.lo, CT.hi]; omega)]
        congr 1; omega
  · rw [if_neg hn]
    refine ⟨.lit x.toNat, lit _, ?_⟩
    have : ((x.toNat : Nat) : Int) = x := by omega
    rw [this]
    exact ⟨rfl, fun _ => rfl⟩

theorem typeOf_pos (vars : List (WStr × Ty)) (funs : List Fun) (ty : Ty) : typeOf (entities vars funs) (tyPos ty) = some ty := by
  unfold typeOf
  cases ty
  · rw [entities_lib vars funs _ (w "SByte", .type .sbyte) rfl]
  · rw [entities_lib vars funs _ (w "Byte", .type .byte) rfl]
  · rw [entities_lib vars funs _ (w "Int16", .type .int16) rfl]
  · rw [entities_lib vars funs _ (w "UInt16", .type .uint16) rfl]
  · rw [entities_lib vars funs _ (w "Int32", .type .int32) rfl]
  · rw [entities_lib vars funs _ (w "UInt32", .type .uint32) rfl]
  · rw [entities_lib vars funs _ (w "Int64", .type .int64) rfl]
  · rw [entities_lib vars funs _ (w "UInt64", .type .uint64) rfl]

theorem binX_arith (o : AOp) (l r : CX) : binX (aop o) l r = some (.arith o l r) := by cases o <;> rfl
theorem binX_shift (o : SOp) (l r : CX) : binX (sop o) l r = some (.shift o l r) := by cases o <;> rfl
theorem binX_rel (o : ROp) (l r : CX) : binX (rop o) l r = some (.rel o l r) := by cases o <;> rfl

theorem typed_gen (vars : List (WStr × Ty)) (funs : List Fun) (V : Nat → E) (x : X) (h : Typed (fun ty k => typed (entities vars funs) (tree (V k)) = some (.var ty k)) x) (hn : NoCond x) :
    ∃ c, typed (entities vars funs) (tree (toE V (entities vars funs).length x)) = some c ∧ Same c (trK x none) := by
  induction x with
  | var ty k =>
    exact ⟨.var ty k, h, rfl, fun _ => rfl⟩
  | i4 n =>
    refine typed_const vars funs n ?_
    have : I32 n := h
    unfold I32 at this; unfold I64; omega
  | i8 n => exact typed_const vars funs n h
  | bin o un chk l r ihl ihr =>
    obtain ⟨a, ha, sa⟩ := ihl h.1 hn.1
    obtain ⟨b, hb, sb⟩ := ihr h.2 hn.2
    cases o with
    | arith o =>
      refine ⟨.arith o a b, ?_, same_arith sa sb o⟩
      simp only [toE, tree, typed, ha, hb, Option.bind_some, binX_arith]
    | div =>
      refine ⟨.divide (.cast .int64 a) (.cast .int64 b), ?_, same_divide sa sb⟩
      have hd : isDivide (entities vars funs) 8 = true := by
        unfold isDivide
        rw [entities_lib vars funs 8 (w "Math::Divide", .divide) rfl]
      have ht := typeOf_pos vars funs .int64
      simp only [tyPos] at ht
      simp only [toE, tree, typed, hd, if_true, ht, Option.bind_some, ha, hb, Option.map_some, CX.ty, promote, and_self]
  | shift o un l r ihl ihr =>
    obtain ⟨a, ha, sa⟩ := ihl h.1 hn.1
    obtain ⟨b, hb, sb⟩ := ihr h.2 hn.2
    refine ⟨.shift o a b, ?_, same_shift sa sb o⟩
    simp only [toE, tree, typed, ha, hb, Option.bind_some, binX_shift]
  | comp o un l r ihl ihr =>
    obtain ⟨a, ha, sa⟩ := ihl h.1 hn.1
    obtain ⟨b, hb, sb⟩ := ihr h.2 hn.2
    refine ⟨.rel o a b, ?_, same_rel sa sb o⟩
    simp only [toE, tree, typed, ha, hb, Option.bind_some, binX_rel]
  | bitNot e ih =>
    obtain ⟨a, ha, sa⟩ := ih h hn
    exact ⟨.compl a, by simp only [toE, tree, typed, ha, Option.map_some], same_compl sa⟩
  | conv ty chk un e ih =>
    obtain ⟨a, ha, sa⟩ := ih h hn
    exact ⟨.cast ty a, by simp only [toE, tree, typed, typeOf_pos, ha, Option.bind_some, Option.map_some], same_cast sa ty⟩
  | ite c t f ihc iht ihf =>
    obtain ⟨a, ha, sa⟩ := ihc h.1 hn.2.1
    obtain ⟨b, hb, sb⟩ := iht h.2.1 hn.2.2.1
    obtain ⟨d, hd, sd⟩ := ihf h.2.2 hn.2.2.2
    refine ⟨.tern a b d, by simp only [toE, tree, typed, ha, hb, hd, Option.bind_some, Option.map_some], ?_⟩
    have : trK (.ite c t f) none = .tern (trK c none) (trK t none) (trK f none) := by
      have hc : ∀ K, trK c K = K.fin (trK c none) := by
        intro K
        cases c with
        | ite => cases hn.1
        | bin o _ _ _ _ => cases o <;> rfl
        | _ => rfl
      show trK c (some (trK t none, trK f none)) = _
      rw [hc]; rfl
    rw [this]
    exact same_tern sa sb sd

theorem typed_name (vars : List (WStr × Ty)) (funs : List Fun) {k : Nat} {n : WStr} {ty : Ty} (hk : vars[k]? = some (n, ty)) :
    typed (entities vars funs) (tree (nameE k)) = some (.var ty k) := by
  show atomX _ _ = _
  unfold atomX
  rw [entities_var vars funs k n ty hk]

theorem typed_text (vars : List (WStr × Ty)) (funs : List Fun) (x : X) (h : WellTyped vars x) (hn : NoCond x) :
    ∃ c, typed (entities vars funs) (tree (toE nameE (entities vars funs).length x)) = some c ∧ Same c (trK x none) :=
  typed_gen vars funs nameE x (Typed.mono (fun _ _ ⟨_, hn⟩ => typed_name vars funs hn) x ((wellTyped_iff vars x).mp h)) hn

theorem agree_noCond (x : X) (h : Agree x) : NoCond x := by
  induction x with
  | var ty k => trivial
  | i4 n => trivial
  | i8 n => trivial
  | bin o un chk l r ihl ihr =>
    cases o with
    | div => exact ⟨ihl h.1, ihr h.2.1⟩
    | arith o => cases o <;> exact ⟨ihl h.1, ihr h.2.1⟩
  | shift o un l r ihl ihr => exact ⟨ihl h.1, ihr h.2.1⟩
  | comp o un l r ihl ihr => exact ⟨ihl h.1, ihr h.2.1⟩
  | bitNot e ih => exact ih h.1
  | conv ty chk un e ih => exact ih h.1
  | ite c t f ihc iht ihf => exact ⟨h.1, ihc h.2.1, iht h.2.2.1, ihf h.2.2.2.1⟩

end Verif.Text
