import Verif.FloatExprLemmas
/-!
# C133: translated floating-point expressions
-/
namespace Verif.FloatExpr
open Verif.FltModel Verif.FltSpec Verif.FltProps Verif.Rnd Verif.FloatText Verif.FloatTextSpec

/-! ## Which expressions are translated faithfully -/

/-- The C++ expression has an integer type. -/
def cint : X → Bool
  | .whole _ => true
  | .bin .add l r | .bin .sub l r | .bin .mul l r => cint l && cint r
  | _ => false

/-- A `float` instruction whose C++ expression has type `Double`. -/
def wide : X → Bool
  | .bin .div l _ | .bin .rem l _ => l.ty = .f4
  | .bin _ l r => wide l || wide r
  | _ => false

/-- The C++ number is exactly the source's (not only after rounding to `Single`). -/
def settled : X → Bool
  | .bin .div l _ => l.ty = .f8
  | .bin .rem _ _ => true
  | .bin _ l r => !(wide l || wide r)
  | _ => true

/-- Every operand of an operation and of a conversion to `double` is settled; a built-in operator has an operand of floating-point type; constants are constants of their type. -/
def Agree : X → Prop
  | .var _ _ | .ofInt _ _ => True
  | .lit t b => b < 2 * t.fmt.S
  | .whole n => conv dbl sgl (ofInt sgl n) = ofInt dbl n
  | .bin o l r => Agree l ∧ Agree r ∧ l.ty = r.ty ∧ settled l = true ∧ settled r = true ∧ (o = .div ∨ o = .rem ∨ ¬ (cint l = true ∧ cint r = true))
  | .conv t e => Agree e ∧ (t = .f8 → settled e = true)

/-- A division by zero has a zero dividend, or a dividend with the divisor's sign (C75: `Math::Divide` gives `+∞` for every other dividend). -/
def ZeroOk (env : Env) : X → Prop
  | .bin o l r => ZeroOk env l ∧ ZeroOk env r ∧
    (o = .div → mag l.ty.fmt (r.eval env) = 0 → mag l.ty.fmt (l.eval env) = 0 ∨ (nan l.ty.fmt (l.eval env) = false ∧ neg l.ty.fmt (l.eval env) = neg l.ty.fmt (r.eval env)))
  | .conv _ e => ZeroOk env e
  | _ => True

/-- The variables hold bit patterns of their types. -/
def Env.Ok (env : Env) : Prop := ∀ t k, env.get t k < 2 * t.fmt.S

theorem lib_fmt (t : FT) : Lib t.fmt := by cases t; exact Or.inr rfl; exact Or.inl rfl

theorem feq_zero (b : Nat) (hb : b < 2 * dbl.S) : feq dbl b 0 = true ↔ mag dbl b = 0 := by
  have h0 := bin_dbl
  have h00 : mag dbl 0 = 0 := by decide
  have v0 : val dbl 0 = 0 := by decide +kernel
  have n0 : nan dbl 0 = false := by decide
  unfold feq
  rw [v0, n0]
  simp only [Bool.not_false, Bool.and_true, Bool.and_eq_true, Bool.not_eq_true', decide_eq_true_eq]
  rw [val_signed]
  constructor
  · rintro ⟨_, h⟩
    by_contra hc
    have := magVal_pos bin_dbl (show 0 < mag dbl b by omega)
    unfold signed at h
    split at h <;> omega
  · intro h
    refine ⟨(nan_false _).2 (by omega), ?_⟩
    rw [h, magVal_zero]; unfold signed; split <;> rfl

theorem fmt4 : FT.fmt .f4 = sgl := rfl
theorem fmt8 : FT.fmt .f8 = dbl := rfl
theorem to_int (t : FT) (n : Int) : (V.int n).to t = ofInt t.fmt n := rfl
theorem to_same (t : FT) (b : Nat) : (V.fl t b).to t = b := by unfold V.to; simp only [if_true]
theorem to_ne (t u : FT) (b : Nat) (h : u ≠ t) : (V.fl u b).to t = conv t.fmt u.fmt b := by rw [V.to, if_neg h]
theorem to_48 (b : Nat) : (V.fl .f4 b).to .f8 = conv dbl sgl b := by rw [to_ne _ _ _ (by decide), fmt8, fmt4]
theorem to_84 (b : Nat) : (V.fl .f8 b).to .f4 = conv sgl dbl b := by rw [to_ne _ _ _ (by decide), fmt8, fmt4]

theorem div_zero_zero (a b : Nat) (ha : mag dbl a = 0) (hb : mag dbl b = 0) : div dbl a b = NaN dbl := by
  have nb : nan dbl b = false := (nan_false _).2 (by omega)
  have na : nan dbl a = false := (nan_false _).2 (by omega)
  have hI : (0 : Nat) ≠ dbl.I := by decide
  unfold div
  rw [na, nb, ha, hb]
  simp only [Bool.or_self, Bool.false_eq_true, if_false, if_neg hI, if_true]

theorem div_zero (a b : Nat) (ha : mag dbl a ≠ 0) (na : nan dbl a = false) (hb : mag dbl b = 0) (hs : neg dbl a = neg dbl b) : div dbl a b = pack dbl false dbl.I := by
  have nb : nan dbl b = false := (nan_false _).2 (by omega)
  have hI : (0 : Nat) ≠ dbl.I := by decide
  unfold div
  rw [na, nb, hb, hs]
  simp only [Bool.or_self, Bool.false_eq_true, if_false, bne_self_eq_false, if_neg hI, if_true, if_neg ha]
  split <;> rfl

/-- `Math::Divide` divides, except by zeros. -/
theorem mathDivide_div (a b : Nat) (ha : a < 2 * dbl.S) (hb : b < 2 * dbl.S)
    (h : mag dbl b = 0 → mag dbl a = 0 ∨ (nan dbl a = false ∧ neg dbl a = neg dbl b)) : mathDivide a b = div dbl a b := by
  unfold mathDivide divideSpecial
  by_cases c : mag dbl b = 0
  · rw [if_pos ((feq_zero b hb).2 c)]
    by_cases ca : mag dbl a = 0
    · rw [if_pos ((feq_zero a ha).2 ca), div_zero_zero a b ca c, Option.getD_some]
      decide +kernel
    · rw [if_neg (by rw [feq_zero a ha]; exact ca)]
      rcases h c with h | ⟨na, hs⟩
      · exact absurd h ca
      · rw [div_zero a b ca na c hs, Option.getD_some]
        decide +kernel
  · rw [if_neg (by rw [feq_zero b hb]; exact c), Option.getD_none]

/-- What is known of the C++ value of an instruction. -/
def Inv (e : X) (v : V) (a : Nat) : Prop :=
  a < 2 * e.ty.fmt.S ∧
  match e.ty with
  | .f8 => v = .fl .f8 a
  | .f4 =>
    if cint e = true then wide e = false ∧ ∃ n, v = .int n ∧ a = ofInt sgl n ∧ conv dbl sgl a = ofInt dbl n
    else if wide e = false then v = .fl .f4 a
    else if settled e = true then v = .fl .f8 (conv dbl sgl a) ∧ (nan sgl a = true → a = NaN sgl)
    else ∃ b, v = .fl .f8 b ∧ conv sgl dbl b = a

theorem inv8 {e : X} {v : V} {a : Nat} (h : Inv e v a) (ht : e.ty = .f8) : v = .fl .f8 a ∧ a < 2 * dbl.S := by
  unfold Inv at h; rw [ht] at h; exact ⟨h.2, h.1⟩

/-- The value as a `Double`, when settled. -/
theorem inv_double {e : X} {v : V} {a : Nat} (h : Inv e v a) (ht : e.ty = .f4) (hs : settled e = true) : v.to .f8 = conv dbl sgl a ∧ a < 2 * sgl.S := by
  unfold Inv at h; rw [ht] at h
  refine ⟨?_, h.1⟩
  have h2 := h.2
  simp only at h2
  split at h2
  · obtain ⟨_, n, rfl, rfl, h3⟩ := h2; rw [to_int, fmt8, h3]
  · split at h2
    · rw [h2, to_48]
    · rw [h2.1, to_same]

theorem inv_single {e : X} {v : V} {a : Nat} (h : Inv e v a) (ht : e.ty = .f4) : v.to .f4 = a := by
  unfold Inv at h; rw [ht] at h
  have h1 : a < 2 * sgl.S := h.1
  have h2 := h.2
  simp only at h2
  split at h2
  · obtain ⟨_, n, rfl, rfl, h3⟩ := h2; rw [to_int, fmt4]
  · split at h2
    · rw [h2, to_same]
    · split at h2
      · rw [h2.1]
        rw [to_84]
        cases hn : nan sgl a with
        | true =>
          have := h2.2 hn
          rw [(widen_nan a hn).1, narrow_NaN, this]
        | false => exact narrow_widen a h1 hn
      · obtain ⟨b, rfl, h3⟩ := h2
        rw [to_84]; exact h3

/-- The C++ type is what `cint` and `wide` say. -/
theorem inv_type {e : X} {v : V} {a : Nat} (h : Inv e v a) (ht : e.ty = .f4) :
    (cint e = true ∧ wide e = false ∧ ∃ n, v = .int n) ∨ (cint e = false ∧ wide e = false ∧ ∃ b, v = .fl .f4 b) ∨ (cint e = false ∧ wide e = true ∧ ∃ b, v = .fl .f8 b) := by
  unfold Inv at h; rw [ht] at h
  have h2 := h.2
  simp only at h2
  by_cases c : cint e = true
  · rw [if_pos c] at h2; obtain ⟨w, n, h, _⟩ := h2; exact Or.inl ⟨c, w, n, h⟩
  · rw [if_neg c] at h2
    rw [Bool.not_eq_true] at c
    by_cases w : wide e = false
    · rw [if_pos w] at h2; exact Or.inr (Or.inl ⟨c, w, _, h2⟩)
    · rw [if_neg w] at h2
      rw [Bool.not_eq_false] at w
      refine Or.inr (Or.inr ⟨c, w, ?_⟩)
      split at h2
      · exact ⟨_, h2.1⟩
      · obtain ⟨b, h, _⟩ := h2; exact ⟨b, h⟩

theorem common_cases {l r : X} {v w : V} {a b : Nat} (hl : Inv l v a) (hr : Inv r w b) (tl : l.ty = .f4) (tr : r.ty = .f4) (hc : ¬ (cint l = true ∧ cint r = true)) :
    (wide l || wide r) = true ∧ v.common w = some .f8 ∨ (wide l || wide r) = false ∧ v.common w = some .f4 := by
  rcases inv_type hl tl with ⟨c1, w1, n1, rfl⟩ | ⟨c1, w1, n1, rfl⟩ | ⟨c1, w1, n1, rfl⟩ <;>
  rcases inv_type hr tr with ⟨c2, w2, n2, rfl⟩ | ⟨c2, w2, n2, rfl⟩ | ⟨c2, w2, n2, rfl⟩ <;>
  rw [w1, w2]
  · exact absurd ⟨c1, c2⟩ hc
  · exact Or.inr ⟨rfl, rfl⟩
  · exact Or.inl ⟨rfl, rfl⟩
  · exact Or.inr ⟨rfl, rfl⟩
  · exact Or.inr ⟨rfl, rfl⟩
  · exact Or.inl ⟨rfl, rfl⟩
  · exact Or.inl ⟨rfl, rfl⟩
  · exact Or.inl ⟨rfl, rfl⟩
  · exact Or.inl ⟨rfl, rfl⟩

theorem builtin_some {v w : V} {t : FT} (o : Op) (i : Int → Int → Int) (h : v.common w = some t) : builtin o i v w = .fl t (op t.fmt o (v.to t) (w.to t)) := by
  unfold builtin; rw [h]

/-- The built-in operators. -/
theorem inv_builtin (o : Op) (i : Int → Int → Int) (ho : o = .add ∨ o = .sub ∨ o = .mul) {l r : X} {v w : V} {a b : Nat} (hl : Inv l v a) (hr : Inv r w b) (ht : l.ty = r.ty)
    (sl : settled l = true) (sr : settled r = true) (hc : ¬ (cint l = true ∧ cint r = true)) : Inv (.bin o l r) (builtin o i v w) (op l.ty.fmt o a b) := by
  have hcb : cint (.bin o l r) = (cint l && cint r) := by rcases ho with rfl | rfl | rfl <;> rfl
  have hwb : wide (.bin o l r) = (wide l || wide r) := by rcases ho with rfl | rfl | rfl <;> rfl
  have hsb : settled (.bin o l r) = !(wide l || wide r) := by rcases ho with rfl | rfl | rfl <;> rfl
  have hcf : ¬ (cint l && cint r) = true := by rw [Bool.and_eq_true]; exact hc
  cases tl : l.ty with
  | f8 =>
    obtain ⟨rfl, la⟩ := inv8 hl tl
    obtain ⟨rfl, lb⟩ := inv8 hr (by rw [← ht, tl])
    unfold Inv
    rw [show (X.bin o l r).ty = l.ty from rfl, tl]
    exact ⟨op_pattern (Or.inl rfl) o a b la lb, rfl⟩
  | f4 =>
    have tr' : r.ty = .f4 := by rw [← ht, tl]
    obtain ⟨dl, la⟩ := inv_double hl tl sl
    obtain ⟨dr, lb⟩ := inv_double hr tr' sr
    unfold Inv
    rw [show (X.bin o l r).ty = l.ty from rfl, tl]
    refine ⟨op_pattern (Or.inr rfl) o a b la lb, ?_⟩
    simp only [hcb, hwb, hsb]
    rw [if_neg hcf]
    rcases common_cases hl hr tl tr' hc with ⟨h1, h2⟩ | ⟨h1, h2⟩
    · rw [h1, if_neg (by decide), if_neg (by decide), builtin_some _ _ h2, dl, dr]
      exact ⟨_, rfl, op_narrow o a b la lb⟩
    · rw [h1, if_pos rfl, builtin_some _ _ h2, inv_single hl tl, inv_single hr tr']

theorem widen_zero (a : Nat) (ha : a < 2 * sgl.S) : (mag dbl (conv dbl sgl a) = 0 ↔ mag sgl a = 0) ∧ (nan sgl a = false → neg dbl (conv dbl sgl a) = neg sgl a) := by
  cases hn : nan sgl a with
  | true =>
    rw [(widen_nan a hn).1]
    rw [nan_iff] at hn
    refine ⟨⟨fun h => ?_, fun h => ?_⟩, fun h => by cases h⟩
    · have := (NaN_nan (F := dbl) (Or.inl rfl)).2.2; omega
    · omega
  | false =>
    obtain ⟨m', h1, h2, h3, h4, h5⟩ := widen a hn
    obtain ⟨_, p1, p2⟩ := wparts (neg sgl a) h1 bin_dbl
    rw [h2, p2, p1]
    exact ⟨h5, fun _ => rfl⟩

theorem inv (env : Env) (he : env.Ok) (e : X) (hA : Agree e) (hZ : ZeroOk env e) : Inv e ((tr e).eval env) (e.eval env) := by
  induction e with
  | var t k => cases t <;> exact ⟨he _ k, rfl⟩
  | lit t b => cases t <;> exact ⟨hA, rfl⟩
  | whole n => exact ⟨ofInt_pattern (Or.inr rfl) n, rfl, n, rfl, rfl, hA⟩
  | ofInt t k => cases t <;> exact ⟨ofInt_pattern (lib_fmt _) _, rfl⟩
  | bin o l r ihl ihr =>
    obtain ⟨Al, Ar, ht, sl, sr, hc⟩ := hA
    obtain ⟨Zl, Zr, hz⟩ := hZ
    have il := ihl Al Zl
    have ir := ihr Ar Zr
    cases o with
    | add => exact inv_builtin .add _ (Or.inl rfl) il ir ht sl sr (by simpa using hc)
    | sub => exact inv_builtin .sub _ (Or.inr (Or.inl rfl)) il ir ht sl sr (by simpa using hc)
    | mul => exact inv_builtin .mul _ (Or.inr (Or.inr rfl)) il ir ht sl sr (by simpa using hc)
    | div =>
      have hz := hz rfl
      show Inv _ (.fl .f8 (mathDivide (((tr l).eval env).to .f8) (((tr r).eval env).to .f8))) (op l.ty.fmt .div (l.eval env) (r.eval env))
      generalize l.eval env = a at *
      generalize r.eval env = b at *
      generalize (tr l).eval env = v at *
      generalize (tr r).eval env = w at *
      cases tl : l.ty with
      | f8 =>
        rw [tl] at hz
        obtain ⟨rfl, la⟩ := inv8 il tl
        obtain ⟨rfl, lb⟩ := inv8 ir (by rw [← ht, tl])
        unfold Inv
        rw [show (X.bin .div l r).ty = l.ty from rfl, tl]
        refine ⟨op_pattern (Or.inl rfl) .div a b la lb, ?_⟩
        show V.fl .f8 (mathDivide a b) = _
        rw [mathDivide_div a b la lb hz]
        rfl
      | f4 =>
        rw [tl] at hz
        have tr' : r.ty = .f4 := by rw [← ht, tl]
        obtain ⟨dl, la⟩ := inv_double il tl sl
        obtain ⟨dr, lb⟩ := inv_double ir tr' sr
        unfold Inv
        rw [show (X.bin .div l r).ty = l.ty from rfl, tl]
        refine ⟨op_pattern (Or.inr rfl) .div a b la lb, ?_⟩
        have h1 : wide (.bin .div l r) = true := by show decide (l.ty = .f4) = true; rw [tl]; rfl
        have h2 : settled (.bin .div l r) = false := by show decide (l.ty = .f8) = false; rw [tl]; rfl
        have h3 : cint (.bin .div l r) = false := rfl
        simp only [h1, h2, h3]
        rw [if_neg (by decide), if_neg (by decide), if_neg (by decide), dl, dr]
        refine ⟨_, rfl, ?_⟩
        rw [mathDivide_div _ _ (conv_pattern (Or.inl rfl) _ _) (conv_pattern (Or.inl rfl) _ _) (by
          intro h
          obtain ⟨ha1, ha2⟩ := widen_zero a la
          obtain ⟨hb1, hb2⟩ := widen_zero b lb
          have hb0 := hb1.1 h
          have nb : nan sgl b = false := (nan_false _).2 (by omega)
          rcases hz hb0 with z | ⟨z1, z2⟩
          · exact Or.inl (ha1.2 z)
          · refine Or.inr ⟨by rw [nan_widen]; exact z1, ?_⟩
            rw [ha2 z1, hb2 nb]; exact z2)]
        exact div_narrow a b
    | rem =>
      show Inv _ (.fl .f8 (modulus dbl (((tr l).eval env).to .f8) (((tr r).eval env).to .f8))) (op l.ty.fmt .rem (l.eval env) (r.eval env))
      generalize l.eval env = a at *
      generalize r.eval env = b at *
      generalize (tr l).eval env = v at *
      generalize (tr r).eval env = w at *
      cases tl : l.ty with
      | f8 =>
        obtain ⟨rfl, la⟩ := inv8 il tl
        obtain ⟨rfl, lb⟩ := inv8 ir (by rw [← ht, tl])
        unfold Inv
        rw [show (X.bin .rem l r).ty = l.ty from rfl, tl]
        exact ⟨op_pattern (Or.inl rfl) .rem a b la lb, rfl⟩
      | f4 =>
        have tr' : r.ty = .f4 := by rw [← ht, tl]
        obtain ⟨dl, la⟩ := inv_double il tl sl
        obtain ⟨dr, lb⟩ := inv_double ir tr' sr
        unfold Inv
        rw [show (X.bin .rem l r).ty = l.ty from rfl, tl]
        refine ⟨op_pattern (Or.inr rfl) .rem a b la lb, ?_⟩
        have h1 : wide (.bin .rem l r) = true := by show decide (l.ty = .f4) = true; rw [tl]; rfl
        have h2 : settled (.bin .rem l r) = true := rfl
        have h3 : cint (.bin .rem l r) = false := rfl
        simp only [h1, h2, h3]
        rw [if_neg (by decide), if_neg (by decide), if_pos trivial, dl, dr, (rem_widen a b).1]
        exact ⟨rfl, (rem_widen a b).2.1⟩
  | conv t e ih =>
    obtain ⟨Ae, hs⟩ := hA
    have i1 := ih Ae hZ
    show Inv _ (.fl t (((tr e).eval env).to t)) (if e.ty = t then e.eval env else conv t.fmt e.ty.fmt (e.eval env))
    generalize e.eval env = a at *
    generalize (tr e).eval env = v at *
    have tyc : (X.conv t e).ty = t := rfl
    have cc : cint (X.conv t e) = false := rfl
    have wc : wide (X.conv t e) = false := rfl
    have goal : ∀ b, b < 2 * t.fmt.S → Inv (X.conv t e) (.fl t b) b := by
      intro b hb
      unfold Inv
      rw [tyc, cc, wc]
      refine ⟨hb, ?_⟩
      cases t
      · simp only [Bool.false_eq_true, if_false, if_true]
      · rfl
    by_cases c : e.ty = t
    · rw [if_pos c]
      have la : a < 2 * t.fmt.S := by have := i1.1; rwa [c] at this
      have : v.to t = a := by
        cases t with
        | f8 => rw [(inv8 i1 c).1, to_same]
        | f4 => exact inv_single i1 c
      rw [this]
      exact goal a la
    · rw [if_neg c]
      have : v.to t = conv t.fmt e.ty.fmt a := by
        cases t with
        | f8 =>
          have te : e.ty = .f4 := by cases h : e.ty; rfl; exact absurd h c
          rw [te, (inv_double i1 te (hs rfl)).1, fmt8, fmt4]
        | f4 =>
          have te : e.ty = .f8 := by cases h : e.ty; exact absurd h c; rfl
          rw [te, (inv8 i1 te).1, to_84, fmt8, fmt4]
      rw [this]
      exact goal _ (conv_pattern (lib_fmt t) _ _)

/-- **C133** (partial): for every floating-point expression in which no quotient of floats (and no sum, difference or product in which a float remainder or such a result takes part) is used unrounded, every contents of the
variables and no division of a negative number (or NaN) by zero, the translated assignment stores exactly the source's value: all `double` arithmetic, and `float` arithmetic whose results in `Double` are the value assigned, because
rounding a quotient, sum, difference or product of floats to `double` first does not change it. Missing: the refuted cases below. -/
theorem C133_store_partial (env : Env) (he : env.Ok) (e : X) (hA : Agree e) (hZ : ZeroOk env e) : cppStore env e.ty e = e.eval env := by
  have h := inv env he e hA hZ
  unfold cppStore
  cases t : e.ty with
  | f8 => obtain ⟨h1, _⟩ := inv8 h t; rw [h1]; rfl
  | f4 => exact inv_single h t

theorem widen_lt (a b m n : Nat) (hm : m ≤ dbl.I) (hn : n ≤ dbl.I) (ha : a ≤ sgl.I) (hb : b ≤ sgl.I) (h1 : m = dbl.I ↔ a = sgl.I) (h2 : n = dbl.I ↔ b = sgl.I)
    (h3 : a < sgl.I → magVal dbl m = magVal sgl a * 2 ^ 925) (h4 : b < sgl.I → magVal dbl n = magVal sgl b * 2 ^ 925) : (m < n ↔ a < b) := by
  by_cases c : a = sgl.I
  · have := h1.2 c; omega
  · by_cases d : b = sgl.I
    · have := h2.2 d
      have : m ≠ dbl.I := fun h => c (h1.1 h)
      omega
    · have e1 := h3 (by omega)
      have e2 := h4 (by omega)
      have k1 : m < n ↔ magVal dbl m < magVal dbl n := by
        rw [← not_le, ← not_le, magVal_le dbl (M0 bin_dbl)]
      have k2 : a < b ↔ magVal sgl a < magVal sgl b := by
        rw [← not_le, ← not_le, magVal_le sgl (M0 bin_sgl)]
      rw [k1, k2, e1, e2]
      generalize hW : 2 ^ 925 = W
      have hp : 0 < W := by rw [← hW]; exact Nat.two_pow_pos _
      exact Nat.mul_lt_mul_right hp

/-- Singles compare like the doubles with the same numbers. -/
theorem widen_key (a b : Nat) (ha : nan sgl a = false) (hb : nan sgl b = false) :
    (val dbl (conv dbl sgl a) < val dbl (conv dbl sgl b) ↔ val sgl a < val sgl b) ∧ (val dbl (conv dbl sgl a) = val dbl (conv dbl sgl b) ↔ val sgl a = val sgl b) := by
  obtain ⟨m, a1, a2, a3, a4, a5⟩ := widen a ha
  obtain ⟨n, b1, b2, b3, b4, b5⟩ := widen b hb
  obtain ⟨_, p1, p2⟩ := wparts (neg sgl a) a1 bin_dbl
  obtain ⟨_, q1, q2⟩ := wparts (neg sgl b) b1 bin_dbl
  have k1 := widen_lt _ _ m n a1 b1 ((nan_false _).1 ha) ((nan_false _).1 hb) a3 b3 a4 b4
  have k2 := widen_lt _ _ n m b1 a1 ((nan_false _).1 hb) ((nan_false _).1 ha) b3 a3 b4 a4
  rw [val_lt_key (M0 bin_dbl), val_lt_key (M0 bin_sgl), val_eq_key (M0 bin_dbl), val_eq_key (M0 bin_sgl)]
  unfold key
  rw [a2, b2, p1, p2, q1, q2]
  generalize mag sgl a = x at *
  generalize mag sgl b = y at *
  clear a1 b1 a3 b3 a4 b4 p1 p2 q1 q2 a2 b2 ha hb
  cases neg sgl a <;> cases neg sgl b <;> simp only [Bool.false_eq_true, if_false, if_true] <;> omega

theorem flt_widen (a b : Nat) : flt dbl (conv dbl sgl a) (conv dbl sgl b) = flt sgl a b ∧ feq dbl (conv dbl sgl a) (conv dbl sgl b) = feq sgl a b := by
  unfold flt feq
  rw [nan_widen, nan_widen]
  cases ha : nan sgl a
  · cases hb : nan sgl b
    · obtain ⟨h1, h2⟩ := widen_key a b ha hb
      rw [decide_eq_decide.2 h1, decide_eq_decide.2 h2]; exact ⟨rfl, rfl⟩
    · exact ⟨by simp, by simp⟩
  · exact ⟨by simp, by simp⟩

theorem rel_widen (o : Rel) (a b : Nat) : rel dbl o (conv dbl sgl a) (conv dbl sgl b) = rel sgl o a b := by
  obtain ⟨h1, h2⟩ := flt_widen a b
  obtain ⟨h3, _⟩ := flt_widen b a
  cases o <;> unfold rel <;> simp only [h1, h2, h3]

/-- **C133**, comparisons (partial): `==`, `!=`, `<`, `<=`, `>`, `>=` of two such expressions, neither of which is an unrounded result, have the source's outcome; NaN, infinities and signed zeros included. -/
theorem C133_compare_partial (env : Env) (he : env.Ok) (o : Rel) (l r : X) (hl : Agree l) (hr : Agree r) (ht : l.ty = r.ty) (sl : settled l = true) (sr : settled r = true)
    (hc : ¬ (cint l = true ∧ cint r = true)) (zl : ZeroOk env l) (zr : ZeroOk env r) : cppComp env o l r = ilComp env o l r := by
  have h1 := inv env he l hl zl
  have h2 := inv env he r hr zr
  unfold cppComp ilComp
  generalize (tr l).eval env = v at *
  generalize (tr r).eval env = w at *
  generalize l.eval env = a at *
  generalize r.eval env = b at *
  cases t : l.ty with
  | f8 =>
    rw [(inv8 h1 t).1, (inv8 h2 (by rw [← ht, t])).1]
    show rel FT.f8.fmt o ((V.fl .f8 a).to .f8) ((V.fl .f8 b).to .f8) = _
    rw [to_same, to_same]
  | f4 =>
    have t2 : r.ty = .f4 := by rw [← ht, t]
    rcases common_cases h1 h2 t t2 hc with ⟨_, hv⟩ | ⟨_, hv⟩
    · rw [hv]
      show rel FT.f8.fmt o (v.to .f8) (w.to .f8) = _
      rw [(inv_double h1 t sl).1, (inv_double h2 t2 sr).1, fmt8, fmt4, rel_widen]
    · rw [hv]
      show rel FT.f4.fmt o (v.to .f4) (w.to .f4) = _
      rw [inv_single h1 t, inv_single h2 t2]

theorem toI64_widen (a : Nat) : toI64 dbl (conv dbl sgl a) = toI64 sgl a := by
  cases hn : nan sgl a with
  | true =>
    obtain ⟨h1, h2⟩ := widen_nan a hn
    unfold toI64
    rw [if_pos (le_of_lt ((nan_iff _).1 h2)), if_pos (le_of_lt ((nan_iff _).1 hn))]
  | false =>
    obtain ⟨m, a1, a2, a3, a4, a5⟩ := widen a hn
    obtain ⟨_, p1, p2⟩ := wparts (neg sgl a) a1 bin_dbl
    have hle := (nan_false _).1 hn
    unfold toI64
    by_cases c : mag sgl a = sgl.I
    · rw [if_pos (by rw [a2, p2, a3.2 c]), if_pos (by rw [c])]
    · have c2 : m ≠ dbl.I := fun h => c (a3.1 h)
      rw [if_neg (show ¬ dbl.I ≤ mag dbl (conv dbl sgl a) by rw [a2, p2]; omega), if_neg (show ¬ sgl.I ≤ mag sgl a by omega)]
      have hv : val dbl (conv dbl sgl a) = val sgl a * ((2 ^ 925 : Nat) : Int) := by
        rw [val_signed, a2, p1, p2, a4 (by omega), signed_mul, ← val_signed]
      have hd : (val dbl (conv dbl sgl a)).tdiv (2 ^ places dbl) = (val sgl a).tdiv (2 ^ places sgl) := by
        rw [hv, show (2 : Int) ^ places dbl = 2 ^ places sgl * ((2 ^ 925 : Nat) : Int) by
          rw [places_dbl, places_sgl, Nat.cast_pow, Nat.cast_ofNat, ← pow_add]]
        generalize val sgl a = x
        generalize hW : 2 ^ 925 = W
        have hp : 0 < W := by rw [← hW]; exact Nat.two_pow_pos _
        exact Int.mul_tdiv_mul_of_pos_left _ _ (by exact_mod_cast hp)
      rw [hd]

/-- **C133**, conversions to `long` (partial): of such an expression that is not an unrounded result, to `long`: the source's number. -/
theorem C133_toInt64_partial (env : Env) (he : env.Ok) (e : X) (hA : Agree e) (hs : settled e = true) (hc : cint e = false) (hz : ZeroOk env e) : cppToI64 env e = ilToI64 env e := by
  have h := inv env he e hA hz
  unfold cppToI64 ilToI64
  generalize (tr e).eval env = v at *
  generalize e.eval env = a at *
  cases t : e.ty with
  | f8 => rw [(inv8 h t).1]
  | f4 =>
    unfold Inv at h
    rw [t] at h
    have h2 := h.2
    simp only [hc, Bool.false_eq_true, if_false, hs, if_true] at h2
    split at h2
    · rw [h2]
    · rw [h2.1]
      show toI64 FT.f8.fmt _ = _
      rw [fmt8, fmt4, toI64_widen]

/-! ## Concrete cases -/

/-- `a = 1f`, `b = 3f`, `c = 5f`; `p = -1.0`, `q = 0.0`, `r = 0.1`; `i = 7`. -/
def sample : Env :=
  ⟨fun k => if k = 0 then 0x3F800000 else if k = 1 then 0x40400000 else 0x40A00000, fun k => if k = 0 then 0xBFF0000000000000 else if k = 1 then 0 else 0x3FB999999999999A, fun _ => 7⟩

theorem sample_ok : sample.Ok := by
  intro t k
  cases t
  · show (if k = 0 then 0x3F800000 else if k = 1 then 0x40400000 else 0x40A00000) < _
    split <;> [decide; (split <;> decide)]
  · show (if k = 0 then 0xBFF0000000000000 else if k = 1 then 0 else 0x3FB999999999999A) < _
    split <;> [decide; (split <;> decide)]

abbrev fa : X := .var .f4 0
abbrev fb : X := .var .f4 1
abbrev fc : X := .var .f4 2

/-- `(a + 2f * c) / (b - (float)i)`, which is -2.75 -/
example : Agree (.bin .div (.bin .add fa (.bin .mul (.whole 2) fc)) (.bin .sub fb (.ofInt .f4 0))) ∧ ZeroOk sample (.bin .div (.bin .add fa (.bin .mul (.whole 2) fc)) (.bin .sub fb (.ofInt .f4 0))) ∧
    cppStore sample .f4 (.bin .div (.bin .add fa (.bin .mul (.whole 2) fc)) (.bin .sub fb (.ofInt .f4 0))) = 0xC0300000 := by
  refine ⟨⟨⟨trivial, ⟨?_, trivial, rfl, rfl, rfl, ?_⟩, rfl, rfl, rfl, ?_⟩, ⟨trivial, trivial, rfl, rfl, rfl, ?_⟩, rfl, rfl, rfl, ?_⟩, ?_, ?_⟩
  · show conv dbl sgl (ofInt sgl 2) = ofInt dbl 2
    decide +kernel
  · decide
  · decide
  · decide
  · decide
  · refine ⟨⟨trivial, ⟨trivial, trivial, by decide⟩, by decide⟩, ⟨trivial, trivial, by decide⟩, fun _ h => ?_⟩
    revert h
    decide +kernel
  · decide +kernel

/-- `(double)((float)(a / b)) < r`, `r = 0.1`, after the rounding to `float`: 1/3 is not below 0.1. -/
example : Agree (.conv .f8 (.conv .f4 (.bin .div fa fb))) ∧ settled (.conv .f8 (.conv .f4 (.bin .div fa fb))) = true ∧ cppComp sample .lt (.conv .f8 (.conv .f4 (.bin .div fa fb))) (.var .f8 2) = false ∧
    cppComp sample .gt (.conv .f8 (.conv .f4 (.bin .div fa fb))) (.var .f8 2) = true := by
  refine ⟨⟨⟨⟨trivial, trivial, rfl, rfl, rfl, by decide⟩, by decide⟩, fun _ => rfl⟩, rfl, ?_, ?_⟩ <;> decide +kernel

/-- `(long)(c % b)` is 2. -/
example : Agree (.bin .rem fc fb) ∧ settled (.bin .rem fc fb) = true ∧ cint (.bin .rem fc fb) = false ∧ cppToI64 sample (.bin .rem fc fb) = .ok 2 := by
  refine ⟨⟨trivial, trivial, rfl, rfl, rfl, by decide⟩, rfl, rfl, ?_⟩
  decide +kernel

/-! ## What goes wrong -/

/-- C133 (refuted): a quotient of floats that is used further keeps the digits of a `double`. `a / b * c` of floats 1, 3, 5: the source's `x = a / b * c` is 1.6666667, the translation's 1.6666666. `(double)(a / b)` is
0.3333333333333333 instead of 0.3333333432674408. -/
theorem C133_unrounded_refuted :
    (.bin .mul (.bin .div fa fb) fc : X).eval sample = 0x3FD55556 ∧ cppStore sample .f4 (.bin .mul (.bin .div fa fb) fc) = 0x3FD55555 ∧
    (.conv .f8 (.bin .div fa fb) : X).eval sample = 0x3FD5555560000000 ∧ cppStore sample .f8 (.conv .f8 (.bin .div fa fb)) = 0x3FD5555555555555 := by decide +kernel

/-- C133 (refuted): a comparison and a truncation of such a quotient. `x = 50331644f`, `y = 16777215f`: the source's `x / y` is `3f`, so `x / y == 3f` holds and `(long)(x / y)` is 3; the translated comparison is false and the
translated number 2. -/
theorem C133_compare_refuted :
    let env : Env := ⟨fun k => if k = 0 then 0x4C3FFFFF else 0x4B7FFFFF, fun _ => 0, fun _ => 0⟩
    number sgl (env.f4 0) = 50331644 ∧ number sgl (env.f4 1) = 16777215 ∧
    ilComp env .eq (.bin .div fa fb) (.whole 3) = true ∧ cppComp env .eq (.bin .div fa fb) (.whole 3) = false ∧
    ilToI64 env (.bin .div fa fb) = .ok 3 ∧ cppToI64 env (.bin .div fa fb) = .ok 2 := by decide +kernel

/-- C133 (refuted): a negative number divided by zero is `-∞` in the source, `+∞` in the translation (C75). -/
theorem C133_negative_by_zero_refuted : (.bin .div (.var .f8 0) (.var .f8 1) : X).eval sample = negInf dbl ∧ cppStore sample .f8 (.bin .div (.var .f8 0) (.var .f8 1)) = posInf dbl := by decide +kernel

end Verif.FloatExpr
