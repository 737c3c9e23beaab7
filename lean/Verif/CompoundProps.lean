import Verif.CompoundModel
import Verif.SemProps
/-!
# C105: compound assignments and increments change the variable as the source does
-/
namespace Verif.Sem
open Verif.IntVal (Ty)

/-! ### Specification -/

/-- C++ division of operands already converted to `c`: division by zero and an unrepresentable quotient are undefined. -/
def quotOp (c : CT) (a b : Int) : Res Int :=
  if b = 0 then .ub else if c.signed ∧ a = c.lo ∧ b = -1 then .ub else .ok (a.tdiv b)

/-- The new contents of the variable after `x op= e` in C++: those of `x = x op e` ([expr.ass]). -/
def cppOpAssign (env : Nat → Int) (ty : Ty) (k : Nat) (o : COp) (e : CX) : Res Int :=
  (match o with
   | .bin (.arith a) => (CX.arith a (.var ty k) e).eval env
   | .bin .div => both ((CX.var ty k).eval env) (e.eval env) fun a b =>
       quotOp (common (promote ty) e.ty) ((common (promote ty) e.ty).conv a) ((common (promote ty) e.ty).conv b)
   | .sh s => (CX.shift s (.var ty k) e).eval env) >>= fun v => .ok (ty.wrap v)

/-- The new contents of the variable after a compound assignment form: `x++` is `x += 1` ([expr.post.incr]). -/
def cppAfter (env : Nat → Int) (ty : Ty) (k : Nat) : Form → Res Int
  | .inc => cppOpAssign env ty k (.bin (.arith .add)) (.lit 1)
  | .dec => cppOpAssign env ty k (.bin (.arith .sub)) (.lit 1)
  | .opAssign o e => cppOpAssign env ty k o e

/-- The value of a compound assignment form used as an expression: the old contents for `x++`, the new ones otherwise. -/
def cppValue (env : Nat → Int) (ty : Ty) (k : Nat) (f : Form) : Res Int :=
  cppAfter env ty k f >>= fun v => .ok (match f with | .opAssign _ _ => v | _ => ty.wrap (env k))

/-- The new contents of a variable after a store form: `++x` is `x += 1`. -/
def cppStAfter (env : Nat → Int) (ty : Ty) (k : Nat) : StForm → Res Int
  | .preInc => cppOpAssign env ty k (.bin (.arith .add)) (.lit 1)
  | .preDec => cppOpAssign env ty k (.bin (.arith .sub)) (.lit 1)
  | .assign e => e.eval env >>= fun v => .ok (ty.wrap v)

/-- The operation of a compound assignment on the stack. -/
def applyOp (o : COp) (un chk : Bool) (l r : X) : X :=
  match o with
  | .bin b => .bin b un chk l r
  | .sh s => .shift s un l r

/-- `x op= v` in C#: the result of the operation is converted to the type of the variable, with a check in a checked context. -/
def ilCompound (env : Nat → Int) (ty : Ty) (k : Nat) (o : COp) (un chk : Bool) (v : X) : Res Int :=
  ilStore env ty (.conv ty chk un (applyOp o un chk (.var ty k) v))

/-! ### Constants -/

/-- A chain of conversions of a constant 1 has the value 1. -/
theorem asInt_one (env : Nat → Int) (v : X) (h : asInt v = .ok 1) : v.eval env = .ok 1 := by
  induction v with
  | i4 n =>
    simp only [asInt, Res.ok.injEq] at h; subst h
    simp [X.eval, wrapI32]
  | conv ty chk un e ih =>
    have h' : asInt e = .ok 1 := h
    rw [X.eval, ih h', Res.bind_ok]
    cases hw : e.width <;> cases ty <;> cases chk <;> cases un <;> decide +kernel
  | _ => simp [asInt] at h

theorem ilCompound_eq (env : Nat → Int) (ty : Ty) (k : Nat) (o : COp) (un chk : Bool) (v : X)
    (hov : ilCompound env ty k o un chk v ≠ .throw .overflow) :
    ilCompound env ty k o un chk v = ilStore env ty (applyOp o un chk (.var ty k) v) := by
  have hw : (applyOp o un chk (.var ty k) v).width = tyW ty := by cases o <;> rfl
  unfold ilCompound ilStore at *
  rw [X.eval] at *
  cases he : (applyOp o un chk (.var ty k) v).eval env with
  | ub => rfl
  | throw x => rfl
  | ok a =>
    rw [he] at hov
    rw [Res.bind_ok] at *
    rw [hw] at *
    unfold ilConv at *
    have hc1 : ∀ x y : Int, x % (tyW ty).mod = y % (tyW ty).mod → ty.wrap x = ty.wrap y := fun x y h =>
      wrap_congr (by intro ⟨h1, h2⟩; rw [h1] at h2; cases h2) h
    by_cases hc : chk = true
    · rw [if_pos hc] at *
      by_cases hr : ty.min ≤ (tyW ty).rd un a ∧ (tyW ty).rd un a ≤ ty.max
      · rw [if_pos hr, Res.bind_ok, Res.bind_ok]
        congr 1
        apply hc1
        rw [wrapS_mod, rd_mod]
      · rw [if_neg hr] at hov; exact absurd (Res.bind_throw _ _) hov
    · rw [if_neg hc, Res.bind_ok, Res.bind_ok]
      congr 1
      have h1 : ty.wrap ((tyW ty).wrapS (ty.wrap (if ty = .uint64 then (tyW ty).wrapU a else a))) =
          ty.wrap (ty.wrap (if ty = .uint64 then (tyW ty).wrapU a else a)) := hc1 _ _ (wrapS_mod _ _)
      rw [h1, wrap_of_range (wrap_range ty _)]
      split
      · apply hc1; exact wrapU_mod _ _
      · rfl

/-- The operand types C++ sees agree with the sign flag: as in C94, with the native `/` in place of the library's division. -/
def AgreeC (o : COp) (un chk : Bool) (ty : Ty) (k : Nat) (v : X) : Prop :=
  match o with
  | .bin .div => Agree (.bin (.arith .rem) un chk (.var ty k) v)
  | o => Agree (applyOp o un chk (.var ty k) v)

/-- A constant 1 as wide as the variable. -/
def oneOf (ty : Ty) : X := match tyW ty with | .w32 => .i4 1 | .w64 => .i8 1

theorem oneOf_tr (ty : Ty) : trK (oneOf ty) none = .lit 1 := by cases ty <;> rfl
theorem oneOf_eval (env : Nat → Int) (ty : Ty) : (oneOf ty).eval env = .ok 1 := by cases ty <;> (simp [oneOf, tyW, X.eval, wrapI32, wrapI64])

theorem oneOf_agree (ty : Ty) (k : Nat) (un chk : Bool) (o : AOp) (ho : o = .add ∨ o = .sub) :
    Agree (.bin (.arith o) un chk (.var ty k) (oneOf ty)) := by
  rcases ho with rfl | rfl <;> cases ty <;>
    simp [oneOf, tyW, Agree, I32, I64, X.width, cty, tr, constX, CX.ty, promote, common, CT.bits, W.bits]

/-- The increments: `x + 1` in the variable's type. -/
theorem one_after (env : Nat → Int) (ty : Ty) (k : Nat) (o : AOp) (ho : o = .add ∨ o = .sub) (un chk : Bool) (v : X) (hv : v.eval env = .ok 1)
    (hub : cppOpAssign env ty k (.bin (.arith o)) (.lit 1) ≠ .ub)
    (hov : ilStore env ty (.bin (.arith o) un chk (.var ty k) v) ≠ .throw .overflow) :
    cppOpAssign env ty k (.bin (.arith o)) (.lit 1) = ilStore env ty (.bin (.arith o) un chk (.var ty k) v) := by
  have e1 : ilStore env ty (.bin (.arith o) un chk (.var ty k) v) = ilStore env ty (.bin (.arith o) un chk (.var ty k) (oneOf ty)) := by
    unfold ilStore; simp only [X.eval, hv, oneOf_eval]
  have e2 : cppOpAssign env ty k (.bin (.arith o)) (.lit 1) = cppStore env ty (.bin (.arith o) un chk (.var ty k) (oneOf ty)) := by
    unfold cppOpAssign cppStore
    rw [trK, oneOf_tr]; rfl
  rw [e1] at hov ⊢
  rw [e2] at hub ⊢
  exact C94_value_partial env ty _ (oneOf_agree ty k un chk o ho)
    (by intro ⟨h1, h2⟩; have h1' : tyW ty = .w32 := h1; rw [h1'] at h2; cases h2) hub hov

theorem bin_after (env : Nat → Int) (ty : Ty) (k : Nat) (o : COp) (hd : o ≠ .bin .div) (un chk : Bool) (v : X)
    (h : AgreeC o un chk ty k v) (hub : cppOpAssign env ty k o (trK v none) ≠ .ub)
    (hov : ilStore env ty (applyOp o un chk (.var ty k) v) ≠ .throw .overflow) :
    cppOpAssign env ty k o (trK v none) = ilStore env ty (applyOp o un chk (.var ty k) v) := by
  have ha : Agree (applyOp o un chk (.var ty k) v) := by
    cases o with
    | sh s => exact h
    | bin b => cases b with
      | div => exact absurd rfl hd
      | arith a => exact h
  have e2 : cppOpAssign env ty k o (trK v none) = cppStore env ty (applyOp o un chk (.var ty k) v) := by
    unfold cppOpAssign cppStore
    cases o with
    | sh s => rw [applyOp, trK]; rfl
    | bin b => cases b with
      | div => exact absurd rfl hd
      | arith a => rw [applyOp, trK]; rfl
  rw [e2] at hub ⊢
  refine C94_value_partial env ty _ ha ?_ hub hov
  intro ⟨h1, h2⟩
  have h1' : tyW ty = .w32 := by cases o <;> exact h1
  rw [h1'] at h2; cases h2

theorem quot_rel {w : W} {c : CT} (hb : c.bits = w.bits) {un chk : Bool} (hu : c.signed = !un) {a b v : Int}
    (hc : quotOp c (c.conv a) (c.conv b) = .ok v) (hi : ilBin w .div un chk (w.wrapS a) (w.wrapS b) ≠ .throw .overflow) :
    ilBin w .div un chk (w.wrapS a) (w.wrapS b) = .ok (w.wrapS v) := by
  have hs : (!c.signed) = un := by rw [hu, Bool.not_not]
  have ea : w.rd un (w.wrapS a) = c.conv a := by rw [rd_wrapS, conv_eq hb, hs]
  have eb : w.rd un (w.wrapS b) = c.conv b := by rw [rd_wrapS, conv_eq hb, hs]
  unfold quotOp at hc
  unfold ilBin at *; simp only [] at *
  by_cases h0 : c.conv b = 0
  · rw [if_pos h0] at hc; simp at hc
  rw [if_neg h0] at hc
  have h0' : w.wrapS b ≠ 0 := by
    intro h; rw [h] at eb
    apply h0; rw [← eb]
    cases un <;> cases w <;> decide
  rw [if_neg h0'] at hi ⊢
  by_cases h1 : c.signed = true ∧ c.conv a = c.lo ∧ c.conv b = -1
  · rw [if_pos h1] at hc; simp at hc
  rw [if_neg h1, Res.ok.injEq] at hc
  by_cases h2 : un = false ∧ w.wrapS a = w.lo ∧ w.wrapS b = -1
  · rw [if_pos h2] at hi; exact absurd rfl hi
  rw [if_neg h2, ea, eb, hc]

theorem div_after (env : Nat → Int) (ty : Ty) (k : Nat) (un chk : Bool) (v : X) (h : AgreeC (.bin .div) un chk ty k v)
    (hub : cppOpAssign env ty k (.bin .div) (trK v none) ≠ .ub) (hov : ilStore env ty (.bin .div un chk (.var ty k) v) ≠ .throw .overflow) :
    cppOpAssign env ty k (.bin .div) (trK v none) = ilStore env ty (.bin .div un chk (.var ty k) v) := by
  obtain ⟨_, hv, hw, hb, hs⟩ := h
  have hw' : tyW ty = v.width := hw
  have e1 : trK v none = tr v := trK_eq v hv none (fun _ => rfl)
  rw [e1] at hub ⊢
  unfold cppOpAssign ilStore at *
  simp only [] at hub ⊢
  have hn : v.eval env ≠ .throw .overflow := by
    intro hh; rw [X.eval, X.eval, Res.bind_ok, hh, Res.bind_throw] at hov; exact hov (Res.bind_throw _ _)
  have R := agree_rel env v hv hn
  rw [X.eval, X.eval] at hov ⊢
  rw [Res.bind_ok] at hov ⊢
  rw [CX.eval] at hub ⊢
  cases hq : (tr v).eval env with
  | ub => rw [hq] at hub; exact absurd rfl hub
  | throw x =>
    rw [hq] at R; have R' : v.eval env = .throw x := R
    rw [R']; rfl
  | ok b =>
    rw [hq] at R hub
    rw [R.1] at hov ⊢
    unfold both at hub ⊢
    simp only [] at hub ⊢
    rw [Res.bind_ok] at hov ⊢
    cases hc : quotOp (common (promote ty) (tr v).ty) ((common (promote ty) (tr v).ty).conv (ty.wrap (env k))) ((common (promote ty) (tr v).ty).conv b) with
    | ub => rw [hc] at hub; exact absurd rfl hub
    | throw x => unfold quotOp at hc; split at hc; · cases hc
                 split at hc <;> cases hc
    | ok q =>
      have hi : ilBin (tyW ty) .div un chk ((tyW ty).wrapS (ty.wrap (env k))) ((tyW ty).wrapS b) ≠ .throw .overflow := by
        intro hh; rw [← hw'] at hov
        have : (X.var ty k).width = tyW ty := rfl
        rw [this, hh] at hov; exact hov (Res.bind_throw _ _)
      have d := quot_rel (w := tyW ty) (c := common (promote ty) (tr v).ty) hb hs hc hi
      have : (X.var ty k).width = tyW ty := rfl
      rw [← hw', this, d, Res.bind_ok, Res.bind_ok]
      congr 1
      exact wrap_congr (by intro ⟨h1, h2⟩; rw [h1] at h2; cases h2) (wrapS_mod _ _).symm

/-- C105 (partial): when the translator writes a form for `x op= v` on an integer variable, the C++ statement leaves in the variable the value the source
leaves, or raises the same exception, for every operator, operand type and contents of the variables.  Missing: the operand types outside `AgreeC`, and the
executions with undefined behaviour or OverflowException (refuted below and by C94). -/
theorem C105_after_partial (env : Nat → Int) (ty : Ty) (k : Nat) (o : COp) (un chk : Bool) (v : X) (f : Form) (hf : compound o v = .ok f)
    (h : AgreeC o un chk ty k v) (hub : cppAfter env ty k f ≠ .ub) (hov : ilCompound env ty k o un chk v ≠ .throw .overflow) :
    cppAfter env ty k f = ilCompound env ty k o un chk v := by
  have eq := ilCompound_eq env ty k o un chk v hov
  rw [eq] at hov ⊢
  have op : f = .opAssign o (trK v none) → cppAfter env ty k f = ilStore env ty (applyOp o un chk (.var ty k) v) := by
    intro hfe; subst hfe
    by_cases hd : o = .bin .div
    · subst hd; exact div_after env ty k un chk v h hub hov
    · exact bin_after env ty k o hd un chk v h hub hov
  unfold compound at hf
  split at hf
  · split at hf
    · cases ha : asInt v with
      | ub => rw [ha] at hf; cases hf
      | throw x => rw [ha] at hf; cases hf
      | ok c =>
        rw [ha, Res.bind_ok, Res.ok.injEq] at hf
        by_cases h1 : c = 1
        · rw [if_pos h1] at hf; subst hf; subst h1
          exact one_after env ty k .add (.inl rfl) un chk v (asInt_one env v ha) hub hov
        · rw [if_neg h1] at hf; exact op hf.symm
    · rw [Res.ok.injEq] at hf; exact op hf.symm
  · split at hf
    · cases ha : asInt v with
      | ub => rw [ha] at hf; cases hf
      | throw x => rw [ha] at hf; cases hf
      | ok c =>
        rw [ha, Res.bind_ok, Res.ok.injEq] at hf
        by_cases h1 : c = 1
        · rw [if_pos h1] at hf; subst hf; subst h1
          exact one_after env ty k .sub (.inr rfl) un chk v (asInt_one env v ha) hub hov
        · rw [if_neg h1] at hf; exact op hf.symm
    · rw [Res.ok.injEq] at hf; exact op hf.symm
  · rw [Res.ok.injEq] at hf; exact op hf.symm

/-- `short s; s -= (short)(a * 2)`, `u /= 7u`, and `l += (long)1`. -/
example : cppAfter (fun k => [100, 30].getD k 0) .int16 0 (.opAssign (.bin (.arith .sub)) (.cast .int16 (.arith .mul (.var .int32 1) (.lit 2)))) = .ok 40 := by
  rw [C105_after_partial _ _ _ (.bin (.arith .sub)) false false (.conv .int16 false false (.bin (.arith .mul) false false (.var .int32 1) (.i4 2)))
    (.opAssign (.bin (.arith .sub)) (.cast .int16 (.arith .mul (.var .int32 1) (.lit 2)))) rfl
    (by simp [AgreeC, applyOp, Agree, cty, tr, constX, CX.ty, common, promote, CT.bits, X.width, tyW, W.bits, I32])
    (by decide +kernel) (by decide +kernel)]
  decide +kernel
example : cppAfter (fun k => [4000000000].getD k 0) .uint32 0 (.opAssign (.bin .div) (.cast .uint32 (.lit 7))) =
    ilCompound (fun k => [4000000000].getD k 0) .uint32 0 (.bin .div) true false (.conv .uint32 false false (.i4 7)) ∧
    ilCompound (fun k => [4000000000].getD k 0) .uint32 0 (.bin .div) true false (.conv .uint32 false false (.i4 7)) = .ok 571428571 := by
  refine ⟨C105_after_partial _ _ _ _ _ _ _ _ rfl
    (by simp [AgreeC, Agree, cty, tr, constX, CX.ty, common, promote, CT.bits, CT.signed, X.width, tyW, W.bits, I32]) (by decide +kernel) (by decide +kernel), ?_⟩
  decide +kernel
example : ilCompound (fun k => [41].getD k 0) .int64 0 (.bin (.arith .add)) false true (.conv .int64 false false (.i4 1)) = .ok 42 := by
  rw [← C105_after_partial _ _ _ (.bin (.arith .add)) false true (.conv .int64 false false (.i4 1)) .inc rfl
    (by simp [AgreeC, applyOp, Agree, cty, tr, constX, CX.ty, common, promote, CT.bits, CT.signed, X.width, tyW, W.bits, I32, sx])
    (by decide +kernel) (by decide +kernel)]
  decide +kernel

/-- C105 (partial): a form other than an increment has the new contents as its value, as in C#; an increment has the old contents, which is what C# gives for
`x++` and `x--`.  Missing: `++x` and `--x` used for their value (refuted below). -/
theorem C105_value_partial (env : Nat → Int) (ty : Ty) (k : Nat) (o : COp) (un chk : Bool) (v : X) (f : Form) (hf : compound o v = .ok f)
    (h : AgreeC o un chk ty k v) (hub : cppAfter env ty k f ≠ .ub) (hov : ilCompound env ty k o un chk v ≠ .throw .overflow) :
    (f ≠ .inc → f ≠ .dec → cppValue env ty k f = ilCompound env ty k o un chk v) ∧
    (f = .inc ∨ f = .dec → cppValue env ty k f = ilCompound env ty k o un chk v >>= fun _ => .ok (ty.wrap (env k))) := by
  unfold cppValue
  rw [C105_after_partial env ty k o un chk v f hf h hub hov]
  cases f with
  | opAssign o' e => exact ⟨fun _ _ => by cases ilCompound env ty k o un chk v <;> rfl, fun h => by rcases h with h | h <;> cases h⟩
  | inc => exact ⟨fun h => absurd rfl h, fun _ => rfl⟩
  | dec => exact ⟨fun _ h => absurd rfl h, fun _ => rfl⟩

example : cppValue (fun k => [41].getD k 0) .int32 0 (.opAssign (.bin (.arith .mul)) (.lit 3)) = .ok 123 := by
  rw [(C105_value_partial _ _ _ (.bin (.arith .mul)) false false (.i4 3) (.opAssign (.bin (.arith .mul)) (.lit 3)) rfl
    (by simp [AgreeC, applyOp, Agree, cty, tr, constX, CX.ty, common, promote, CT.bits, X.width, tyW, W.bits, I32])
    (by decide +kernel) (by decide +kernel)).1 (by intro h; cases h) (by intro h; cases h)]
  decide +kernel

/-- C105 fails for a prefix increment used for its value: `y = ++x` is written `y = x++`, so `y` gets the old contents. -/
theorem C105_value_refuted (env : Nat → Int) (ty : Ty) (k : Nat) (un : Bool) (h : ty.wrap (env k) < ty.max) :
    compound (.bin (.arith .add)) (.i4 1) = .ok .inc ∧ cppValue env ty k .inc = .ok (ty.wrap (env k)) ∧
    ilCompound env ty k (.bin (.arith .add)) un false (.i4 1) = .ok (ty.wrap (env k) + 1) := by
  have hr := wrap_range ty (env k)
  have hil : ilCompound env ty k (.bin (.arith .add)) un false (.i4 1) = .ok (ty.wrap (env k) + 1) := by
    have hd : ∀ (w : W) (x : Int), w.deliver un false x = .ok (w.wrapS x) := by intro w x; simp [W.deliver]
    have e1 : wrapI32 1 = 1 := by decide
    unfold ilCompound ilStore applyOp
    simp only [X.eval, Res.bind_ok, X.width, ilBin, hd, ilConv, e1, if_false, Bool.false_eq_true]
    congr 1
    generalize ty.wrap (env k) = x at *
    cases ty <;> cases un <;>
      simp only [tyW, W.rd, W.wrapS, W.wrapU, Ty.wrap, Ty.min, Ty.max, wrapI8, wrapU8, wrapI16, wrapU16, wrapI32, wrapU32, wrapI64, wrapU64, if_true, if_false,
        Bool.false_eq_true, reduceCtorEq] at * <;> omega
  refine ⟨rfl, ?_, hil⟩
  have hc : cppAfter env ty k .inc = .ok (ty.wrap (env k) + 1) := by
    unfold cppAfter cppOpAssign
    have e1 : CX.ty (.lit 1) = .i32 := by decide
    have e2 : CX.ty (.var ty k) = promote ty := rfl
    have hf : Fits (promote ty) (ty.wrap (env k) + 1) := by
      unfold Fits
      generalize ty.wrap (env k) = x at *
      cases ty <;> simp only [promote, CT.lo, CT.hi, Ty.min, Ty.max] at * <;> omega
    have hc0 : common (promote ty) .i32 = promote ty := by cases ty <;> rfl
    have hd : deliver (promote ty) (ty.wrap (env k) + 1) = .ok (ty.wrap (env k) + 1) := by
      unfold deliver
      by_cases hs : (promote ty).signed = true
      · rw [if_pos hs]; exact if_pos hf
      · rw [if_neg hs, conv_of_fits hf]
    have h1 : (promote ty).conv 1 = 1 := by cases ty <;> decide
    simp only [CX.eval, both, arithOp, e1, e2, hc0, conv_of_fits (wrap_fits ty _), h1, hd]
    rw [Res.bind_ok, wrap_of_range ⟨by omega, by omega⟩]
  unfold cppValue
  rw [hc]; rfl

example : Ty.wrap .byte 254 < Ty.max .byte := by decide

/-- C105 fails for 64-bit constants: the translator itself raises InvalidCastException on `x += c` and `x -= c` for every one. -/
theorem C105_long_constant_refuted (n : Int) :
    compound (.bin (.arith .add)) (.i8 n) = .throw .invalidCast ∧ compound (.bin (.arith .sub)) (.i8 n) = .throw .invalidCast := ⟨rfl, rfl⟩

/-- No other value makes the translator fail. -/
theorem C105_total_partial (o : COp) (v : X) (h : asInt v ≠ .throw .invalidCast) : ∃ f, compound o v = .ok f := by
  have ha : ∃ c, asInt v = .ok c := by
    clear o
    induction v with
    | i4 n => exact ⟨n, rfl⟩
    | i8 n => exact absurd rfl h
    | conv ty chk un e ih => exact ih h
    | _ => exact ⟨-1, rfl⟩
  obtain ⟨c, hc⟩ := ha
  unfold compound
  split
  · split
    · rw [hc]; exact ⟨_, rfl⟩
    · exact ⟨_, rfl⟩
  · split
    · rw [hc]; exact ⟨_, rfl⟩
    · exact ⟨_, rfl⟩
  · exact ⟨_, rfl⟩
example : asInt (.conv .int64 false false (.i4 5)) ≠ .throw .invalidCast := by decide

/-- C105 fails for `x /= y` with `y = 0`: the source raises DivideByZeroException, the C++ is undefined (unlike `x / y`, which the library checks). -/
theorem C105_division_refuted (env : Nat → Int) (h : wrapI32 (env 1) = 0) :
    compound (.bin .div) (.var .int32 1) = .ok (.opAssign (.bin .div) (.var .int32 1)) ∧
    cppAfter env .int32 0 (.opAssign (.bin .div) (.var .int32 1)) = .ub ∧
    ilCompound env .int32 0 (.bin .div) false false (.var .int32 1) = .throw .divideByZero := by
  refine ⟨rfl, ?_, ?_⟩
  · unfold cppAfter cppOpAssign
    simp only [CX.eval, Ty.wrap, both, h]
    rfl
  · unfold ilCompound ilStore applyOp
    simp only [X.eval, Ty.wrap, X.width, tyW, W.wrapS, h, Res.bind_ok]
    rfl
example : wrapI32 0 = 0 := by decide

/-- C105 (partial): among the floating constants with an integer value exactly 1 is written as an increment. -/
theorem C105_float_partial (add : Bool) (c : Int) (den : Nat) (h : 0 < den) :
    (compoundFloat add (c * den) den ≠ .opAssign ↔ c = 1) ∧ (compoundFloat add (c * den) den = .inc ↔ c = 1 ∧ add = true) := by
  unfold compoundFloat
  rw [Int.mul_tdiv_cancel _ (by omega)]
  by_cases hc : c = 1 <;> cases add <;> simp [hc]
example : compoundFloat false (1 * 8 : Nat) 8 = .dec := by decide

/-- C105 fails for every floating constant properly between 1 and 2: `x += 1.5` is written `x++`, which adds 1. -/
theorem C105_float_refuted (num : Int) (den : Nat) (h1 : (den : Int) < num) (h2 : num < 2 * den) :
    compoundFloat true num den = .inc ∧ compoundFloat false num den = .dec := by
  have : num.tdiv den = 1 := by
    rw [Int.tdiv_eq_ediv_of_nonneg (by omega)]
    have hd : (0 : Int) < den := by omega
    apply Int.le_antisymm
    · exact Int.lt_add_one_iff.mp ((Int.ediv_lt_iff_lt_mul hd).mpr (by omega))
    · exact (Int.le_ediv_iff_mul_le hd).mpr (by omega)
  unfold compoundFloat
  rw [if_pos this, if_pos this]; exact ⟨rfl, rfl⟩
example : ((2 : Nat) : Int) < 3 ∧ (3 : Int) < 2 * (2 : Nat) := by decide

theorem stloc_cases (k : Nat) (e : X) : stloc k e = .assign (trK e none) ∨
    (∃ un chk ty', e = .bin (.arith .add) un chk (.var ty' k) (.i4 1) ∧ stloc k e = .preInc) ∨
    (∃ un chk ty', e = .bin (.arith .sub) un chk (.var ty' k) (.i4 1) ∧ stloc k e = .preDec) := by
  unfold stloc
  split
  · rename_i o un chk ty' j n
    by_cases hc : (o = .arith .add ∨ o = .arith .sub) ∧ k = j ∧ n = 1
    · rw [if_pos hc]
      obtain ⟨ho, rfl, rfl⟩ := hc
      rcases ho with rfl | rfl
      · exact .inr (.inl ⟨un, chk, ty', rfl, if_pos rfl⟩)
      · exact .inr (.inr ⟨un, chk, ty', rfl, if_neg (by decide)⟩)
    · exact .inl (if_neg hc)
  · exact .inl rfl

/-- C105 (partial): a store to a local variable, `++x`, `--x` or `x = e`, leaves in the variable the value the source leaves, or raises the same exception.
Missing as in C94. -/
theorem C105_store_partial (env : Nat → Int) (ty : Ty) (k : Nat) (e : X) (h : Agree e) (hk : ∀ o un chk j ty' n, e = .bin o un chk (.var ty' j) n → j = k → ty' = ty)
    (hty : ¬ (e.width = .w32 ∧ tyW ty = .w64))
    (hub : cppStAfter env ty k (stloc k e) ≠ .ub) (hov : ilStore env ty e ≠ .throw .overflow) :
    cppStAfter env ty k (stloc k e) = ilStore env ty e := by
  have hv : (X.i4 1).eval env = .ok 1 := by simp [X.eval, wrapI32]
  rcases stloc_cases k e with hs | ⟨un, chk, ty', rfl, hs⟩ | ⟨un, chk, ty', rfl, hs⟩
  · rw [hs] at hub ⊢
    exact C94_value_partial env ty e h hty hub hov
  · rw [hs] at hub ⊢
    obtain rfl := hk _ un chk k ty' _ rfl rfl
    exact one_after env ty' k .add (.inl rfl) un chk _ hv hub hov
  · rw [hs] at hub ⊢
    obtain rfl := hk _ un chk k ty' _ rfl rfl
    exact one_after env ty' k .sub (.inr rfl) un chk _ hv hub hov

example : cppStAfter (fun k => [41].getD k 0) .int32 0 (stloc 0 (.bin (.arith .add) false false (.var .int32 0) (.i4 1))) = .ok 42 := by
  rw [C105_store_partial _ _ _ _ (by simp [Agree, cty, tr, constX, CX.ty, common, promote, CT.bits, X.width, tyW, W.bits, I32])
    (by intro o un chk j ty' n h _; cases h; rfl) (by decide) (by decide +kernel) (by decide +kernel)]
  decide +kernel
example : stloc 0 (.bin (.arith .add) false false (.var .int32 0) (.i4 1)) = .preInc ∧
    stloc 1 (.bin (.arith .add) false false (.var .int32 0) (.i4 1)) = .assign (.arith .add (.var .int32 0) (.lit 1)) := ⟨rfl, rfl⟩

end Verif.Sem
