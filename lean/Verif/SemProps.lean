import Verif.SemModel
/-!
# C94: a translated integer expression has the value of the source expression
-/
namespace Verif.Sem
open Verif.IntVal (Ty)

/-- The C++ tree with the structure of the expression. -/
def tr : X → CX
  | .var ty k => .var ty k
  | .i4 n => constX n
  | .i8 n => constX n
  | .bin (.arith o) _ _ l r => .arith o (tr l) (tr r)
  | .bin .div _ _ l r => .divide (tr l) (tr r)
  | .shift o _ l r => .shift o (tr l) (tr r)
  | .comp o _ l r => .rel o (tr l) (tr r)
  | .bitNot e => .compl (tr e)
  | .conv ty _ _ e => .cast ty (tr e)
  | .ite c t f => .tern (tr c) (tr t) (tr f)

/-- The expression is a conditional. -/
def isIte : X → Bool
  | .ite _ _ _ => true
  | _ => false

/-- The C++ type of the translated expression. -/
def cty (e : X) : CT := (tr e).ty

/-- The C++ value is the signed reading of the stack value: the C++ type is signed and no wider than the stack value, or the expression is
a signed division (whose C++ type is Int64 but whose value is in range). -/
def sx : X → Bool
  | .bin .div false _ _ _ => true
  | .i4 _ | .i8 _ => true
  | e => (cty e).signed && (cty e).bits ≤ e.width.bits

/-- The C++ value is the unsigned reading of the stack value. -/
def ux : X → Bool
  | .bin .div true _ l _ => l.width = .w32
  | .i4 n => 0 ≤ n
  | .i8 n => 0 ≤ n
  | .var .byte _ | .var .uint16 _ => true
  | .conv .byte _ _ _ | .conv .uint16 _ _ _ => true
  | e => !(cty e).signed && (cty e).bits = e.width.bits

/-- The expressions on which C++'s typing rules agree with the sign flags of the IL. -/
def Agree : X → Prop
  | .var _ _ => True
  | .i4 n => I32 n
  | .i8 n => I64 n
  | .bin (.arith .rem) un _ l r => Agree l ∧ Agree r ∧ l.width = r.width ∧ (common (cty l) (cty r)).bits = l.width.bits ∧
      (common (cty l) (cty r)).signed = !un
  | .bin (.arith _) _ _ l r => Agree l ∧ Agree r ∧ l.width = r.width ∧ l.width.bits ≤ (common (cty l) (cty r)).bits
  | .bin .div un _ l r => Agree l ∧ Agree r ∧ l.width = r.width ∧
      (if un then l.width = .w32 ∧ ux l ∧ ux r else sx l ∧ sx r)
  | .shift o un l r => Agree l ∧ Agree r ∧ (cty l).bits = l.width.bits ∧ (sx r ∨ ux r) ∧ r.width = .w32 ∧
      (o = .shr → (cty l).signed = !un)
  | .comp o un l r => Agree l ∧ Agree r ∧ l.width = r.width ∧
      (((common (cty l) (cty r)).bits = l.width.bits ∧ (o = .eq ∨ o = .ne ∨ (common (cty l) (cty r)).signed = !un)) ∨
       (common (cty l) (cty r) = .i64 ∧ sx l ∧ sx r ∧ un = false))
  | .bitNot e => Agree e ∧ e.width.bits ≤ (cty e).bits
  | .conv ty chk un e => Agree e ∧
      (e.width = .w32 → tyW ty = .w64 → if (if chk then un else ty = .uint64) then ux e else sx e)
  | .ite c t f => isIte c = false ∧ Agree c ∧ Agree t ∧ Agree f ∧ t.width = f.width ∧ (sx c ∨ ux c) ∧ t.width.bits ≤ (common (cty t) (cty f)).bits

/-! ### Machine arithmetic -/

def W.mod : W → Int | .w32 => 4294967296 | .w64 => 18446744073709551616

theorem wrapS_congr {w : W} {x y : Int} (h : x % w.mod = y % w.mod) : w.wrapS x = w.wrapS y := by
  cases w <;> simp only [W.mod, W.wrapS, wrapI32, wrapI64] at * <;> omega

theorem wrapS_mod (w : W) (x : Int) : w.wrapS x % w.mod = x % w.mod := by
  cases w <;> simp only [W.mod, W.wrapS, wrapI32, wrapI64] at * <;> omega

theorem wrapU_mod (w : W) (x : Int) : w.wrapU x % w.mod = x % w.mod := by
  cases w <;> simp only [W.mod, W.wrapU, wrapU32, wrapU64] at * <;> omega

theorem rd_mod (w : W) (un : Bool) (x : Int) : w.rd un x % w.mod = x % w.mod := by
  cases un
  · exact wrapS_mod w x
  · exact wrapU_mod w x

theorem conv_mod {w : W} {c : CT} (h : w.bits ≤ c.bits) (x : Int) : c.conv x % w.mod = x % w.mod := by
  cases w <;> cases c <;> simp only [W.mod, CT.conv, W.bits, CT.bits, wrapI32, wrapI64, wrapU32, wrapU64] at * <;> omega

theorem conv_eq {w : W} {c : CT} (h : c.bits = w.bits) (x : Int) : c.conv x = w.rd (!c.signed) x := by
  cases w <;> cases c <;> simp [CT.conv, W.bits, CT.bits, W.rd, CT.signed, W.wrapS, W.wrapU] at *

theorem rd_wrapS (w : W) (un : Bool) (x : Int) : w.rd un (w.wrapS x) = w.rd un x := by
  cases w <;> cases un <;> simp only [W.rd, W.wrapS, W.wrapU, wrapI32, wrapI64, wrapU32, wrapU64, if_true, Bool.false_eq_true, if_false] <;> omega

/-- The value fits the C++ type. -/
def Fits (c : CT) (v : Int) : Prop := c.lo ≤ v ∧ v ≤ c.hi

theorem conv_fits (c : CT) (x : Int) : Fits c (c.conv x) := by
  cases c <;> simp only [Fits, CT.conv, CT.lo, CT.hi, wrapI32, wrapI64, wrapU32, wrapU64] <;> omega

theorem conv_of_fits {c : CT} {x : Int} (h : Fits c x) : c.conv x = x := by
  cases c <;> simp only [Fits, CT.conv, CT.lo, CT.hi, wrapI32, wrapI64, wrapU32, wrapU64] at * <;> omega

theorem wrapS_of_fits {w : W} {c : CT} {x : Int} (h : Fits c x) (hs : c.signed = true) (hb : c.bits ≤ w.bits) : w.wrapS x = x := by
  cases w <;> cases c <;> simp [Fits, CT.lo, CT.hi, CT.bits, W.bits, CT.signed, W.wrapS, wrapI32, wrapI64] at * <;> omega

theorem wrapU_of_fits {w : W} {c : CT} {x : Int} (h : Fits c x) (hs : c.signed = false) (hb : c.bits = w.bits) : w.wrapU x = x := by
  cases w <;> cases c <;> simp [Fits, CT.lo, CT.hi, CT.bits, W.bits, CT.signed, W.wrapU, wrapU32, wrapU64] at * <;> omega

theorem rd_of_fits {w : W} {c : CT} {x : Int} (h : Fits c x) (hb : c.bits = w.bits) : w.rd (!c.signed) x = x := by
  rw [← conv_eq hb, conv_of_fits h]

theorem deliver_ok {c : CT} {x v : Int} (h : deliver c x = .ok v) : Fits c v ∧ v = c.conv x := by
  unfold deliver at h
  by_cases hs : c.signed = true
  · rw [if_pos hs] at h
    by_cases hr : c.lo ≤ x ∧ x ≤ c.hi
    · rw [if_pos hr, Res.ok.injEq] at h; subst h; exact ⟨hr, (conv_of_fits hr).symm⟩
    · rw [if_neg hr] at h; simp at h
  · rw [if_neg hs, Res.ok.injEq] at h; subst h; exact ⟨conv_fits _ _, rfl⟩

theorem deliver_not_throw {c : CT} {x : Int} {e : Exc} : deliver c x ≠ .throw e := by
  unfold deliver; split
  · split <;> simp
  · simp

theorem ilDeliver_ok {w : W} {un chk : Bool} {x : Int} (h : w.deliver un chk x ≠ .throw .overflow) : w.deliver un chk x = .ok (w.wrapS x) := by
  unfold W.deliver at *
  by_cases hc : chk = true ∧ w.rd un x ≠ x
  · rw [if_pos hc] at h; exact absurd rfl h
  · rw [if_neg hc]

/-! ### Bitwise operators -/

theorem ofInt_congr {n : Nat} {x y : Int} (h : x % (2 ^ n : Nat) = y % (2 ^ n : Nat)) : BitVec.ofInt n x = BitVec.ofInt n y := by
  apply BitVec.eq_of_toNat_eq
  rw [BitVec.toNat_ofInt, BitVec.toNat_ofInt]
  exact congrArg Int.toNat h

theorem wrapI32_bmod (x : Int) : wrapI32 x = Int.bmod x 4294967296 := by
  unfold wrapI32 Int.bmod; simp only []; split <;> omega
theorem wrapI64_bmod (x : Int) : wrapI64 x = Int.bmod x 18446744073709551616 := by
  unfold wrapI64 Int.bmod; simp only []; split <;> omega

theorem wrapS_ofInt (w : W) (x : Int) : w.wrapS x = (BitVec.ofInt w.bits x).toInt := by
  rw [BitVec.toInt_ofInt]
  cases w
  · show wrapI32 x = Int.bmod x (2 ^ 32)
    rw [show (2 ^ 32 : Nat) = 4294967296 from by decide +kernel, wrapI32_bmod]
  · show wrapI64 x = Int.bmod x (2 ^ 64)
    rw [show (2 ^ 64 : Nat) = 18446744073709551616 from by decide +kernel, wrapI64_bmod]

theorem ofInt_setWidth {w n : Nat} (h : w ≤ n) (x : Int) : (BitVec.ofInt n x).setWidth w = BitVec.ofInt w x := by
  apply BitVec.eq_of_toNat_eq
  rw [BitVec.toNat_setWidth, BitVec.toNat_ofInt, BitVec.toNat_ofInt]
  have hd : ((2 ^ w : Nat) : Int) ∣ ((2 ^ n : Nat) : Int) := by
    exact_mod_cast Nat.pow_dvd_pow 2 h
  have hp : (0 : Int) < ((2 ^ n : Nat) : Int) := by exact_mod_cast Nat.two_pow_pos n
  have h0 : 0 ≤ x % ((2 ^ n : Nat) : Int) := Int.emod_nonneg _ (by omega)
  have e : x % ((2 ^ w : Nat) : Int) = (x % ((2 ^ n : Nat) : Int)) % ((2 ^ w : Nat) : Int) := (Int.emod_emod_of_dvd x hd).symm
  rw [e]
  generalize x % ((2 ^ n : Nat) : Int) = y at *
  obtain ⟨k, rfl⟩ := Int.eq_ofNat_of_zero_le h0
  rw [← Int.natCast_emod]; rfl

theorem ofInt_toInt {w n : Nat} (h : w ≤ n) (b : BitVec n) : BitVec.ofInt w b.toInt = b.setWidth w := by
  rw [← ofInt_setWidth h, BitVec.ofInt_toInt]

theorem bitw_setWidth {w n : Nat} (h : w ≤ n) (o : AOp) (x y : Int) : (bitw o n x y).setWidth w = bitw o w x y := by
  cases o <;> simp only [bitw, BitVec.setWidth_and, BitVec.setWidth_or, BitVec.setWidth_xor, ofInt_setWidth h]

theorem bitw_congr {w : W} {o : AOp} {x y x' y' : Int} (hx : x % w.mod = x' % w.mod) (hy : y % w.mod = y' % w.mod) :
    bitw o w.bits x y = bitw o w.bits x' y' := by
  have e1 : BitVec.ofInt w.bits x = BitVec.ofInt w.bits x' := ofInt_congr (by cases w <;> simpa [W.bits, W.mod] using hx)
  have e2 : BitVec.ofInt w.bits y = BitVec.ofInt w.bits y' := ofInt_congr (by cases w <;> simpa [W.bits, W.mod] using hy)
  unfold bitw; rw [e1, e2]

theorem bitw_spec {w : W} {c : CT} (h : w.bits ≤ c.bits) (o : AOp) (a b : Int) :
    (bitw o w.bits (w.wrapS a) (w.wrapS b)).toInt = w.wrapS (c.conv (bitw o c.bits (c.conv a) (c.conv b)).toInt) := by
  rw [wrapS_congr (conv_mod h _), wrapS_ofInt w (bitw o c.bits _ _).toInt, ofInt_toInt h, bitw_setWidth h]
  rw [bitw_congr (wrapS_mod w a) (wrapS_mod w b), bitw_congr (conv_mod h a) (conv_mod h b)]


/-! ### The operators -/

theorem mul_congr {m a b a' b' : Int} (h1 : a % m = a' % m) (h2 : b % m = b' % m) : (a * b) % m = (a' * b') % m := by
  rw [Int.mul_emod, h1, h2, ← Int.mul_emod]
theorem add_congr {m a b a' b' : Int} (h1 : a % m = a' % m) (h2 : b % m = b' % m) : (a + b) % m = (a' + b') % m := by
  rw [Int.add_emod, h1, h2, ← Int.add_emod]
theorem sub_congr {m a b a' b' : Int} (h1 : a % m = a' % m) (h2 : b % m = b' % m) : (a - b) % m = (a' - b') % m := by
  rw [Int.sub_emod, h1, h2, ← Int.sub_emod]

/-- What is proved of every subexpression: outcome of the C++ against the IL. -/
def Rel (e : X) (c i : Res Int) : Prop :=
  match c with
  | .ok v => i = .ok (e.width.wrapS v) ∧ Fits (cty e) v ∧ (sx e = true → e.width.wrapS v = v) ∧ (ux e = true → e.width.wrapU v = v)
  | .throw x => i = .throw x
  | .ub => True

theorem tdiv_natAbs (a b : Int) : (a.tdiv b).natAbs = a.natAbs / b.natAbs := Int.natAbs_tdiv a b

theorem tdiv_i32 {a b : Int} (ha : I32 a) (hb : b ≠ 0) (h : ¬ (a = -2147483648 ∧ b = -1)) : I32 (a.tdiv b) := by
  have e := tdiv_natAbs a b
  unfold I32 at *
  have hbn : 0 < b.natAbs := by omega
  by_cases h1 : b.natAbs = 1
  · rw [h1, Nat.div_one] at e
    by_cases hb1 : b = 1
    · subst hb1; rw [Int.tdiv_one]; exact ha
    · have : b = -1 := by omega
      omega
  · have hle : a.natAbs / b.natAbs ≤ a.natAbs / 2 := Nat.div_le_div_left (by omega) (by omega)
    omega

theorem tdiv_u32 {a b : Int} (ha : U32 a) (hb : U32 b) : U32 (a.tdiv b) := by
  have e := tdiv_natAbs a b
  unfold U32 at *
  have hle : a.natAbs / b.natAbs ≤ a.natAbs := Nat.div_le_self _ _
  have : 0 ≤ a.tdiv b := Int.tdiv_nonneg ha.1 hb.1
  omega

theorem shr_fits {c : CT} {a : Int} (h : Fits c a) (k : Nat) : Fits c (a / 2 ^ k) := by
  have hp : (0 : Int) < 2 ^ k := Int.pow_pos (by omega)
  unfold Fits at *
  have hlo : c.lo ≤ 0 := by cases c <;> decide
  have hhi : 0 ≤ c.hi := by cases c <;> decide
  constructor
  · by_cases h0 : 0 ≤ a
    · have := Int.ediv_nonneg h0 (Int.le_of_lt hp); omega
    · have : a ≤ a / 2 ^ k := by
        rw [Int.le_ediv_iff_mul_le hp]
        have h1 : (1 : Int) ≤ 2 ^ k := hp
        have h2 := Int.mul_le_mul_of_nonpos_left (show a ≤ 0 by omega) h1
        omega
      omega
  · by_cases h0 : 0 ≤ a
    · have : a / 2 ^ k ≤ a := Int.ediv_le_self _ h0
      omega
    · have : a / 2 ^ k < 0 := Int.ediv_neg_of_neg_of_pos (by omega) hp
      omega

theorem tmod_fits {c : CT} {a b : Int} (ha : Fits c a) (hb : Fits c b) : Fits c (a.tmod b) := by
  have hlo : c.lo ≤ 0 := by cases c <;> decide
  have hhi : 0 ≤ c.hi := by cases c <;> decide
  have e : (a.tmod b).natAbs = a.natAbs % b.natAbs := Int.natAbs_tmod a b
  have hle : a.natAbs % b.natAbs ≤ a.natAbs := Nat.mod_le _ _
  unfold Fits at *
  by_cases h0 : 0 ≤ a
  · have := Int.tmod_nonneg b h0; omega
  · have h1 : a.tmod b = -((-a).tmod b) := by rw [Int.neg_tmod, Int.neg_neg]
    have := Int.tmod_nonneg b (show 0 ≤ -a by omega); omega


theorem arith_rel {w : W} {c : CT} (hb : w.bits ≤ c.bits) {o : AOp} (ho : o ≠ .rem) {un chk : Bool} {a b v : Int}
    (hc : arithOp c o (c.conv a) (c.conv b) = .ok v) (hi : ilBin w (.arith o) un chk (w.wrapS a) (w.wrapS b) ≠ .throw .overflow) :
    ilBin w (.arith o) un chk (w.wrapS a) (w.wrapS b) = .ok (w.wrapS v) ∧ Fits c v := by
  have hA := (rd_mod w un (w.wrapS a)).trans ((wrapS_mod w a).trans (conv_mod hb a).symm)
  have hB := (rd_mod w un (w.wrapS b)).trans ((wrapS_mod w b).trans (conv_mod hb b).symm)
  have key : ∀ (x y : Int), x % w.mod = y % w.mod → deliver c y = .ok v → w.deliver un chk x ≠ .throw .overflow →
      w.deliver un chk x = .ok (w.wrapS v) ∧ Fits c v := by
    intro x y hxy hd hn
    obtain ⟨hf, rfl⟩ := deliver_ok hd
    refine ⟨?_, hf⟩
    rw [ilDeliver_ok hn, wrapS_congr (hxy.trans (conv_mod hb y).symm)]
  have bit : arithOp c o (c.conv a) (c.conv b) = .ok (c.conv (bitw o c.bits (c.conv a) (c.conv b)).toInt) →
      ilBin w (.arith o) un chk (w.wrapS a) (w.wrapS b) = .ok (bitw o w.bits (w.wrapS a) (w.wrapS b)).toInt →
      ilBin w (.arith o) un chk (w.wrapS a) (w.wrapS b) = .ok (w.wrapS v) ∧ Fits c v := by
    intro h1 h2
    rw [h1, Res.ok.injEq] at hc
    subst hc
    exact ⟨by rw [h2, bitw_spec hb], conv_fits _ _⟩
  cases o with
  | add => exact key _ _ (add_congr hA hB) hc hi
  | sub => exact key _ _ (sub_congr hA hB) hc hi
  | mul => exact key _ _ (mul_congr hA hB) hc hi
  | rem => exact absurd rfl ho
  | band => exact bit rfl rfl
  | bor => exact bit rfl rfl
  | xor => exact bit rfl rfl

theorem arith_no_throw {c : CT} {o : AOp} {a b : Int} {x : Exc} : arithOp c o a b ≠ .throw x := by
  cases o
  case rem =>
    unfold arithOp; simp only []
    by_cases h : b = 0
    · rw [if_pos h]; simp
    · rw [if_neg h]; split <;> simp
  all_goals first | exact deliver_not_throw | (simp [arithOp])

theorem rem_rel {w : W} {c : CT} (hb : c.bits = w.bits) {un chk : Bool} (hu : c.signed = !un) {a b v : Int}
    (hc : arithOp c .rem (c.conv a) (c.conv b) = .ok v) (hi : ilBin w (.arith .rem) un chk (w.wrapS a) (w.wrapS b) ≠ .throw .overflow) :
    ilBin w (.arith .rem) un chk (w.wrapS a) (w.wrapS b) = .ok (w.wrapS v) ∧ Fits c v := by
  have hs : (!c.signed) = un := by rw [hu, Bool.not_not]
  have ea : w.rd un (w.wrapS a) = c.conv a := by rw [rd_wrapS, conv_eq hb, hs]
  have eb : w.rd un (w.wrapS b) = c.conv b := by rw [rd_wrapS, conv_eq hb, hs]
  unfold arithOp at hc; simp only [] at hc
  unfold ilBin at *; simp only [] at *
  by_cases h0 : c.conv b = 0
  · rw [if_pos h0] at hc; simp at hc
  rw [if_neg h0] at hc
  have h0' : w.wrapS b ≠ 0 := by
    intro h; rw [h] at eb
    apply h0; rw [← eb]
    cases un <;> cases w <;> decide
  rw [if_neg h0'] at hi ⊢
  by_cases h1 : c.signed = true ∧ c.conv a = c.lo ∧ c.conv b = -1
  · rw [if_pos h1] at hc; simp at hc
  rw [if_neg h1, Res.ok.injEq] at hc
  by_cases h2 : un = false ∧ w.wrapS a = w.lo ∧ w.wrapS b = -1
  · rw [if_pos h2] at hi; exact absurd rfl hi
  rw [if_neg h2, ea, eb, hc]
  exact ⟨rfl, by rw [← hc]; exact tmod_fits (conv_fits _ _) (conv_fits _ _)⟩

theorem shift_rel {w : W} {c : CT} (hb : c.bits = w.bits) {o : SOp} {un : Bool} (hu : o = .shr → c.signed = !un) {a b k v : Int}
    (ha : Fits c a) (hk : b ≥ 0 → b < c.bits → k = b) (hc : shiftOp c o a b = .ok v) :
    ilShift w o un (w.wrapS a) k = .ok (w.wrapS v) ∧ Fits c v := by
  unfold shiftOp at hc
  by_cases h1 : b < 0 ∨ b ≥ c.bits
  · rw [if_pos h1] at hc; simp at hc
  rw [if_neg h1] at hc
  have hkb := hk (by omega) (by omega)
  subst hkb
  have hm : (k % (w.bits : Int)) = k := Int.emod_eq_of_lt (by omega) (by rw [← hb]; omega)
  unfold ilShift
  simp only [hm]
  cases o with
  | shl =>
    simp only [] at hc ⊢
    by_cases h2 : c.signed = true ∧ (a < 0 ∨ a * 2 ^ k.toNat ≥ 2 ^ c.bits)
    · rw [if_pos h2] at hc; simp at hc
    rw [if_neg h2, Res.ok.injEq] at hc
    subst hc
    refine ⟨?_, conv_fits _ _⟩
    rw [wrapS_congr (conv_mod (Nat.le_of_eq hb.symm) _), wrapS_congr (mul_congr (wrapS_mod w a) rfl)]
  | shr =>
    simp only [] at hc ⊢
    rw [Res.ok.injEq] at hc
    subst hc
    refine ⟨?_, shr_fits ha _⟩
    have hs : (!c.signed) = un := by rw [hu rfl, Bool.not_not]
    rw [rd_wrapS, ← hs, rd_of_fits ha hb]

theorem divide_rel_s {w : W} {a b v : Int} {chk : Bool} (ha : w.wrapS a = a) (hb : w.wrapS b = b)
    (hc : i64 ((wrapI64 a).tdiv (wrapI64 b)) = .ok v) (h0 : wrapI64 b ≠ 0)
    (hi : ilBin w .div false chk (w.wrapS a) (w.wrapS b) ≠ .throw .overflow) :
    ilBin w .div false chk (w.wrapS a) (w.wrapS b) = .ok (w.wrapS v) ∧ Fits .i64 v ∧ w.wrapS v = v := by
  have a64 : wrapI64 a = a := by cases w <;> simp only [W.wrapS, wrapI32, wrapI64] at * <;> omega
  have b64 : wrapI64 b = b := by cases w <;> simp only [W.wrapS, wrapI32, wrapI64] at * <;> omega
  rw [a64, b64] at hc
  rw [b64] at h0
  unfold i64 at hc
  by_cases hr : I64 (a.tdiv b)
  · rw [if_pos hr, Res.ok.injEq] at hc
    subst hc
    unfold ilBin at hi ⊢; simp only [ha, hb] at hi ⊢
    rw [if_neg h0] at hi ⊢
    by_cases h2 : False = False ∧ a = w.lo ∧ b = -1
    · rw [if_pos ⟨trivial, h2.2⟩] at hi; exact absurd rfl hi
    rw [if_neg (fun h => h2 ⟨rfl, h.2⟩)]
    have e1 : w.rd false a = a := ha
    have e2 : w.rd false b = b := hb
    rw [e1, e2]
    refine ⟨rfl, hr, ?_⟩
    cases w
    · have : I32 a := by simp only [W.wrapS, wrapI32] at ha; unfold I32; omega
      exact wrapI32_of (tdiv_i32 this h0 (fun h => h2 ⟨rfl, h⟩))
    · exact wrapI64_of hr
  · rw [if_neg hr] at hc; simp at hc

theorem divide_rel_u {a b v : Int} {chk : Bool} (ha : wrapU32 a = a) (hb : wrapU32 b = b)
    (hc : i64 ((wrapI64 a).tdiv (wrapI64 b)) = .ok v) (h0 : wrapI64 b ≠ 0) :
    ilBin .w32 .div true chk (wrapI32 a) (wrapI32 b) = .ok (wrapI32 v) ∧ Fits .i64 v ∧ wrapU32 v = v := by
  have a64 : wrapI64 a = a := by simp only [wrapU32, wrapI64] at *; omega
  have b64 : wrapI64 b = b := by simp only [wrapU32, wrapI64] at *; omega
  rw [a64, b64] at hc
  rw [b64] at h0
  have ua : U32 a := by simp only [wrapU32] at ha; unfold U32; omega
  have ub : U32 b := by simp only [wrapU32] at hb; unfold U32; omega
  have uq := tdiv_u32 ua ub
  rw [i64_ok (by unfold U32 at uq; unfold I64; omega), Res.ok.injEq] at hc
  subst hc
  have e1 : W.w32.rd true (wrapI32 a) = a := (rd_wrapS .w32 true a).trans ha
  have e2 : W.w32.rd true (wrapI32 b) = b := (rd_wrapS .w32 true b).trans hb
  have hb0 : wrapI32 b ≠ 0 := by unfold wrapI32; unfold U32 at ub; omega
  refine ⟨?_, ?_, ?_⟩
  · unfold ilBin; simp only []
    rw [if_neg hb0, if_neg (by simp), e1, e2]; rfl
  · unfold U32 at uq; unfold Fits CT.lo CT.hi; simp only []; omega
  · exact wrapU32_of uq


theorem sxux {e : X} {v : Int} (hf : Fits (cty e) v) :
    (((cty e).signed && (cty e).bits ≤ e.width.bits) = true → e.width.wrapS v = v) ∧
    ((!(cty e).signed && (cty e).bits = e.width.bits) = true → e.width.wrapU v = v) := by
  constructor
  · intro h; simp only [Bool.and_eq_true, decide_eq_true_eq] at h; exact wrapS_of_fits hf h.1 h.2
  · intro h; simp only [Bool.and_eq_true, Bool.not_eq_true', decide_eq_true_eq] at h; exact wrapU_of_fits hf h.1 h.2

/-- Both operands: the C++ outcome of `both` and the IL sequencing. -/
theorem both_rel {l r e : X} {cl cr il ir : Res Int} {f g : Int → Int → Res Int}
    (hl : il ≠ .throw .overflow → Rel l cl il) (hr : ir ≠ .throw .overflow → Rel r cr ir)
    (hf : ∀ a b, cl = .ok a → cr = .ok b → Rel l (.ok a) il → Rel r (.ok b) ir →
      g (l.width.wrapS a) (r.width.wrapS b) ≠ .throw .overflow → Rel e (f a b) (g (l.width.wrapS a) (r.width.wrapS b)))
    (hn : (il >>= fun a => ir >>= fun b => g a b) ≠ .throw .overflow) :
    Rel e (both cl cr f) (il >>= fun a => ir >>= fun b => g a b) := by
  have hil : il ≠ .throw .overflow := by intro h; rw [h] at hn; exact hn (Res.bind_throw _ _)
  have Hl := hl hil
  cases cl with
  | ub => unfold both; simp only []; trivial
  | throw x =>
    have h1 : il = .throw x := Hl
    cases cr with
    | ub => unfold both; simp only []; trivial
    | throw y => unfold both; simp only []; rw [h1]; exact Res.bind_throw _ _
    | ok y => unfold both; simp only []; rw [h1]; exact Res.bind_throw _ _
  | ok a =>
    have h1 : il = .ok (l.width.wrapS a) := Hl.1
    rw [h1] at hn hil ⊢
    rw [Res.bind_ok] at hn ⊢
    have hir : ir ≠ .throw .overflow := by intro h; rw [h] at hn; exact hn (Res.bind_throw _ _)
    have Hr := hr hir
    cases cr with
    | ub => unfold both; simp only []; trivial
    | throw y =>
      have h2 : ir = .throw y := Hr
      unfold both; simp only []; rw [h2]; exact Res.bind_throw _ _
    | ok b =>
      have h2 : ir = .ok (r.width.wrapS b) := Hr.1
      rw [h2] at hn ⊢
      rw [Res.bind_ok] at hn ⊢
      unfold both; simp only []
      rw [h1] at Hl
      rw [h2] at Hr
      exact hf a b rfl rfl (h1 ▸ Hl) (h2 ▸ Hr) hn

theorem bind_rel {l e : X} {cl il : Res Int} {f g : Int → Res Int}
    (hl : il ≠ .throw .overflow → Rel l cl il)
    (hf : ∀ a, cl = .ok a → Rel l (.ok a) (.ok (l.width.wrapS a)) → g (l.width.wrapS a) ≠ .throw .overflow → Rel e (f a) (g (l.width.wrapS a)))
    (hn : (il >>= g) ≠ .throw .overflow) : Rel e (cl >>= f) (il >>= g) := by
  have hil : il ≠ .throw .overflow := by intro h; rw [h] at hn; exact hn (Res.bind_throw _ _)
  have Hl := hl hil
  cases cl with
  | ub => rw [Res.bind_ub]; trivial
  | throw x =>
    have h1 : il = .throw x := Hl
    rw [Res.bind_throw, h1]; exact Res.bind_throw _ _
  | ok a =>
    have h1 : il = .ok (l.width.wrapS a) := Hl.1
    rw [h1] at hn Hl ⊢
    rw [Res.bind_ok] at hn
    rw [Res.bind_ok, Res.bind_ok]
    exact hf a rfl Hl hn

theorem wrap_fits (ty : Ty) (x : Int) : Fits (promote ty) (ty.wrap x) := by
  cases ty <;> simp only [promote, Fits, CT.lo, CT.hi, Ty.wrap, wrapI8, wrapU8, wrapI16, wrapU16, wrapI32, wrapI64, wrapU32, wrapU64] <;> omega

theorem wrap_range (ty : Ty) (x : Int) : ty.min ≤ ty.wrap x ∧ ty.wrap x ≤ ty.max := by
  cases ty <;> simp only [Ty.min, Ty.max, Ty.wrap, wrapI8, wrapU8, wrapI16, wrapU16, wrapI32, wrapI64, wrapU32, wrapU64] <;> omega

theorem wrap_of_range {ty : Ty} {x : Int} (h : ty.min ≤ x ∧ x ≤ ty.max) : ty.wrap x = x := by
  cases ty <;> simp only [Ty.min, Ty.max, Ty.wrap, wrapI8, wrapU8, wrapI16, wrapU16, wrapI32, wrapI64, wrapU32, wrapU64] at * <;> omega

/-- Conversion to a type depends only on the low bits of the operand, as many as the type has. -/
theorem wrap_congr {ty : Ty} {w : W} (h : ¬ (w = .w32 ∧ tyW ty = .w64)) {x y : Int} (hx : x % w.mod = y % w.mod) : ty.wrap x = ty.wrap y := by
  cases ty <;> cases w <;> simp [tyW] at h <;>
    simp only [W.mod, Ty.wrap, wrapI8, wrapU8, wrapI16, wrapU16, wrapI32, wrapI64, wrapU32, wrapU64] at * <;> omega

theorem agree_rel (env : Nat → Int) (e : X) (h : Agree e) (hn : e.eval env ≠ .throw .overflow) :
    Rel e ((tr e).eval env) (e.eval env) := by
  induction e with
  | var ty k =>
    refine ⟨rfl, wrap_fits ty _, (sxux (e := .var ty k) (wrap_fits ty _)).1, ?_⟩
    have g := (sxux (e := .var ty k) (wrap_fits ty (env k))).2
    intro hu
    by_cases hb : ty = .byte
    · subst hb; simp only [X.width, tyW, W.wrapU, Ty.wrap, wrapU32, wrapU8]; omega
    by_cases hb2 : ty = .uint16
    · subst hb2; simp only [X.width, tyW, W.wrapU, Ty.wrap, wrapU32, wrapU16]; omega
    · apply g; cases ty <;> first | contradiction | exact hu
  | i4 n =>
    have hI : I32 n := h
    have hw : wrapI32 n = n := wrapI32_of hI
    have hx : tr (.i4 n) = .lit n := if_neg (by unfold I32 at hI; omega)
    have hc : cty (.i4 n) = .i32 := by unfold cty; rw [hx]; exact if_pos hI
    rw [hx]
    refine ⟨by rfl, by rw [hc]; exact hI, fun _ => hw, ?_⟩
    intro hu
    have h0 : 0 ≤ n := by simpa [ux] using hu
    exact wrapU32_of ⟨h0, by unfold I32 at hI; omega⟩
  | i8 n =>
    have hI : I64 n := h
    have hw : wrapI64 n = n := wrapI64_of hI
    have hv : (tr (.i8 n)).eval env = .ok n := by
      show (constX n).eval env = _
      unfold constX
      split
      · rename_i he; subst he; rfl
      · rfl
    have hf : Fits (cty (.i8 n)) n := by
      show Fits (constX n).ty n
      unfold constX
      split
      · rename_i he; subst he; exact ⟨by decide, by decide⟩
      · by_cases h3 : I32 n
        · have hc : (CX.lit n).ty = .i32 := if_pos h3
          rw [hc]; exact h3
        · have hc : (CX.lit n).ty = .i64 := if_neg h3
          rw [hc]; exact hI
    rw [hv]
    refine ⟨by rfl, hf, fun _ => hw, ?_⟩
    intro hu
    have h0 : 0 ≤ n := by simpa [ux] using hu
    exact wrapU64_of ⟨h0, by unfold I64 at hI; omega⟩
  | bin o un chk l r ihl ihr =>
    cases o with
    | div =>
      obtain ⟨hl, hr, hw, hx⟩ := h
      refine both_rel (ihl hl) (ihr hr) ?_ hn
      intro a b _ _ Ha Hb hn'
      by_cases h0 : wrapI64 b = 0
      · rw [if_pos h0]
        show ilBin _ _ _ _ _ _ = _
        have : r.width.wrapS b = 0 := by
          cases r.width <;> simp only [W.wrapS, wrapI32, wrapI64] at * <;> omega
        unfold ilBin; simp only []; rw [if_pos this]
      rw [if_neg h0]
      cases hq : i64 ((wrapI64 a).tdiv (wrapI64 b)) with
      | ub => trivial
      | throw x => unfold i64 at hq; split at hq <;> simp at hq
      | ok v =>
        cases un with
        | false =>
          simp only [Bool.false_eq_true, if_false] at hx
          have d := divide_rel_s (w := l.width) (chk := chk) (Ha.2.2.1 hx.1) (by rw [hw]; exact Hb.2.2.1 hx.2) hq h0 (by rw [hw]; rw [hw] at hn'; exact hn')
          rw [← hw]
          exact ⟨d.1, d.2.1, fun _ => d.2.2, fun hu => by simp [ux, cty, tr, CX.ty, CT.signed] at hu⟩
        | true =>
          simp only [if_true] at hx
          obtain ⟨h32, hul, hur⟩ := hx
          have h32r : r.width = .w32 := by rw [← hw, h32]
          have ua := Ha.2.2.2 hul
          have ub := Hb.2.2.2 hur
          rw [h32] at ua
          rw [h32r] at ub
          have d := divide_rel_u (chk := chk) ua ub hq h0
          rw [h32r]
          show Rel _ _ (ilBin l.width _ _ _ (l.width.wrapS a) _)
          have hwe : (X.bin BOp.div true chk l r).width = .w32 := h32
          rw [h32]
          refine ⟨by rw [hwe]; exact d.1, d.2.1, fun hs => ?_, fun _ => by rw [hwe]; exact d.2.2⟩
          simp [sx, cty, tr, CX.ty, CT.signed, CT.bits, hwe, W.bits] at hs
    | arith o =>
      by_cases ho : o = .rem
      · subst ho
        obtain ⟨hl, hr, hw, hb, hs⟩ := h
        refine both_rel (ihl hl) (ihr hr) ?_ hn
        intro a b _ _ _ _ hn'
        rw [← hw] at hn' ⊢
        cases hq : arithOp (common (tr l).ty (tr r).ty) .rem ((common (tr l).ty (tr r).ty).conv a) ((common (tr l).ty (tr r).ty).conv b) with
        | ub => trivial
        | throw x => exact absurd hq arith_no_throw
        | ok v =>
          have d := rem_rel (w := l.width) hb hs hq hn'
          exact ⟨d.1, d.2, (sxux (e := .bin (.arith .rem) un chk l r) d.2).1, (sxux (e := .bin (.arith .rem) un chk l r) d.2).2⟩
      · have h' : Agree l ∧ Agree r ∧ l.width = r.width ∧ l.width.bits ≤ (common (cty l) (cty r)).bits := by
          cases o <;> first | exact absurd rfl ho | exact h
        obtain ⟨hl, hr, hw, hb⟩ := h'
        refine both_rel (ihl hl) (ihr hr) ?_ hn
        intro a b _ _ _ _ hn'
        rw [← hw] at hn' ⊢
        cases hq : arithOp (common (tr l).ty (tr r).ty) o ((common (tr l).ty (tr r).ty).conv a) ((common (tr l).ty (tr r).ty).conv b) with
        | ub => trivial
        | throw x => exact absurd hq arith_no_throw
        | ok v =>
          have d := arith_rel (w := l.width) hb ho hq hn'
          exact ⟨d.1, d.2, (sxux (e := .bin (.arith o) un chk l r) d.2).1, (sxux (e := .bin (.arith o) un chk l r) d.2).2⟩
  | shift o un l r ihl ihr =>
    obtain ⟨hl, hr, hb, hx, hw, hs⟩ := h
    refine both_rel (ihl hl) (ihr hr) ?_ hn
    intro a b _ _ Ha Hb hn'
    cases hq : shiftOp (tr l).ty o a b with
    | ub => trivial
    | throw x =>
      unfold shiftOp at hq
      split at hq
      · simp at hq
      · cases o <;> simp only [] at hq
        · split at hq <;> simp at hq
        · simp at hq
    | ok v =>
      have d := shift_rel (w := l.width) (k := r.width.wrapS b) hb hs Ha.2.1 (by
        intro h1 h2
        rw [hw]
        have : (b : Int) < 64 := by
          have : (tr l).ty.bits ≤ 64 := by cases (tr l).ty <;> decide
          unfold cty at h2; omega
        exact wrapI32_of ⟨by omega, by omega⟩) hq
      exact ⟨d.1, d.2, (sxux (e := .shift o un l r) d.2).1, (sxux (e := .shift o un l r) d.2).2⟩
  | comp o un l r ihl ihr =>
    obtain ⟨hl, hr, hw, hx⟩ := h
    refine both_rel (ihl hl) (ihr hr) ?_ hn
    intro a b _ _ Ha Hb _
    have key : relOp o ((common (tr l).ty (tr r).ty).conv a) ((common (tr l).ty (tr r).ty).conv b) =
        relOp o (l.width.rd un (l.width.wrapS a)) (l.width.rd un (r.width.wrapS b)) := by
      rw [← hw]
      rcases hx with ⟨hb, hs⟩ | ⟨hc, hsl, hsr, hu⟩
      · rw [rd_wrapS, rd_wrapS, conv_eq (w := l.width) (c := common (tr l).ty (tr r).ty) hb, conv_eq (w := l.width) (c := common (tr l).ty (tr r).ty) hb]
        change (o = .eq ∨ o = .ne ∨ (common (tr l).ty (tr r).ty).signed = !un) at hs
        by_cases he : (common (tr l).ty (tr r).ty).signed = !un
        · rw [he, Bool.not_not]
        · have hq : ∀ p q : Bool, (l.width.rd p a = l.width.rd p b ↔ l.width.rd q a = l.width.rd q b) := by
            intro p q
            cases p <;> cases q <;> cases l.width <;> simp only [W.rd, W.wrapS, W.wrapU, wrapI32, wrapI64, wrapU32, wrapU64, if_true, Bool.false_eq_true, if_false] <;> omega
          rcases hs with rfl | rfl | h3
          · simp only [relOp]; exact decide_eq_decide.mpr (hq _ _)
          · simp only [relOp]; exact decide_eq_decide.mpr (not_congr (hq _ _))
          · exact absurd h3 he
      · have e1 := Ha.2.2.1 hsl
        have e2 := Hb.2.2.1 hsr
        rw [← hw] at e2
        change common (tr l).ty (tr r).ty = .i64 at hc
        subst hu
        rw [rd_wrapS, rd_wrapS, hc]
        have k : ∀ x, l.width.wrapS x = x → wrapI64 x = x := by
          intro x hx; cases hh : l.width <;> rw [hh] at hx <;> simp only [W.wrapS, wrapI32, wrapI64] at * <;> omega
        show relOp o (wrapI64 a) (wrapI64 b) = relOp o (l.width.wrapS a) (l.width.wrapS b)
        rw [e1, e2, k a e1, k b e2]
    rw [key]
    generalize relOp o (l.width.rd un (l.width.wrapS a)) (l.width.rd un (r.width.wrapS b)) = t
    have hf : ∀ t : Bool, Fits .i32 (if t = true then 1 else 0) := by intro t; unfold Fits CT.lo CT.hi; cases t <;> decide
    have d := sxux (e := .comp o un l r) (v := if t = true then 1 else 0) (hf t)
    refine ⟨?_, hf t, d.1, d.2⟩
    cases t <;> rfl
  | bitNot e ih =>
    obtain ⟨he, hb⟩ := h
    refine bind_rel (ih he) ?_ hn
    intro a _ Ha _
    have hf := conv_fits (tr e).ty (-a - 1)
    refine ⟨?_, hf, (sxux (e := .bitNot e) hf).1, (sxux (e := .bitNot e) hf).2⟩
    show Res.ok (e.width.wrapS (-(e.width.wrapS a) - 1)) = Res.ok (e.width.wrapS ((tr e).ty.conv (-a - 1)))
    rw [wrapS_congr (conv_mod (c := (tr e).ty) hb _)]
    congr 1
    apply wrapS_congr
    have := wrapS_mod e.width a
    cases e.width <;> simp only [W.mod, W.wrapS, wrapI32, wrapI64] at * <;> omega
  | conv ty chk un e ih =>
    obtain ⟨he, hx⟩ := h
    refine bind_rel (ih he) ?_ hn
    intro a _ Ha hn'
    have hf := wrap_fits ty a
    have hu : ux (.conv ty chk un e) = true → (X.conv ty chk un e).width.wrapU (ty.wrap a) = ty.wrap a := by
      intro hu
      by_cases hb : ty = .byte
      · subst hb; simp only [X.width, tyW, W.wrapU, Ty.wrap, wrapU32, wrapU8]; omega
      by_cases hb2 : ty = .uint16
      · subst hb2; simp only [X.width, tyW, W.wrapU, Ty.wrap, wrapU32, wrapU16]; omega
      · apply (sxux (e := .conv ty chk un e) hf).2; cases ty <;> first | contradiction | exact hu
    refine ⟨?_, hf, (sxux (e := .conv ty chk un e) hf).1, hu⟩
    show ilConv e.width ty chk un (e.width.wrapS a) = .ok ((tyW ty).wrapS (ty.wrap a))
    unfold ilConv at hn' ⊢
    by_cases hnar : e.width = .w32 ∧ tyW ty = .w64
    · have hv := hx hnar.1 hnar.2
      cases chk with
      | true =>
        simp only [if_true] at hv hn' ⊢
        have hrd : e.width.rd un (e.width.wrapS a) = a := by
          rw [rd_wrapS]
          cases un
          · exact Ha.2.2.1 hv
          · exact Ha.2.2.2 hv
        rw [hrd] at hn' ⊢
        by_cases hr : ty.min ≤ a ∧ a ≤ ty.max
        · rw [if_pos hr, wrap_of_range hr]
        · rw [if_neg hr] at hn'; exact absurd rfl hn'
      | false =>
        simp only [Bool.false_eq_true, if_false] at hv ⊢
        by_cases hty : ty = .uint64
        · rw [if_pos (decide_eq_true hty)] at hv
          rw [if_pos hty]
          have e1 : e.width.wrapU (e.width.wrapS a) = a := (rd_wrapS e.width true a).trans (Ha.2.2.2 hv)
          rw [e1]
        · rw [if_neg (by simpa using hty)] at hv
          rw [if_neg hty, Ha.2.2.1 hv]
    · cases chk with
      | true =>
        simp only [if_true] at hn' ⊢
        by_cases hr : ty.min ≤ e.width.rd un (e.width.wrapS a) ∧ e.width.rd un (e.width.wrapS a) ≤ ty.max
        · rw [if_pos hr]
          congr 2
          rw [← wrap_of_range hr]
          exact wrap_congr hnar ((rd_mod _ _ _).trans (wrapS_mod _ _))
        · rw [if_neg hr] at hn'; exact absurd rfl hn'
      | false =>
        simp only [Bool.false_eq_true, if_false]
        congr 2
        apply wrap_congr hnar
        by_cases hty : ty = .uint64
        · rw [if_pos hty]; exact (wrapU_mod _ _).trans (wrapS_mod _ _)
        · rw [if_neg hty]; exact wrapS_mod _ _
  | ite c t f ihc iht ihf =>
    obtain ⟨_, hc, ht, hf, hw, hx, hb⟩ := h
    refine bind_rel (ihc hc) ?_ hn
    intro a _ Ha hn'
    have h0 : a ≠ 0 ↔ c.width.wrapS a ≠ 0 := by
      rcases hx with h1 | h1
      · rw [Ha.2.2.1 h1]
      · have := Ha.2.2.2 h1
        cases hh : c.width <;> rw [hh] at this <;> simp only [W.wrapU, W.wrapS, wrapU32, wrapU64, wrapI32, wrapI64] at * <;> omega
    have fin : ∀ (x : X) (v : Int), x.width = t.width → Rel x (.ok v) (x.eval env) →
        Rel (.ite c t f) (.ok ((common (tr t).ty (tr f).ty).conv v)) (x.eval env) := by
      intro x v hxw hr
      have hfit := conv_fits (common (tr t).ty (tr f).ty) v
      refine ⟨?_, hfit, (sxux (e := .ite c t f) hfit).1, (sxux (e := .ite c t f) hfit).2⟩
      rw [hr.1, hxw]
      show Res.ok (t.width.wrapS v) = Res.ok (t.width.wrapS _)
      rw [wrapS_congr (conv_mod (c := common (tr t).ty (tr f).ty) hb v)]
    by_cases ha : a ≠ 0
    · rw [if_pos ha]
      rw [if_pos (h0.mp ha)] at hn' ⊢
      have R := iht ht hn'
      cases hq : (tr t).eval env with
      | ub => rw [Res.bind_ub]; trivial
      | throw x => rw [hq] at R; rw [Res.bind_throw]; exact R
      | ok v => rw [hq] at R; rw [Res.bind_ok]; exact fin t v rfl R
    · rw [if_neg ha]
      rw [if_neg (fun hh => ha (h0.mpr hh))] at hn' ⊢
      have R := ihf hf hn'
      cases hq : (tr f).eval env with
      | ub => rw [Res.bind_ub]; trivial
      | throw x => rw [hq] at R; rw [Res.bind_throw]; exact R
      | ok v => rw [hq] at R; rw [Res.bind_ok]; exact fin f v hw.symm R

/-- The text of an expression without a conditional in condition position has the structure of the expression. -/
theorem trK_eq (e : X) : Agree e → ∀ K : Rest, (isIte e = true → K = none) → trK e K = K.fin (tr e) := by
  induction e with
  | var ty k => intro _ K _; rfl
  | i4 n => intro _ K _; rfl
  | i8 n => intro _ K _; rfl
  | bin o un chk l r ihl ihr =>
    intro h K _
    have hl : Agree l := by
      cases o with
      | div => exact h.1
      | arith o => cases o <;> exact h.1
    have hr : Agree r := by
      cases o with
      | div => exact h.2.1
      | arith o => cases o <;> exact h.2.1
    cases o <;> rw [trK, ihl hl none (fun _ => rfl), ihr hr none (fun _ => rfl)] <;> rfl
  | shift o un l r ihl ihr => intro h K _; rw [trK, ihl h.1 none (fun _ => rfl), ihr h.2.1 none (fun _ => rfl)]; rfl
  | comp o un l r ihl ihr => intro h K _; rw [trK, ihl h.1 none (fun _ => rfl), ihr h.2.1 none (fun _ => rfl)]; rfl
  | bitNot e ih => intro h K _; rw [trK, ih h.1 none (fun _ => rfl)]; rfl
  | conv ty chk un e ih => intro h K _; rw [trK, ih h.1 none (fun _ => rfl)]; rfl
  | ite c t f ihc iht ihf =>
    intro h K hK
    obtain ⟨hn, hc, ht, hf, _⟩ := h
    rw [hK rfl, trK, iht ht none (fun _ => rfl), ihf hf none (fun _ => rfl), ihc hc _ (fun hh => by rw [hn] at hh; cases hh)]
    rfl

/-! ### C94 -/

/-- C94 (partial): for every integer expression on which the operand types C++ sees agree with the sign flags of the IL, every contents of
the variables and every target variable, the translated assignment stores the value the source stores, or raises the same exception.
Missing: the expressions outside `Agree` and the executions with undefined behaviour or OverflowException (refuted below). -/
theorem C94_value_partial (env : Nat → Int) (ty : Ty) (e : X) (h : Agree e) (hty : ¬ (e.width = .w32 ∧ tyW ty = .w64))
    (hub : cppStore env ty e ≠ .ub) (hov : ilStore env ty e ≠ .throw .overflow) : cppStore env ty e = ilStore env ty e := by
  unfold cppStore ilStore at *
  have e1 : trK e none = tr e := trK_eq e h none (fun _ => rfl)
  rw [e1] at hub ⊢
  have hn : e.eval env ≠ .throw .overflow := by intro hh; rw [hh] at hov; exact hov (Res.bind_throw _ _)
  have R := agree_rel env e h hn
  cases hq : (tr e).eval env with
  | ub => rw [hq] at hub; exact absurd (Res.bind_ub _) hub
  | throw x => rw [hq] at R; have R' : e.eval env = .throw x := R; rw [R']
  | ok v =>
    rw [hq] at R
    rw [R.1, Res.bind_ok, Res.bind_ok]
    congr 1
    exact wrap_congr hty (wrapS_mod _ _).symm

/-- `x = (long)(a * 3 + (b >> c)) / d ^ (u < 7u ? 1L : -5L)` with `int a, b, c; long d; uint u`. -/
def sample : X :=
  .bin (.arith .xor) false false
    (.bin .div false false (.conv .int64 false false (.bin (.arith .add) false false (.bin (.arith .mul) false false (.var .int32 0) (.i4 3))
      (.shift .shr false (.var .int32 1) (.var .int32 2)))) (.var .int64 3))
    (.conv .int64 false false (.ite (.comp .lt true (.var .uint32 4) (.i4 7)) (.i4 1) (.i4 (-5))))

theorem sample_agrees : Agree sample := by
  simp [sample, Agree, isIte, cty, tr, constX, CX.ty, common, promote, CT.bits, CT.signed, X.width, tyW, W.bits, sx, ux, I32]

example : cppStore (fun k => [100, -64, 2, -7, 9].getD k 0) .int64 sample = .ok 35 ∧
    ilStore (fun k => [100, -64, 2, -7, 9].getD k 0) .int64 sample = .ok 35 := by decide +kernel
example : cppStore (fun k => [100, -64, 2, 0, 9].getD k 0) .int64 sample = .throw .divideByZero := by decide +kernel
example : cppStore (fun k => [100, -64, 2, -7, 9].getD k 0) .int64 sample = ilStore (fun k => [100, -64, 2, -7, 9].getD k 0) .int64 sample :=
  C94_value_partial _ _ _ sample_agrees (by decide) (by decide +kernel) (by decide +kernel)

/-- C94 fails for `(uint)x >> 4` and `(uint)a < (uint)b` on `int` variables: the IL has no conversion, only an unsigned operator, and the
C++ operator is signed. -/
theorem C94_sign_refuted :
    (∃ env, ilStore env .uint32 (.shift .shr true (.var .int32 0) (.i4 4)) = .ok 268435455 ∧
      cppStore env .uint32 (.shift .shr true (.var .int32 0) (.i4 4)) = .ok 4294967295) ∧
    (∃ env, ilStore env .int32 (.comp .lt true (.var .int32 0) (.var .int32 1)) = .ok 0 ∧
      cppStore env .int32 (.comp .lt true (.var .int32 0) (.var .int32 1)) = .ok 1) :=
  ⟨⟨fun _ => -16, by decide +kernel⟩, ⟨fun k => if k = 0 then -1 else 1, by decide +kernel⟩⟩

/-- C94 fails for every sum of two `int` variables that leaves the range of `int`: the IL wraps around, the C++ is undefined. -/
theorem C94_overflow_refuted (env : Nat → Int) (h : ¬ I32 (wrapI32 (env 0) + wrapI32 (env 1))) :
    cppStore env .int32 (.bin (.arith .add) false false (.var .int32 0) (.var .int32 1)) = .ub ∧
    ilStore env .int32 (.bin (.arith .add) false false (.var .int32 0) (.var .int32 1)) = .ok (wrapI32 (env 0 + env 1)) := by
  constructor
  · show (both (.ok (wrapI32 (env 0))) (.ok (wrapI32 (env 1))) fun a b => deliver .i32 (wrapI32 a + wrapI32 b)) >>= _ = _
    unfold both; simp only []
    rw [wrapI32_of (x := wrapI32 (env 0)) (by unfold I32 wrapI32; omega), wrapI32_of (x := wrapI32 (env 1)) (by unfold I32 wrapI32; omega)]
    have : deliver .i32 (wrapI32 (env 0) + wrapI32 (env 1)) = .ub := by
      unfold deliver; rw [if_pos (show CT.i32.signed = true from rfl)]; exact if_neg h
    rw [this, Res.bind_ub]
  · unfold ilStore
    simp only [X.eval, Res.bind_ok, ilBin, W.deliver, X.width, tyW, W.rd, W.wrapS, Ty.wrap, Bool.false_eq_true, if_false, false_and]
    congr 1; unfold wrapI32; omega

example : ¬ I32 (wrapI32 2147483647 + wrapI32 1) := by decide +kernel

/-- C94 fails for divisions: `ulong` operands of 2^63 and more are read as negative, a `uint` constant of 2^31 and more is printed as a
negative number, and `Int32.MinValue / -1` gives a value where the source raises OverflowException. -/
theorem C94_division_refuted :
    (∃ env, ilStore env .uint64 (.bin .div true false (.var .uint64 0) (.i8 2)) = .ok 4611686018427387904 ∧
      cppStore env .uint64 (.bin .div true false (.var .uint64 0) (.i8 2)) = .ok 13835058055282163712) ∧
    (∃ env, ilStore env .uint32 (.bin .div true false (.var .uint32 0) (.i4 (-1294967296))) = .ok 1 ∧
      cppStore env .uint32 (.bin .div true false (.var .uint32 0) (.i4 (-1294967296))) = .ok 4294967293) ∧
    (∃ env, ilStore env .int32 (.bin .div false false (.var .int32 0) (.i4 (-1))) = .throw .overflow ∧
      cppStore env .int32 (.bin .div false false (.var .int32 0) (.i4 (-1))) = .ok (-2147483648)) :=
  ⟨⟨fun _ => 9223372036854775808, by decide +kernel⟩, ⟨fun _ => 4000000000, by decide +kernel⟩, ⟨fun _ => -2147483648, by decide +kernel⟩⟩

/-- C94 fails for the remainder by zero: the source raises DivideByZeroException, the C++ is undefined (only `/` goes through
`Math::Divide`). -/
theorem C94_remainder_refuted (env : Nat → Int) (h : wrapI32 (env 1) = 0) :
    ilStore env .int32 (.bin (.arith .rem) false false (.var .int32 0) (.var .int32 1)) = .throw .divideByZero ∧
    cppStore env .int32 (.bin (.arith .rem) false false (.var .int32 0) (.var .int32 1)) = .ub := by
  constructor
  · unfold ilStore
    simp only [X.eval, Res.bind_ok, ilBin, X.width, tyW, W.wrapS, Ty.wrap, h]
    rfl
  · unfold cppStore
    simp only [trK, Rest.fin, CX.eval, Ty.wrap, h, both, CX.ty, promote, common, arithOp]
    rfl

/-- C94 fails for shift counts of the operand's width and more, and for `1L << n`: the literal is an `int` in C++. -/
theorem C94_shift_refuted :
    (∃ env, ilStore env .int32 (.shift .shl false (.var .int32 0) (.var .int32 1)) = .ok 1 ∧
      cppStore env .int32 (.shift .shl false (.var .int32 0) (.var .int32 1)) = .ub) ∧
    (∃ env, ilStore env .int64 (.shift .shl false (.i8 1) (.var .int32 0)) = .ok 1099511627776 ∧
      cppStore env .int64 (.shift .shl false (.i8 1) (.var .int32 0)) = .ub) :=
  ⟨⟨fun k => if k = 0 then 1 else 32, by decide +kernel⟩, ⟨fun _ => 40, by decide +kernel⟩⟩

/-- C94 fails for the constant 4294967295 of type `long`: it is written `UInt32Value::MaxValue`, whose type is unsigned and 32 bits wide, so `4294967295L << n`
loses bits and `c ? 4294967295L : -1L` never yields -1. -/
theorem C94_limit_refuted :
    (∃ env, ilStore env .int64 (.shift .shl false (.i8 4294967295) (.var .int32 0)) = .ok 1099511627520 ∧
      cppStore env .int64 (.shift .shl false (.i8 4294967295) (.var .int32 0)) = .ok 4294967040) ∧
    (∀ env, wrapI32 (env 0) = 0 → ilStore env .int64 (.ite (.var .int32 0) (.i8 4294967295) (.i8 (-1))) = .ok (-1) ∧
      cppStore env .int64 (.ite (.var .int32 0) (.i8 4294967295) (.i8 (-1))) = .ok 4294967295) := by
  refine ⟨⟨fun _ => 8, by decide +kernel⟩, fun env h => ?_⟩
  constructor
  · simp only [ilStore, X.eval, Res.bind_ok, tyW, W.wrapS, Ty.wrap, h]; rfl
  · simp only [cppStore, trK, Rest.fin, CX.eval, Ty.wrap, h, Res.bind_ok]; rfl

example : wrapI32 ((fun _ => 0 : Nat → Int) 0) = 0 := by decide

/-- C94 fails for `(long)u < x` with `uint u` and `long x`: the widening is the IL's zero extension, printed `(UInt64)`, and C++ compares
as unsigned. -/
theorem C94_widening_refuted : ∃ env, ilStore env .int32 (.comp .lt false (.conv .uint64 false true (.var .uint32 0)) (.var .int64 1)) = .ok 0 ∧
    cppStore env .int32 (.comp .lt false (.conv .uint64 false true (.var .uint32 0)) (.var .int64 1)) = .ok 1 :=
  ⟨fun k => if k = 0 then 5 else -1, by decide +kernel⟩

/-- C94 fails for `(a / b) * c > 0` on `int` variables: the quotient is an Int64 in C++ and the product does not wrap. -/
theorem C94_intermediate_refuted : ∃ env,
    ilStore env .int32 (.comp .gt false (.bin (.arith .mul) false false (.bin .div false false (.var .int32 0) (.var .int32 1)) (.var .int32 2)) (.i4 0)) = .ok 0 ∧
    cppStore env .int32 (.comp .gt false (.bin (.arith .mul) false false (.bin .div false false (.var .int32 0) (.var .int32 1)) (.var .int32 2)) (.i4 0)) = .ok 1 :=
  ⟨fun k => if k = 0 then 2147483647 else if k = 1 then 1 else 2, by decide +kernel⟩

/-- C94 fails for `checked(u + v)` on `uint`: the source raises OverflowException, the C++ wraps around. -/
theorem C94_checked_refuted : ∃ env, ilStore env .uint32 (.bin (.arith .add) true true (.var .uint32 0) (.var .uint32 1)) = .throw .overflow ∧
    cppStore env .uint32 (.bin (.arith .add) true true (.var .uint32 0) (.var .uint32 1)) = .ok 0 :=
  ⟨fun k => if k = 0 then 4294967295 else 1, by decide +kernel⟩

/-! ### C104: conditions of `if` statements -/

/-- C104: an `if` statement whose condition is not itself a conditional (in particular no `&&` or `||`) and on which C++'s typing rules agree with the IL
takes the branch the source takes, or raises the same exception. -/
theorem C104_branch_partial (env : Nat → Int) (c : X) (hn : isIte c = false) (h : Agree c) (hx : sx c = true ∨ ux c = true)
    (hub : cppTest env c ≠ .ub) (hov : ilTest env c ≠ .throw .overflow) : cppTest env c = ilTest env c := by
  have e1 : trTest c = tr c := by
    have : trTest c = trK c none := by cases c <;> first | rfl | cases hn
    rw [this, trK_eq c h none (fun _ => rfl)]; rfl
  unfold cppTest ilTest at *
  rw [e1] at hub ⊢
  have hn' : c.eval env ≠ .throw .overflow := by intro hh; rw [hh] at hov; exact hov (Res.bind_throw _ _)
  have R := agree_rel env c h hn'
  cases hq : (tr c).eval env with
  | ub => rw [hq] at hub; exact absurd (Res.bind_ub _) hub
  | throw x => rw [hq] at R; have R' : c.eval env = .throw x := R; rw [R']
  | ok v =>
    rw [hq] at R
    rw [R.1, Res.bind_ok, Res.bind_ok]
    have h0 : v ≠ 0 ↔ c.width.wrapS v ≠ 0 := by
      rcases hx with h1 | h1
      · rw [R.2.2.1 h1]
      · have := R.2.2.2 h1
        cases hh : c.width <;> rw [hh] at this <;> simp only [W.wrapU, W.wrapS, wrapU32, wrapU64, wrapI32, wrapI64] at * <;> omega
    simp only [h0]

/-- `if (a < b * 2)` with `int a, b`. -/
example : cppTest (fun k => [3, 2].getD k 0) (.comp .lt false (.var .int32 0) (.bin (.arith .mul) false false (.var .int32 1) (.i4 2))) = .ok true := by
  rw [C104_branch_partial _ _ rfl (by simp [Agree, cty, tr, constX, CX.ty, common, promote, CT.bits, CT.signed, X.width, tyW, W.bits, I32]) (.inl rfl)
    (by decide +kernel) (by decide +kernel)]
  decide +kernel

/-- C104 fails for `&&` and `||`: the IL writes `a && b` as `a ? b : 0` and `a || b` as `a ? 1 : b`; of either the C++ `if` tests `a` alone. -/
theorem C104_logic_refuted (env : Nat → Int) (a b : X) :
    cppTest env (.ite a b (.i4 0)) = cppTest env a ∧ cppTest env (.ite a (.i4 1) b) = cppTest env a := ⟨rfl, rfl⟩

/-- C104: hence `if (a && b)` goes wrong whenever the test of `a` succeeds and `b` is false, and `if (a || b)` whenever it fails and `b` is true. -/
theorem C104_logic_wrong_refuted (env : Nat → Int) (a b : X) :
    (cppTest env a = .ok true → ilTest env a = .ok true → ilTest env b = .ok false →
      cppTest env (.ite a b (.i4 0)) = .ok true ∧ ilTest env (.ite a b (.i4 0)) = .ok false) ∧
    (cppTest env a = .ok false → ilTest env a = .ok false → ilTest env b = .ok true →
      cppTest env (.ite a (.i4 1) b) = .ok false ∧ ilTest env (.ite a (.i4 1) b) = .ok true) := by
  have key : ∀ (x : X) (t : Bool), ilTest env x = .ok t → ∃ v, x.eval env = .ok v ∧ decide (v ≠ 0) = t := by
    intro x t h
    unfold ilTest at h
    rw [Res.bind_eq_ok] at h
    obtain ⟨v, e, h⟩ := h
    rw [Res.ok.injEq] at h
    exact ⟨v, e, h⟩
  refine ⟨fun h1 h2 h3 => ⟨h1, ?_⟩, fun h1 h2 h3 => ⟨h1, ?_⟩⟩
  · obtain ⟨v, e, hv⟩ := key _ _ h2
    unfold ilTest at h3 ⊢
    rw [X.eval, e, Res.bind_ok, if_pos (by simpa using hv)]
    exact h3
  · obtain ⟨v, e, hv⟩ := key _ _ h2
    unfold ilTest at h3 ⊢
    rw [X.eval, e, Res.bind_ok, if_neg (by simpa using hv)]
    exact h3

example : cppTest (fun k => [1, 0].getD k 0) (.ite (.var .int32 0) (.var .int32 1) (.i4 0)) = .ok true ∧
    ilTest (fun k => [1, 0].getD k 0) (.ite (.var .int32 0) (.var .int32 1) (.i4 0)) = .ok false :=
  (C104_logic_wrong_refuted _ _ _).1 (by decide +kernel) (by decide +kernel) (by decide +kernel)

/-- C94 fails for a conditional in condition position: `(a && b) ? d : e` with `a` true yields `b`. -/
theorem C94_condition_refuted (env : Nat → Int) (a b d e : Nat) (h : wrapI32 (env a) ≠ 0) :
    cppStore env .int32 (.ite (.ite (.var .int32 a) (.var .int32 b) (.i4 0)) (.var .int32 d) (.var .int32 e)) = .ok (wrapI32 (env b)) ∧
    ilStore env .int32 (.ite (.ite (.var .int32 a) (.var .int32 b) (.i4 0)) (.var .int32 d) (.var .int32 e)) =
      .ok (if wrapI32 (env b) ≠ 0 then wrapI32 (env d) else wrapI32 (env e)) := by
  have hw : ∀ x, wrapI32 (wrapI32 x) = wrapI32 x := by intro x; unfold wrapI32; omega
  constructor
  · simp only [cppStore, trK, Rest.fin, CX.eval, Ty.wrap, Res.bind_ok, if_pos h, CX.ty, promote, common, CT.conv, hw]
  · simp only [ilStore, X.eval, Res.bind_ok, tyW, W.wrapS, Ty.wrap, hw, if_pos h]
    split <;> simp [hw]

end Verif.Sem
