import Verif.BoxProps
import Verif.FloatOpProps
/-!
# C134: a boxed number read as another numeric type
-/
namespace Verif.Box
open Verif.IntVal (Ty)
open Verif.FltModel (Fmt dbl sgl)
open Verif.FltSpec (classOf Lib)
open Verif.FloatTextSpec (number Rounded)

/-! ### Specification -/

/-- The types whose values are whole numbers: truth values (0 and 1), characters (their codes), integers. -/
def Whole : BTy → Prop
  | .bool | .char | .int _ => True
  | _ => False

/-- `z` is `q` without its fraction. -/
def Truncated (q : ℚ) (z : Int) : Prop := (0 ≤ q → z ≤ q ∧ q < z + 1) ∧ (q < 0 → (z : ℚ) - 1 < q ∧ q ≤ z)

/-- The floating-point type of a format. -/
def real (F : Fmt) : BTy := if F = sgl then .single else .double

/-! ### To integers -/

/-- **C134**: a boxed truth value, character or integer read as an integer type is the value of that type that differs from it by a multiple of the type's size (C#'s unchecked conversion; a truth value reads as 0 or 1). -/
theorem C134_whole_to_integer (wide : Bool) (s : BTy) (t : Ty) (v : Int) (h : Has s v) (hs : Whole s) :
    ∃ v', unbox wide (box s v) (.int t) = .ok v' ∧ t.min ≤ v' ∧ v' ≤ t.max ∧ (t.max - t.min + 1) ∣ v' - v := by
  have wrap : t.min ≤ t.wrap v ∧ t.wrap v ≤ t.max ∧ (t.max - t.min + 1) ∣ t.wrap v - v := by
    cases t <;> simp only [Ty.min, Ty.max, Ty.wrap, wrapI8, wrapU8, wrapI16, wrapU16, wrapI32, wrapU32, wrapI64, wrapU64] at * <;> norm_num <;> omega
  cases s with
  | bool =>
    refine ⟨v, ?_, ?_, ?_, ?_⟩
    · show Res.ok (if v ≠ 0 then (1 : Int) else 0) = _
      rcases h with rfl | rfl <;> rfl
    · rcases h with rfl | rfl <;> cases t <;> decide
    · rcases h with rfl | rfl <;> cases t <;> decide
    · simp
  | char => exact ⟨_, rfl, wrap⟩
  | int s => exact ⟨_, rfl, wrap⟩
  | _ => exact absurd hs (by simp [Whole])

/-- -1 as a byte is 255. -/
example : Has (.int .int32) (-1) ∧ Whole (.int .int32) ∧ unbox true (box (.int .int32) (-1)) (.int .byte) = .ok 255 ∧ unbox true (box .bool 1) (.int .uint64) = .ok 1 := by
  refine ⟨by simp [Has, Ty.min, Ty.max], trivial, ?_, ?_⟩ <;> decide +kernel

theorem unit_places {F : Fmt} (hl : Lib F) : unit F = Rnd.places F := by rcases hl with rfl | rfl <;> decide

theorem truncated_tdiv (x : Int) (n : Nat) : Truncated ((x : ℚ) / 2 ^ n) (x.tdiv (2 ^ n)) := by
  have hp : (0 : ℚ) < 2 ^ n := by positivity
  have hpi : (0 : Int) < 2 ^ n := by positivity
  have e1 := Int.mul_tdiv_add_tmod x (2 ^ n)
  have cast : (x : ℚ) = 2 ^ n * (x.tdiv (2 ^ n) : ℚ) + (x.tmod (2 ^ n) : ℚ) := by
    conv_lhs => rw [← e1]
    rw [Int.cast_add, Int.cast_mul, Int.cast_pow, Int.cast_ofNat]
  have hW : ((2 ^ n : Int) : ℚ) = 2 ^ n := by rw [Int.cast_pow, Int.cast_ofNat]
  constructor
  · intro h
    have hx : 0 ≤ x := by
      by_contra hc
      have : (x : ℚ) < 0 := by exact_mod_cast (show x < 0 by omega)
      have := div_neg_of_neg_of_pos this hp
      linarith
    have m1 : (0 : ℚ) ≤ (x.tmod (2 ^ n) : ℚ) := by exact_mod_cast Int.tmod_nonneg _ hx
    have m2 : (x.tmod (2 ^ n) : ℚ) < 2 ^ n := by rw [← hW]; exact_mod_cast Int.tmod_lt_of_pos x hpi
    rw [le_div_iff₀ hp, div_lt_iff₀ hp]
    constructor <;> nlinarith
  · intro h
    have hx : x < 0 := by
      by_contra hc
      have : (0 : ℚ) ≤ x := by exact_mod_cast (show 0 ≤ x by omega)
      have : (0 : ℚ) ≤ (x : ℚ) / 2 ^ n := by positivity
      linarith
    have k1 : x.tmod (2 ^ n) = -((-x).tmod (2 ^ n)) := by rw [Int.neg_tmod]; simp
    have k2 := Int.tmod_nonneg (2 ^ n) (show 0 ≤ -x by omega)
    have k3 := Int.tmod_lt_of_pos (-x) hpi
    have m1 : (x.tmod (2 ^ n) : ℚ) ≤ 0 := by exact_mod_cast (show x.tmod (2 ^ n) ≤ 0 by omega)
    have m2 : -2 ^ n < (x.tmod (2 ^ n) : ℚ) := by rw [← hW]; exact_mod_cast (show -2 ^ n < x.tmod (2 ^ n) by omega)
    rw [lt_div_iff₀ hp, div_le_iff₀ hp]
    constructor <;> nlinarith

theorem truncated_unique (q : ℚ) (y z : Int) (hy : Truncated q y) (hz : Truncated q z) : y = z := by
  rcases le_or_gt 0 q with h | h
  · obtain ⟨a1, a2⟩ := hy.1 h
    obtain ⟨b1, b2⟩ := hz.1 h
    have c1 : (y : ℚ) < z + 1 := by linarith
    have c2 : (z : ℚ) < y + 1 := by linarith
    have d1 : y < z + 1 := by exact_mod_cast c1
    have d2 : z < y + 1 := by exact_mod_cast c2
    omega
  · obtain ⟨a1, a2⟩ := hy.2 h
    obtain ⟨b1, b2⟩ := hz.2 h
    have c1 : (y : ℚ) < z + 1 := by linarith
    have c2 : (z : ℚ) < y + 1 := by linarith
    have d1 : y < z + 1 := by exact_mod_cast c1
    have d2 : z < y + 1 := by exact_mod_cast c2
    omega

theorem real_sgl : real sgl = .single := rfl
theorem real_dbl : real dbl = .double := by decide

theorem unbox_real (wide : Bool) {F : Fmt} (hl : Lib F) (v : Int) (t : BTy) : unbox wide (box (real F) v) t = floatAs F v t := by
  rcases hl with rfl | rfl
  · rw [real_dbl]; rfl
  · rw [real_sgl]; rfl

theorem real_tag (wide : Bool) {F : Fmt} (hl : Lib F) (s : BTy) (v : Int) (hs : Whole s) (hb : s ≠ .bool) : unbox wide (box s v) (real F) = .ok (FloatExpr.ofInt F v) := by
  rcases hl with rfl | rfl
  · rw [real_dbl]; cases s <;> first | exact absurd rfl hb | rfl | exact absurd hs (by simp [Whole])
  · rw [real_sgl]; cases s <;> first | exact absurd rfl hb | rfl | exact absurd hs (by simp [Whole])

/-- **C134** (partial: the integer part fits, the type has at least 16 bits): a boxed finite `Single` or `Double` read as an integer type is the number without its fraction. Missing: `C134_overflow_refuted`. -/
theorem C134_real_to_integer_partial (wide : Bool) (F : Fmt) (hl : Lib F) (t : Ty) (b : Nat) (z : Int) (hf : FloatText.Finite F b) (ht : t ≠ .byte ∧ t ≠ .sbyte)
    (hz : Truncated (number F b) z) (hr : t.min ≤ z ∧ z ≤ t.max) : unbox wide (box (real F) b) (.int t) = .ok z := by
  have h1 := truncated_tdiv (FltModel.val F b) (Rnd.places F)
  rw [← FloatExpr.number_val] at h1
  have h2 := truncated_unique _ _ _ hz h1
  have h3 : truncTo F t b = .ok z := by
    rw [C116_float_to_int, Int.toNat_natCast, unit_places hl]
    exact ⟨FloatText.finite_mag hl hf, h2, hr⟩
  rw [unbox_real wide hl]
  rw [← h3]
  cases t <;> first | rfl | exact absurd rfl ht.1 | exact absurd rfl ht.2

/-- -2.5 -/
example : FloatText.Finite dbl 0xC004000000000000 ∧ Truncated (number dbl 0xC004000000000000) (-2) ∧ unbox true (box .double 0xC004000000000000) (.int .int16) = .ok (-2) := by
  have h : number dbl 0xC004000000000000 = -5 / 2 := by decide +kernel
  refine ⟨⟨by decide, by decide, by decide⟩, ?_, by decide +kernel⟩
  rw [h]; constructor <;> intro <;> norm_num at *

/-- **C134** (refuted): for an infinity, NaN or a number whose integer part does not fit the type, and only for those, the conversion is undefined in C++ (C# gives an unspecified value of the type); to `byte` and `sbyte` the
library does not convert at all: InvalidCastException. -/
theorem C134_overflow_refuted (wide : Bool) (F : Fmt) (hl : Lib F) (t : Ty) (b : Nat) :
    ((t = .byte ∨ t = .sbyte) → unbox wide (box (real F) b) (.int t) = .throw .invalidCast) ∧
    (t ≠ .byte → t ≠ .sbyte → (unbox wide (box (real F) b) (.int t) = .ub ↔ (F.I ≤ FltModel.mag F b ∨ ∃ z, Truncated (number F b) z ∧ ¬ (t.min ≤ z ∧ z ≤ t.max)))) := by
  rw [unbox_real wide hl]
  constructor
  · rintro (rfl | rfl) <;> rfl
  · intro h1 h2
    have h3 : floatAs F b (.int t) = truncTo F t b := by cases t <;> first | rfl | exact absurd rfl h1 | exact absurd rfl h2
    have k := truncated_tdiv (FltModel.val F b) (Rnd.places F)
    rw [← FloatExpr.number_val] at k
    rw [h3]
    unfold truncTo
    rw [Int.toNat_natCast, unit_places hl]
    simp only []
    constructor
    · intro h
      split at h
      · left; assumption
      · split at h
        · cases h
        · right; exact ⟨_, k, by assumption⟩
    · rintro (h | ⟨z, hz, hr⟩)
      · rw [if_pos h]
      · split
        · rfl
        · rw [truncated_unique _ _ _ hz k] at hr
          rw [if_neg hr]

/-! ### To floating-point numbers -/

/-- **C134**: a boxed character or integer read as `Single` or `Double` is the number rounded to the type (to nearest, ties to even). -/
theorem C134_whole_to_real (wide : Bool) (s : BTy) (F : Fmt) (hl : Lib F) (v : Int) (hs : Whole s) (hb : s ≠ .bool) : ∃ b : Nat, unbox wide (box s v) (real F) = .ok b ∧ Rounded F v b :=
  ⟨_, real_tag wide hl s v hs hb, FloatExpr.ofInt_rounded hl v⟩

/-- 16777217 is no `Single`. -/
example : unbox true (box (.int .int32) 16777217) .single = .ok 0x4B800000 := by decide +kernel

theorem rounded_self {F : Fmt} (b : Nat) (h : b < 2 * F.S) (hn : classOf F b ≠ .nan) : Rounded F (number F b) b := by
  refine ⟨h, hn, fun c _ _ hne => Or.inl ?_⟩
  rw [sub_self, abs_zero]
  exact abs_pos.2 (sub_ne_zero.2 hne)

/-- **C134**: a boxed finite `Single` or `Double` read as `Single` or `Double` is the number rounded to the type; from `Single` to `Double` nothing is lost. -/
theorem C134_real_to_real (wide : Bool) (F G : Fmt) (hF : Lib F) (hG : Lib G) (b : Nat) (hf : FloatText.Finite F b) :
    ∃ c : Nat, unbox wide (box (real F) b) (real G) = .ok c ∧ Rounded G (number F b) c ∧ (F = sgl → number G c = number F b) := by
  have key : ∀ (F G : Fmt), Lib F → FloatText.Finite F b → Lib G → Rounded G (number F b) (FloatExpr.conv G F b) := fun F G h1 h2 h3 => FloatExpr.conv_rounded h1 h3 b h2
  rw [unbox_real wide hF]
  rcases hF with rfl | rfl <;> rcases hG with rfl | rfl
  · exact ⟨b, rfl, rounded_self b hf.1 hf.2.1, fun _ => rfl⟩
  · refine ⟨FloatExpr.conv sgl dbl b, ?_, key _ _ (Or.inl rfl) hf (Or.inr rfl), fun h => absurd h (by decide)⟩
    rw [real_sgl]
    show Res.ok (if dbl = sgl then (b : Int) else FloatExpr.conv sgl dbl (b : Int).toNat) = _
    rw [if_neg (by decide), Int.toNat_natCast]
  · refine ⟨FloatExpr.conv dbl sgl b, ?_, key _ _ (Or.inr rfl) hf (Or.inl rfl), fun _ => ?_⟩
    · rw [real_dbl]
      show Res.ok (if sgl = dbl then (b : Int) else FloatExpr.conv dbl sgl (b : Int).toNat) = _
      rw [if_neg (by decide), Int.toNat_natCast]
    · have hm := FloatText.finite_mag (Or.inr rfl) hf
      have hn : FltModel.nan sgl b = false := (FloatExpr.nan_false _).2 (by omega)
      obtain ⟨m, a1, a2, a3, a4, a5⟩ := FloatExpr.widen b hn
      obtain ⟨_, p1, p2⟩ := FloatExpr.wparts (FltModel.neg sgl b) a1 Rnd.bin_dbl
      rw [FloatText.number_parts, FloatText.number_parts, a2, p1, p2, a4 hm, Rnd.places_dbl, Rnd.places_sgl, Nat.cast_mul, Nat.cast_pow, Nat.cast_ofNat, show (1074 : Nat) = 149 + 925 from rfl, pow_add]
      have hW : (2 : ℚ) ^ 925 ≠ 0 := by positivity
      generalize (2 : ℚ) ^ 925 = W at *
      rw [mul_div_mul_right _ _ hW]
  · exact ⟨b, rfl, rounded_self b hf.1 hf.2.1, fun _ => rfl⟩

/-- 0.1 as a `Single`, and that as a `Double`. -/
example : unbox true (box .double 0x3FB999999999999A) .single = .ok 0x3DCCCCCD ∧ unbox true (box .single 0x3DCCCCCD) .double = .ok 0x3FB99999A0000000 := by decide +kernel

/-- **C134**: infinities keep their sign, NaN stays NaN. -/
theorem C134_special (wide : Bool) (F G : Fmt) (hF : Lib F) (hG : Lib G) (b : Nat) (hb : b < 2 * F.S) :
    ∃ c : Nat, unbox wide (box (real F) b) (real G) = .ok c ∧ (classOf F b = .nan → classOf G c = .nan) ∧ (classOf F b = .infinite → classOf G c = .infinite ∧ FltModel.neg G c = FltModel.neg F b) := by
  by_cases e : F = G
  · subst e
    refine ⟨b, ?_, id, fun h => ⟨h, rfl⟩⟩
    rw [unbox_real wide hF]
    rcases hF with rfl | rfl
    · rfl
    · rfl
  · refine ⟨FloatExpr.conv G F b, ?_, fun h => ?_, fun h => ?_⟩
    · rw [unbox_real wide hF]
      rcases hF with rfl | rfl <;> rcases hG with rfl | rfl
      · exact absurd rfl e
      · rw [real_sgl]
        show Res.ok (if dbl = sgl then (b : Int) else FloatExpr.conv sgl dbl (b : Int).toNat) = _
        rw [if_neg (by decide), Int.toNat_natCast]
      · rw [real_dbl]
        show Res.ok (if sgl = dbl then (b : Int) else FloatExpr.conv dbl sgl (b : Int).toNat) = _
        rw [if_neg (by decide), Int.toNat_natCast]
      · exact absurd rfl e
    · rw [FloatExpr.conv_nan _ _ ((FltProps.nan_class (FltProps.facts hF) b).2 h)]
      exact (FltProps.nan_class (FltProps.facts hG) _).1 (FloatExpr.NaN_nan hG).1
    · have hi : FltModel.mag F b = F.I := (FltProps.class_inf (FltProps.facts hF) b).1 h
      have hn : FltModel.nan F b = false := (FloatExpr.nan_false _).2 (by omega)
      obtain ⟨w1, w2, w3⟩ := FloatExpr.wparts (F := G) (m := G.I) (FltModel.neg F b) (Nat.le_refl _) (FloatText.lib_bin hG)
      unfold FloatExpr.conv
      rw [hn, if_neg (by decide), if_pos hi]
      exact ⟨(FltProps.class_inf (FltProps.facts hG) _).2 w3, w2⟩

example : unbox true (box .single 0xFF800000) .double = .ok 0xFFF0000000000000 ∧ unbox true (box .double 0x7FF8000000000001) .single = .ok 0x7FC00000 := by decide +kernel

/-! ### To truth values and characters -/

/-- **C134**: a boxed integer read as a truth value is whether it is not zero. -/
theorem C134_to_bool (wide : Bool) (s : Ty) (v : Int) : unbox wide (box (.int s) v) .bool = .ok (if v = 0 then 0 else 1) := by
  show Res.ok (if v ≠ 0 then (1 : Int) else 0) = _
  by_cases h : v = 0 <;> simp [h]

/-- **C134** (partial: the integer is a character code): a boxed integer read as a character has that code. Missing: `C134_char_refuted`. -/
theorem C134_to_char_partial (wide : Bool) (s : Ty) (v : Int) (h : 0 ≤ v ∧ v ≤ 65535) : unbox wide (box (.int s) v) .char = .ok v := by
  show Res.ok (if wide then wrapI32 v else wrapU16 v) = _
  cases wide <;> simp only [Bool.false_eq_true, if_false, if_true, wrapI32, wrapU16] <;> congr 1 <;> omega

example : unbox true (box (.int .int32) 65) .char = .ok 65 := by decide

/-- **C134** (refuted): where `wchar_t` has 32 bits no Int32 is reduced to 16 bits, so for every integer outside 0..65535 the result is no character of C#; where it has 16 bits the integer is reduced as in C#. -/
theorem C134_char_refuted (s : Ty) (v : Int) (h : Has (.int s) v) (h32 : Has (.int .int32) v) :
    unbox true (box (.int s) v) .char = .ok v ∧ (¬ (0 ≤ v ∧ v ≤ 65535) → ¬ Has .char v) ∧
    ∃ c, unbox false (box (.int s) v) .char = .ok c ∧ Has .char c ∧ ∃ k, c = v + k * 65536 := by
  have h' : -2147483648 ≤ v ∧ v ≤ 2147483647 := h32
  refine ⟨?_, fun h1 h2 => h1 h2, ?_⟩
  · show Res.ok (wrapI32 v) = _
    congr 1
    unfold wrapI32
    omega
  · refine ⟨wrapU16 v, rfl, ?_, -(v / 65536), ?_⟩
    · show 0 ≤ wrapU16 v ∧ wrapU16 v ≤ 65535
      unfold wrapU16; omega
    · unfold wrapU16; omega

/-- `(char)(65536 + 65)` is `'A'` in C#. -/
example : Has (.int .int32) 65601 ∧ unbox true (box (.int .int32) 65601) .char = .ok 65601 ∧ unbox false (box (.int .int32) 65601) .char = .ok 65 := by
  refine ⟨⟨by decide, by decide⟩, by decide, by decide⟩

end Verif.Box
