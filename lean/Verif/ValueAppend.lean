import Verif.FormatExact
import Verif.SBObject
import Verif.IntSpec
import Verif.FloatTextProps
import Verif.ConstProps
set_option linter.unusedSimpArgs false
/-!
# C200: appending and inserting numbers, Booleans and characters, for every builder, index and value

New here: `Append(ValueType&, index)`, through which all typed overloads of `Append` and `Insert` go, and `FormatString` of the integer and real types, on a system with ISO C's `swprintf` (not MinGW's, which takes no size).
-/
namespace Verif.SBModel
open SBSpec StrModel BCModel StrProps

/-- `swprintf(where, size, ...)` for a conversion with the given text (ISO C 7.29.2.3; a negative Int32 becomes a huge `size_t`): text and NUL are written if they fit the stated size; else a negative number is returned and the
memory then holds `over`, about which nothing is assumed. -/
def swprintf (text : WStr) (over mem : List Nat) (size : Int) : Res (List Nat × Int) :=
  if 0 ≤ size ∧ size ≤ text.length then .ok (over, -1)
  else if text.length < mem.length then .ok (text ++ 0 :: mem.drop (text.length + 1), (text.length : Int))
  else .ub

/-- SByteValue.cpp, Int16Value.cpp, UInt16Value.cpp, Int32Value.cpp, UInt32Value.cpp, Int64Value.cpp, UInt64Value.cpp lines 82-89, ByteValue.cpp lines 81-87: `FormatString` with `%d`, `%u`, `%lld`, `%llu`. -/
def intFormat (x : Int) (over mem : List Nat) (size : Int) : Res (List Nat × Int) := swprintf (decInt x) over mem size

/-- DoubleValue.cpp lines 128-134, SingleValue.cpp lines 135-141: `FormatString` with `%G`. -/
def realFormat (F : FltModel.Fmt) (b : Nat) (over mem : List Nat) (size : Int) : Res (List Nat × Int) := swprintf (FloatText.format F b) over mem size

/-- StringBuilder.cpp lines 226-230: `Append(ValueType& value, index)`: `FormatString` into 128 cells on the stack whose contents are indeterminate, then `Append(str, size, index)`. -/
def appendValue (s : SB) (index : Int) (fmt : List Nat → Int → Res (List Nat × Int)) (garbage : List Nat) : Out :=
  match fmt garbage 128 with
  | .ok (m, n) => appendRaw s m n index
  | .throw e => .threw e s
  | .ub => .ub

/-! ## Proof -/

theorem appendRaw_take {s : SB} {m : WStr} {n i : Int} (h0 : 0 ≤ n) (hn : n ≤ m.length) : appendRaw s m n i = insertText s i (m.take n.toNat) := by
  unfold insertText appendRaw
  have hl : (((m.take n.toNat).length : Nat) : Int) = n := by rw [List.length_take]; omega
  have ht : (m.take n.toNat).take n.toNat = m.take n.toNat := by rw [List.take_take, Nat.min_self]
  have hc : (n < 0 ∨ n > m.length) ↔ (n < 0 ∨ n > n) := by omega
  rw [hl]
  simp only [ht, hc]

theorem swprintf_append {s : SB} {i : Int} {t over g : WStr} (hg : g.length = 128) (ht : t.length < 128) : appendValue s i (swprintf t over) g = insertText s i t := by
  unfold appendValue swprintf
  rw [if_neg (by omega), if_pos (by omega)]
  simp only []
  rw [appendRaw_take (by omega) (by simp; omega), show ((t.length : Nat) : Int).toNat = t.length by omega, List.take_left' rfl]

theorem decInt_short {ty : IntVal.Ty} {x : Int} (h : IntVal.InTy ty x) : (decInt x).length ≤ 20 := by
  have hb : x.natAbs < 10 ^ 20 ∧ (x < 0 → x.natAbs < 10 ^ 19) := by
    unfold IntVal.InTy IntVal.Ty.min IntVal.Ty.max at h
    cases ty <;> simp only [] at h <;> omega
  unfold decInt
  split
  · have := FloatText.dec_length 18 x.natAbs (hb.2 ‹_›)
    simp; omega
  · exact FloatText.dec_length 19 x.toNat (by have := hb.1; omega)

/-! ## C200 -/

/-- `t` is the decimal numeral of `x`: a minus sign exactly for a negative number, then digits that denote its magnitude. -/
def DecimalOf (x : Int) (t : WStr) : Prop :=
  ∃ ds : WStr, t = (if x < 0 then 45 :: ds else ds) ∧ ds ≠ [] ∧ (∀ c ∈ ds, isDigit c = true) ∧ numeral ds = x.natAbs ∧ (ds.head? = some 48 → x = 0)

/-- **C200**, integers of all eight types: the decimal numeral is added, whatever was on the stack. -/
theorem C200_integer {ov : Bool} {s : SB} (h : SBProps.AnyReach ov s) {xs : WStr} (hx : toStr s = .ok xs) (ty : IntVal.Ty) (x : Int) (hty : IntVal.InTy ty x)
    (over g : List Nat) (hg : g.length = 128) (i : Int) :
    ∃ t, DecimalOf x t ∧ t.length ≤ 20 ∧ Adds s xs t (position s i) (appendValue s i (intFormat x over) g) := by
  have hl := decInt_short hty
  refine ⟨decInt x, ?_, hl, ?_⟩
  · unfold decInt
    by_cases hneg : x < 0
    · rw [if_pos hneg]
      refine ⟨dec x.natAbs, by rw [if_pos hneg], dec_ne_nil _, dec_digits _, numeral_dec _, fun h => ?_⟩
      have := Const.dec_head _ h; omega
    · rw [if_neg hneg]
      refine ⟨dec x.toNat, by rw [if_neg hneg], dec_ne_nil _, dec_digits _, by rw [numeral_dec]; omega, fun h => ?_⟩
      have := Const.dec_head _ h; omega
  · have e : appendValue s i (intFormat x over) g = insertText s i (decInt x) := swprintf_append hg (by omega)
    rw [e]
    exact insertText_adds h hx i _

/-- **C200**, Booleans: "True" or "False" is added. -/
theorem C200_boolean {ov : Bool} {s : SB} (h : SBProps.AnyReach ov s) {xs : WStr} (hx : toStr s = .ok xs) (b : Bool) (g : List Nat) (hg : g.length = 128) (i : Int) :
    Adds s xs (if b then w "True" else w "False") (position s i) (appendValue s i (boolFormat b) g) := by
  have hf : ∀ t : WStr, t.length ≤ 5 → Cutting t g 128 = .ok (t ++ 0 :: g.drop (t.length + 1), (t.length : Int)) := by
    intro t ht
    unfold Cutting written
    rw [if_neg (by omega), if_neg (by omega)]
  have e : appendValue s i (boolFormat b) g = insertText s i (if b then w "True" else w "False") := by
    unfold appendValue
    rw [C199_boolean, hf _ (by cases b <;> decide)]
    simp only []
    rw [appendRaw_take (by omega) (by simp; omega), show ∀ n : Nat, (n : Int).toNat = n by omega, List.take_left' rfl]
  rw [e]
  exact insertText_adds h hx i _

/-- **C200**, characters through a boxed Char: the character is added. -/
theorem C200_char {ov : Bool} {s : SB} (h : SBProps.AnyReach ov s) {xs : WStr} (hx : toStr s = .ok xs) (c : Nat) (g : List Nat) (hg : g.length = 128) (i : Int) :
    Adds s xs [c] (position s i) (appendValue s i (charFormat c) g) := by
  have e : appendValue s i (charFormat c) g = insertText s i [c] := by
    unfold appendValue charFormat poke
    rw [if_neg (by decide), if_pos ⟨by decide, by simp only [List.length_singleton]; omega⟩]
    simp only []
    rw [appendRaw_take (by decide) (by simp only [List.length_append, List.length_singleton]; omega)]
    rfl
  rw [e]
  exact insertText_adds h hx i _

/-- **C200**, Doubles and Singles: what their ToString returns is added; for every finite value that is a text (C128). -/
theorem C200_real {ov : Bool} {s : SB} (h : SBProps.AnyReach ov s) {xs : WStr} (hx : toStr s = .ok xs) (F : FltModel.Fmt) (b : Nat) {t : WStr} (ht : FloatText.toString F b = .ok t)
    (over g : List Nat) (hg : g.length = 128) (i : Int) : Adds s xs t (position s i) (appendValue s i (realFormat F b over) g) := by
  unfold FloatText.toString at ht
  by_cases hl : (FloatText.format F b).length < 128
  · rw [if_pos hl] at ht
    injection ht with ht
    have e : appendValue s i (realFormat F b over) g = insertText s i t := by rw [← ht]; exact swprintf_append hg hl
    rw [e]
    exact insertText_adds h hx i _
  · rw [if_neg hl] at ht; cases ht

/-- "abc" with -12 put in at 1, True appended, a character put in and 0.5 appended. -/
example : SBProps.AnyReach true SBProps.exAbc ∧ toStr SBProps.exAbc = .ok (w "abc") ∧ IntVal.InTy .int32 (-12) ∧
    toStr (SBProps.after (appendValue SBProps.exAbc 1 (intFormat (-12) []) (List.replicate 128 7))) = .ok (w "a-12bc") ∧
    toStr (SBProps.after (appendValue SBProps.exAbc (-1) (boolFormat true) (List.replicate 128 7))) = .ok (w "abcTrue") ∧
    toStr (SBProps.after (appendValue SBProps.exAbc 0 (charFormat 120) (List.replicate 128 7))) = .ok (w "xabc") ∧
    FloatText.toString FltModel.dbl 0x3FE0000000000000 = .ok (w "0.5") ∧
    toStr (SBProps.after (appendValue SBProps.exAbc (-1) (realFormat FltModel.dbl 0x3FE0000000000000 []) (List.replicate 128 7))) = .ok (w "abc0.5") :=
  ⟨.from (v := some (w "abc")) (i := 0) (n := 3) (c := 128) (by decide +kernel), by decide +kernel, by unfold IntVal.InTy; decide, by decide +kernel, by decide +kernel, by decide +kernel, by decide +kernel, by decide +kernel⟩

end Verif.SBModel
