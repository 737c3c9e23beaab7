import Verif.SBExact
import Verif.StringModel
set_option linter.unusedSimpArgs false
/-!
# C196: appending and inserting an object, for every builder, index and object

`Append(Object*)` is `StrModel.appendObj`. New here: `Insert(index, Object*)`. An object is represented by what its `ToString()` returns, `none` being the null pointer.
-/
namespace Verif.SBModel
open SBSpec StrModel

/-- StringBuilder.cpp lines 398-400 (`Insert(index, Object*)`): `Insert(index, value->ToString())` with the header's default count 1 (StringBuilder.h); a null object is dereferenced. -/
def insertObj (s : SB) (index : Int) : Option WStr → Out
  | none => .ub
  | some t => insertStr s index (some t) 1

/-! ## Proof -/

theorem insertText_nil_free {s : SB} {i : Int} {v : WStr} (hv : v ≠ []) : insertObj s i (some v) = insertText s i v := by
  have hn : v.length ≠ 0 := fun h => hv (List.length_eq_zero_iff.mp h)
  have h1 : ∀ o : Out, o.andThen (insertLoop i v 0) = o := by intro o; cases o <;> rfl
  show insertLoop i v 1 s = insertText s i v
  rw [insertLoop, if_neg hn, h1]
  unfold insertText appendRaw
  have ht : ((v ++ [0]).take ((v.length : Int)).toNat) = v.take ((v.length : Int)).toNat := by simp
  have hc : ((v.length : Int) < 0 ∨ (v.length : Int) > (v ++ [0]).length) ↔ ((v.length : Int) < 0 ∨ (v.length : Int) > v.length) := by simp; omega
  simp only [ht, hc]

theorem appendObj_text {s : SB} {v : WStr} : appendObj s (some v) = insertText s (-1) v := by
  show appendStr s (some v) 0 (-1) = _
  unfold appendStr
  have h1 : (if (-1 : Int) < 0 then (v.length : Int) else -1) = v.length := if_pos (by decide)
  simp only [h1]
  rw [if_neg (by decide), if_neg (by omega)]
  unfold insertText appendRaw
  have ht : (((v ++ [0]).drop (0 : Int).toNat).take ((v.length : Int)).toNat) = v.take ((v.length : Int)).toNat := by simp
  have hc : ((v.length : Int) < 0 ∨ (v.length : Int) > ((v ++ [0]).drop (0 : Int).toNat).length) ↔ ((v.length : Int) < 0 ∨ (v.length : Int) > v.length) := by simp; omega
  simp only [ht, hc]

/-- What adding the text `v` at position `p` of a builder holding `xs` does, in all cases. -/
def Adds (s : SB) (xs v : WStr) (p : Int) (o : Out) : Prop :=
  (o = .ub ↔ AddUndefined s v.length p) ∧
  (p > xs.length → o = .threw .indexOutOfRange s) ∧
  (p ≤ xs.length → ¬ AddUndefined s v.length p → Refused s (xs.length + v.length) → o = .threw .argumentOutOfRange s) ∧
  (p ≤ xs.length → ¬ AddUndefined s v.length p → ¬ Refused s (xs.length + v.length) →
    ∃ s', o = .done s' ∧ toStr s' = .ok (xs.take p.toNat ++ v ++ xs.drop p.toNat) ∧ s'.maxCap = s.maxCap ∧ s'.len = xs.length + v.length)

theorem insertText_adds {ov : Bool} {s : SB} (h : SBProps.AnyReach ov s) {xs : WStr} (hx : toStr s = .ok xs) (i : Int) (v : WStr) :
    Adds s xs v (position s i) (insertText s i v) := by
  have hi := anyReach_inv h
  have hll := hi.len_le
  have hxs : content s = xs := by rw [toStr_ok hi] at hx; injection hx
  have hlen : xs.length = s.len := by rw [← hxs]; unfold content; simp; omega
  have hu := C174_undefined_exact h (.insertText i v)
  refine ⟨hu, fun hp => ?_, fun hp hd hr => ?_, fun hp hd hr => ?_⟩
  · unfold insertText appendRaw
    simp only []
    unfold position at hp
    rw [if_pos (by omega)]
  · have h2 : (s.len : Int) + v.length ≤ 2147483647 := by unfold AddUndefined at hd; omega
    rw [hlen] at hr hp
    unfold insertText appendRaw
    simp only []
    unfold position at hp
    rw [if_neg (by omega)]
    unfold ensureRoomFor
    rw [if_neg (by unfold I32; omega), ensure_refused (by omega) hr]
    rfl
  · rw [hlen] at hr hp
    have h0 : (s.len : Int) + v.length ≤ 2147483520 ∧ 0 ≤ position s i := by
      unfold AddUndefined at hd
      by_cases h1 : (s.len : Int) + v.length ≤ 2147483520 ∧ 0 ≤ position s i
      · exact h1
      · exact absurd ⟨hp, .inr ⟨hr, by omega⟩⟩ hd
    have h3 : 0 ≤ i ∨ i = -1 := by have := h0.2; unfold position at this; split at this <;> omega
    rcases appendRaw_spec (values := v) (n := v.length) (whr := i) hi (by omega) (by omega) h3 (by unfold limit; omega) with ⟨_, hc⟩ | ⟨_, _, hc, hc2⟩ | ⟨t, ht, _, htl, he, _⟩
    · unfold position at hp; split at hp <;> omega
    · exact absurd ⟨by omega, by omega⟩ hr
    · refine ⟨t, ht, ?_, ?_, ?_⟩
      · rw [toStr_ok he.inv, he.text, hxs]
        unfold insertAt position
        simp
      · exact he.max
      · omega

/-! ## C196 -/

/-- **C196**: what `Append(Object*)` does with every builder and object. -/
theorem C196_append_object_exact {ov : Bool} {s : SB} (h : SBProps.AnyReach ov s) {xs : WStr} (hx : toStr s = .ok xs) :
    (appendObj s none = .ub) ∧ ∀ v : WStr, Adds s xs v xs.length (appendObj s (some v)) := by
  refine ⟨rfl, fun v => ?_⟩
  have hi := anyReach_inv h
  have hll := hi.len_le
  have hxs : content s = xs := by rw [toStr_ok hi] at hx; injection hx
  have hlen : xs.length = s.len := by rw [← hxs]; unfold content; simp; omega
  rw [appendObj_text, hlen]
  exact insertText_adds h hx (-1) v

/-- **C196**: what `Insert(index, Object*)` does with every builder, index and object: an empty text is always refused, any other is added at the index. -/
theorem C196_insert_object_exact {ov : Bool} {s : SB} (h : SBProps.AnyReach ov s) {xs : WStr} (hx : toStr s = .ok xs) (i : Int) :
    (insertObj s i none = .ub) ∧ (insertObj s i (some []) = .threw .indexOutOfRange s) ∧
    ∀ v : WStr, v ≠ [] → Adds s xs v (position s i) (insertObj s i (some v)) := by
  refine ⟨rfl, rfl, fun v hv => ?_⟩
  rw [insertText_nil_free hv]
  exact insertText_adds h hx i v

/-- "abc" with a text put in at 1, at the end by -1, beyond the end, and an empty text; a builder of MaxCapacity 4 refuses two more than it holds. -/
example : SBProps.AnyReach true SBProps.exAbc ∧ toStr SBProps.exAbc = .ok (w "abc") ∧
    toStr (SBProps.after (insertObj SBProps.exAbc 1 (some (w "xy")))) = .ok (w "axybc") ∧
    toStr (SBProps.after (insertObj SBProps.exAbc (-1) (some (w "xy")))) = .ok (w "abcxy") ∧
    toStr (SBProps.after (appendObj SBProps.exAbc (some (w "xy")))) = .ok (w "abcxy") ∧
    insertObj SBProps.exAbc 4 (some (w "xy")) = .threw .indexOutOfRange SBProps.exAbc ∧
    insertObj SBProps.exAbc 1 (some []) = .threw .indexOutOfRange SBProps.exAbc ∧
    insertObj SBProps.exAbc (-2) (some (w "xy")) = .ub ∧ AddUndefined SBProps.exAbc 2 (-2) ∧
    ¬ AddUndefined SBProps.exAbc 2 1 ∧ ¬ Refused SBProps.exAbc 5 := by
  refine ⟨.from (v := some (w "abc")) (i := 0) (n := 3) (c := 128) (by decide +kernel), ?_⟩
  refine ⟨by decide +kernel, by decide +kernel, by decide +kernel, by decide +kernel, by decide +kernel, by decide +kernel, by decide +kernel, ?_, ?_, ?_⟩ <;>
    (simp only [AddUndefined, Refused]; decide +kernel)

/-- A builder of MaxCapacity 4 refuses a text of five characters and stays as it was. -/
example : ∃ s, SBProps.AnyReach true s ∧ Refused s 5 ∧ ¬ AddUndefined s 5 0 ∧ appendObj s (some (w "abcde")) = .threw .argumentOutOfRange s :=
  ⟨SBProps.after (create 4 4), .new (c := 4) (m := 4) (by decide) (by decide +kernel), by simp only [Refused]; decide +kernel,
   by simp only [AddUndefined, Refused]; decide +kernel, by decide +kernel⟩

/-- **C196**: unlike `Insert`, `Append(Object*)` accepts an empty text and leaves the builder's text alone, whenever Length does not exceed Capacity. -/
theorem C196_append_empty {ov : Bool} {s : SB} (h : SBProps.AnyReach ov s) {xs : WStr} (hx : toStr s = .ok xs) (hc : xs.length ≤ s.cap) :
    ∃ s', appendObj s (some []) = .done s' ∧ toStr s' = .ok xs := by
  have hi := anyReach_inv h
  have hll := hi.len_lim
  have hcl := hi.cap_lim
  obtain ⟨_, _, _, h4⟩ := (C196_append_object_exact h hx).2 []
  obtain ⟨t, ht, hs, _⟩ := h4 (by omega) (by unfold AddUndefined Refused; simp; omega) (by unfold Refused; simp; omega)
  exact ⟨t, ht, by simpa using hs⟩

end Verif.SBModel
