import Verif.SBExact
import Verif.StringProps
import Verif.BoolCharModel
set_option linter.unusedSimpArgs false
/-!
# C199: what FormatString does with every buffer and every stated size

New here: `FormatString` of StringBuilder and of Object. `mem` is the memory behind the caller's pointer, `size` the size the caller states; the two need not agree.
-/
namespace Verif.SBModel
open SBSpec StrModel BCModel StrProps

/-- StringBuilder.cpp lines 182-187: `FormatString`: the block afterwards and the reported length. -/
def sbFormat (s : SB) (mem : List Nat) (whereSize : Int) : Res (List Nat × Int) :=
  if whereSize < s.len then .throw .indexOutOfRange
  else (copyChars mem whereSize s.buf s.len) >>= fun m => .ok (m, (s.len : Int))

/-- Object.cpp lines 44-47: `FormatString` of an object whose class has none of its own. -/
def objectFormat (mem : List Nat) (whereSize : Int) : Res (List Nat × Int) :=
  (copyChars mem whereSize (w "Object" ++ [0]) 6) >>= fun m => .ok (m, 6)

/-! ## Specification -/

/-- The text and a NUL over the first cells of the memory, the other cells unchanged. -/
def written (v : WStr) (mem : List Nat) : List Nat := v ++ 0 :: mem.drop (v.length + 1)

/-- Too small a stated size is refused; else text and NUL are written, undefined if the memory does not hold both. -/
def Refusing (v : WStr) (mem : List Nat) (size : Int) : Res (List Nat × Int) :=
  if size < v.length then .throw .indexOutOfRange
  else if mem.length ≤ v.length then .ub
  else .ok (written v mem, (v.length : Int))

/-- Too small a stated size cuts the text to one less than the size, but the length of the whole text is reported. -/
def Cutting (v : WStr) (mem : List Nat) (size : Int) : Res (List Nat × Int) :=
  if size < v.length then
    if size < 1 ∨ (mem.length : Int) < size then .ub else .ok (written (v.take (size - 1).toNat) mem, (v.length : Int))
  else if mem.length ≤ v.length then .ub
  else .ok (written v mem, (v.length : Int))

/-! ## Proof -/

theorem copyChars_exact (mem : List Nat) (size : Int) (src : List Nat) (n : Int) :
    copyChars mem size src n =
      (let m := if n > size then size - 1 else n
       if 0 ≤ m ∧ m ≤ src.length ∧ m < mem.length then .ok (written (src.take m.toNat) mem) else .ub) := by
  unfold copyChars
  simp only []
  generalize (if n > size then size - 1 else n) = m
  by_cases h1 : 0 ≤ m ∧ m ≤ src.length
  · rw [peek_some (by omega) h1.1 (by omega)]
    have e : (src.drop (0 : Int).toNat).take m.toNat = src.take m.toNat := by simp
    have hl : (src.take m.toNat).length = m.toNat := by simp; omega
    rw [e]
    simp only []
    by_cases h2 : m < mem.length
    · rw [if_pos ⟨h1.1, h1.2, h2⟩]
      unfold poke
      rw [if_pos ⟨by omega, by omega⟩]
      simp only []
      rw [if_pos ⟨h1.1, by simp only [List.length_append, List.length_take, List.length_drop, List.length_cons, List.length_nil]; omega⟩]
      simp only []
      congr 1
      unfold written
      generalize hv : src.take m.toNat = v at *
      have hm : m.toNat = v.length := hl.symm
      rw [hm]
      simp [List.take_append, List.drop_append]

    · rw [if_neg (by omega)]
      by_cases h3 : m ≤ mem.length
      · unfold poke
        rw [if_pos ⟨by omega, by omega⟩]
        simp only []
        rw [if_neg (by simp only [List.length_append, List.length_take, List.length_drop, List.length_cons, List.length_nil]; omega)]
      · unfold poke
        rw [if_neg (by omega)]
  · have : peek src 0 m = none := by unfold peek; rw [if_neg (by omega)]
    rw [this, if_neg (by omega)]

theorem refusing_of {v : WStr} {src mem : List Nat} {size : Int} (h : src.take v.length = v) (hl : v.length ≤ src.length) :
    (if size < v.length then (.throw .indexOutOfRange : Res (List Nat × Int)) else (copyChars mem size src v.length) >>= fun m => .ok (m, (v.length : Int))) = Refusing v mem size := by
  unfold Refusing
  by_cases h1 : size < v.length
  · rw [if_pos h1, if_pos h1]
  rw [if_neg h1, if_neg h1, copyChars_exact]
  simp only []
  rw [if_neg (show ¬ (v.length : Int) > size by omega)]
  by_cases h2 : mem.length ≤ v.length
  · rw [if_neg (by omega), if_pos h2]; rfl
  · rw [if_pos (by omega), if_neg h2, show (v.length : Int).toNat = v.length by omega, h]; rfl

theorem cutting_of {v : WStr} {mem : List Nat} {size : Int} :
    ((copyChars mem size (v ++ [0]) v.length) >>= fun m => .ok (m, (v.length : Int)) : Res (List Nat × Int)) = Cutting v mem size := by
  unfold Cutting
  rw [copyChars_exact]
  simp only []
  by_cases h1 : size < v.length
  · rw [if_pos (show (v.length : Int) > size from h1), if_pos h1]
    by_cases h2 : size < 1 ∨ (mem.length : Int) < size
    · rw [if_neg (by omega), if_pos h2]; rfl
    · rw [if_pos (by simp; omega), if_neg h2, List.take_append_of_le_length (by omega)]; rfl
  · rw [if_neg (show ¬ (v.length : Int) > size by omega), if_neg h1]
    by_cases h2 : mem.length ≤ v.length
    · rw [if_neg (by omega), if_pos h2]; rfl
    · rw [if_pos (by simp; omega), if_neg h2, show (v.length : Int).toNat = v.length by omega, List.take_append_of_le_length (by omega), List.take_length]; rfl

/-! ## C199 -/

/-- **C199**, String: refuses a stated size below the length, else writes text and NUL. -/
theorem C199_string (v : WStr) (mem : List Nat) (size : Int) : formatString v mem size = Refusing v mem size :=
  refusing_of (src := cells v) (by simp [cells]) (by simp [cells])

/-- **C199**, StringBuilder, after any history of calls: the same. -/
theorem C199_builder {ov : Bool} {s : SB} (h : SBProps.AnyReach ov s) {xs : WStr} (hx : toStr s = .ok xs) (mem : List Nat) (size : Int) :
    sbFormat s mem size = Refusing xs mem size := by
  have hi := anyReach_inv h
  have hll := hi.len_le
  have hxs : content s = xs := by rw [toStr_ok hi] at hx; injection hx
  have hlen : xs.length = s.len := by rw [← hxs]; unfold content; simp; omega
  unfold sbFormat
  rw [← hlen]
  exact refusing_of (by rw [hlen]; exact hxs) (by omega)

/-- **C199**, Boolean: cuts the text to the stated size and still reports the whole length. -/
theorem C199_boolean (b : Bool) (mem : List Nat) (size : Int) : boolFormat b mem size = Cutting (if b then w "True" else w "False") mem size := by
  cases b
  · exact cutting_of (v := w "False")
  · exact cutting_of (v := w "True")

/-- **C199**, Object: likewise with the text "Object". -/
theorem C199_object (mem : List Nat) (size : Int) : objectFormat mem size = Cutting (w "Object") mem size :=
  cutting_of (v := w "Object")

/-- **C199**, an honest size: String and StringBuilder throw exactly for longer texts, and are undefined exactly for a text that fills the buffer. -/
theorem C199_honest_refusing (v : WStr) (mem : List Nat) :
    (Refusing v mem mem.length = .throw .indexOutOfRange ↔ mem.length < v.length) ∧ (Refusing v mem mem.length = .ub ↔ mem.length = v.length) ∧
    (Refusing v mem mem.length = .ok (written v mem, (v.length : Int)) ↔ v.length < mem.length) := by
  unfold Refusing
  rcases Nat.lt_trichotomy mem.length v.length with h | h | h
  · rw [if_pos (by omega)]; refine ⟨⟨fun _ => h, fun _ => rfl⟩, ⟨fun h' => (by cases h'), fun h' => (by omega)⟩, ⟨fun h' => (by cases h'), fun h' => (by omega)⟩⟩
  · rw [if_neg (by omega), if_pos (by omega)]; refine ⟨⟨fun h' => (by cases h'), fun h' => (by omega)⟩, ⟨fun _ => h, fun _ => rfl⟩, ⟨fun h' => (by cases h'), fun h' => (by omega)⟩⟩
  · rw [if_neg (by omega), if_neg (by omega)]; refine ⟨⟨fun h' => (by cases h'), fun h' => (by omega)⟩, ⟨fun h' => (by cases h'), fun h' => (by omega)⟩, ⟨fun _ => h, fun _ => rfl⟩⟩

/-- **C199**, an honest size: Boolean and Object never throw, are undefined exactly for an empty buffer and for one as long as the text, and otherwise leave a terminated text in the buffer, which has the reported length exactly
if the buffer is longer than the text. -/
theorem C199_honest_cutting (v : WStr) (mem : List Nat) :
    (Cutting v mem mem.length = .ub ↔ mem.length = 0 ∨ mem.length = v.length) ∧
    (¬ (mem.length = 0 ∨ mem.length = v.length) → ∃ t rest, Cutting v mem mem.length = .ok (t ++ 0 :: rest, (v.length : Int)) ∧ t <+: v ∧
      (t ++ 0 :: rest).length = mem.length ∧ (t.length = v.length ↔ v.length < mem.length)) := by
  unfold Cutting
  by_cases h1 : mem.length < v.length
  · rw [if_pos (by omega)]
    by_cases h0 : mem.length = 0
    · rw [if_pos (by omega)]
      exact ⟨⟨fun _ => .inl h0, fun _ => rfl⟩, fun h => absurd (.inl h0) h⟩
    · rw [if_neg (by omega)]
      refine ⟨⟨fun h => (by cases h), fun h => (by omega)⟩, fun _ => ⟨_, _, rfl, List.take_prefix _ _, ?_, ?_⟩⟩
      · simp; omega
      · simp; omega
  · rw [if_neg (by omega)]
    by_cases h2 : mem.length ≤ v.length
    · rw [if_pos h2]
      exact ⟨⟨fun _ => .inr (by omega), fun _ => rfl⟩, fun h => absurd (.inr (by omega)) h⟩
    · rw [if_neg h2]
      refine ⟨⟨fun h => (by cases h), fun h => (by omega)⟩, fun _ => ⟨_, _, rfl, List.prefix_refl _, ?_, ?_⟩⟩
      · simp; omega
      · simp; omega

/-- Buffers of two, three and four cells for "abc" and "True". -/
example : formatString (w "abc") [9, 9] 2 = .throw .indexOutOfRange ∧ formatString (w "abc") [9, 9, 9] 3 = .ub ∧ formatString (w "abc") [9, 9, 9, 9, 9] 3 = .ok (w "abc" ++ [0, 9], 3) ∧
    boolFormat true [9, 9, 9] 3 = .ok (w "Tr" ++ [0], 4) ∧ boolFormat true [9, 9, 9, 9] 4 = .ub ∧ objectFormat [9, 9] 0 = .ub ∧
    SBProps.AnyReach true SBProps.exAbc ∧ toStr SBProps.exAbc = .ok (w "abc") ∧ sbFormat SBProps.exAbc [9, 9, 9, 9] 4 = .ok (w "abc" ++ [0], 3) :=
  ⟨by decide +kernel, by decide +kernel, by decide +kernel, by decide +kernel, by decide +kernel, by decide +kernel,
   .from (v := some (w "abc")) (i := 0) (n := 3) (c := 128) (by decide +kernel), by decide +kernel, by decide +kernel⟩

end Verif.SBModel
