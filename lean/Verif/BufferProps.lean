import Verif.BufferModel
import Verif.ArrayProps
import Verif.StringBuilderProps
set_option linter.unusedSimpArgs false
set_option linter.unusedVariables false
/-!
# Properties of Buffer and BitConverter: C44, C45, C46
-/
namespace Verif.BufProps
open ArrModel ArrSpec ArrProps BufModel
open SBModel (peek poke peek_some poke_some)
open IntVal (Ty)

/-! ## Buffer -/

theorem addr0 {A : Int} {a : Arr} (h : HasShape (.one A) a) (hA : 0 < A) : address a 0 (-1) (-1) = .ok 0 := by
  have := (addressOf_ok h (ix := .one 0) ⟨Int.le_refl 0, hA⟩).1
  unfold addressOf at this
  simp only [Idx.args, rowMajor, Int.zero_mul] at this
  exact this

theorem addr0_empty {a : Arr} (h : HasShape (.one 0) a) : address a 0 (-1) (-1) = .throw .indexOutOfRange := by
  have h1 : a.dims = 1 := h.dims
  have h2 : a.d1 = 0 := h.d1
  unfold address computeIndex
  rw [h1, h2, if_pos rfl, if_neg (by omega), if_pos (by omega)]
  rfl

/-- A one-dimensional array of a primitive element type: what the functions of Buffer accept. -/
structure Bytes (A : Int) (a : Arr) : Prop where
  shape : HasShape (.one A) a
  prim : a.ty.isPrimitive = true

/-- **C44**: `ByteLength` is the element count times the element size. -/
theorem C44_byte_length {A : Int} {a : Arr} (h : Bytes A a) : byteLength (some a) = .ok (A * a.ty.size) ∧ A * a.ty.size = a.data.length := by
  have h1 : a.dims = 1 := h.shape.dims
  have h2 : a.total = A := h.shape.total
  have h3 : A * a.ty.size ≤ 2147483647 := h.shape.fitsBytes
  have h4 : (a.data.length : Int) = A * a.ty.size := h.shape.bytes
  unfold byteLength ensureSingle
  simp only []
  rw [h.prim, if_neg (by simp), if_neg (by omega), Res.bind_ok, h2, i32_ok (by unfold I32; omega)]
  exact ⟨rfl, h4.symm⟩

example : Bytes 2 (mk1 (.int .int32) 2 [1, 2, 3, 4, 5, 6, 7, 8]) ∧ byteLength (some (mk1 (.int .int32) 2 [1, 2, 3, 4, 5, 6, 7, 8])) = .ok 8 :=
  ⟨⟨⟨by decide, rfl, rfl, rfl, rfl, rfl, rfl, by decide, by decide⟩, rfl⟩, by decide +kernel⟩

theorem pos_of_byte {A : Int} {a : Arr} (h : Bytes A a) {i : Int} (h0 : 0 ≤ i) (h1 : i < A * a.ty.size) : 0 < A := by
  have hn : 0 ≤ A := h.shape.nonneg
  rcases (show A = 0 ∨ 0 < A by omega) with e | e
  · subst e; omega
  · exact e

theorem getByte_eq {A : Int} {a : Arr} (h : Bytes A a) {i : Int} (h0 : 0 ≤ i) (h1 : i < A * a.ty.size) :
    ∃ x, getByte (some a) i = .ok x ∧ a.data[i.toNat]? = some x := by
  have hl := C44_byte_length h
  have hA := pos_of_byte h h0 h1
  have hlt : i.toNat < a.data.length := by omega
  refine ⟨a.data[i.toNat], ?_, List.getElem?_eq_getElem hlt⟩
  unfold getByte
  rw [hl.1, Res.bind_ok, if_neg (by omega)]
  simp only []
  rw [addr0 h.shape hA, Res.bind_ok, peek_some (by omega) (by omega) (by omega)]
  have : List.take (1 : Int).toNat (List.drop (0 + i).toNat a.data) = [a.data[i.toNat]] := by
    rw [Int.zero_add, List.drop_eq_getElem_cons hlt]; rfl
  rw [this]

/-- **C44**: `GetByte` answers the byte at the given position of the storage, for every position inside it, and throws
ArgumentOutOfRange behind it. -/
theorem C44_get_byte {A : Int} {a : Arr} (h : Bytes A a) (i : Int) (h0 : 0 ≤ i) :
    (i < A * a.ty.size → ∃ x, getByte (some a) i = .ok x ∧ a.data[i.toNat]? = some x) ∧
    (A * a.ty.size ≤ i → getByte (some a) i = .throw .argumentOutOfRange) := by
  refine ⟨getByte_eq h h0, fun h1 => ?_⟩
  unfold getByte
  rw [(C44_byte_length h).1, Res.bind_ok, if_pos (by omega)]

example : getByte (some (mk1 (.int .int16) 2 [1, 2, 3, 4])) 2 = .ok 3 ∧ getByte (some (mk1 (.int .int16) 2 [1, 2, 3, 4])) 4 = .throw .argumentOutOfRange := by
  decide +kernel

/-- **C44** is false of the code: a negative index is not refused; it reads memory in front of the array. -/
theorem C44_get_byte_negative_refuted {A : Int} {a : Arr} (h : Bytes A a) (hA : 0 < A) (i : Int) (hi : i < 0) : getByte (some a) i = .ub := by
  have hl := C44_byte_length h
  unfold getByte
  rw [hl.1, Res.bind_ok, if_neg (by omega)]
  simp only []
  rw [addr0 h.shape hA, Res.bind_ok]
  have : peek a.data (0 + i) 1 = none := by unfold SBModel.peek; rw [if_neg (by omega)]
  rw [this]

/-- **C44** is false of the code: a negative index in `SetByte` writes memory in front of the array. -/
theorem C44_set_byte_negative_refuted {A : Int} {a : Arr} (h : Bytes A a) (hA : 0 < A) (i : Int) (hi : i < 0) (v : Nat) : setByte (some a) i v = .ub := by
  have hl := C44_byte_length h
  unfold setByte
  rw [hl.1, Res.bind_ok, if_neg (by omega)]
  simp only []
  rw [addr0 h.shape hA, Res.bind_ok]
  have : poke a.data (0 + i) [v] = none := by unfold SBModel.poke; rw [if_neg (by omega)]
  rw [this]

theorem withData {A : Int} {a : Arr} (h : Bytes A a) {m : List Nat} (hm : m.length = a.data.length) : Bytes A { a with data := m } :=
  ⟨⟨h.shape.nonneg, h.shape.d1, h.shape.d2, h.shape.d3, h.shape.dims, h.shape.total, by show (m.length : Int) = _; rw [hm]; exact h.shape.bytes,
    h.shape.fits, h.shape.fitsBytes⟩, h.prim⟩

/-- Two arrays of the same size with the same byte there answer `GetByte` the same. -/
theorem getByte_congr {A B : Int} {a b : Arr} (ha : Bytes A a) (hb : Bytes B b) {i j : Int} (h0 : 0 ≤ i) (h1 : i < A * a.ty.size)
    (h2 : 0 ≤ j) (h3 : j < B * b.ty.size) (e : a.data[i.toNat]? = b.data[j.toNat]?) : getByte (some a) i = getByte (some b) j := by
  obtain ⟨x, hx, ex⟩ := getByte_eq ha h0 h1
  obtain ⟨y, hy, ey⟩ := getByte_eq hb h2 h3
  rw [ex, ey] at e
  rw [hx, hy]; injection e with e; rw [e]

/-- **C44** (partial: non-negative indices). `SetByte(i, v)` makes `GetByte(i)` answer `v` and changes no other byte. -/
theorem C44_set_byte_partial {A : Int} {a : Arr} (h : Bytes A a) (i : Int) (h0 : 0 ≤ i) (v : Nat) :
    (i < A * a.ty.size → ∃ a', setByte (some a) i v = .ok a' ∧ Bytes A a' ∧ a'.ty = a.ty ∧
      ∀ k, 0 ≤ k → k < A * a.ty.size → getByte (some a') k = if k = i then .ok v else getByte (some a) k) ∧
    (A * a.ty.size ≤ i → setByte (some a) i v = .throw .argumentOutOfRange) := by
  have hl := C44_byte_length h
  refine ⟨fun h1 => ?_, fun h1 => ?_⟩
  · have hA := pos_of_byte h h0 h1
    obtain ⟨b, hb, hbl, hg⟩ := poke_some (buf := a.data) (i := i) (xs := [v]) h0 (by simp only [List.length_singleton]; omega)
    have hB := withData h hbl
    refine ⟨{ a with data := b }, ?_, hB, rfl, fun k k0 k1 => ?_⟩
    · unfold setByte
      rw [hl.1, Res.bind_ok, if_neg (by omega)]
      simp only []
      rw [addr0 h.shape hA, Res.bind_ok, Int.zero_add, hb]
    · by_cases hk : k = i
      · subst hk
        obtain ⟨x, hx, ex⟩ := getByte_eq hB k0 k1
        rw [hx, if_pos rfl]
        have ex' : b[k.toNat]? = some x := ex
        rw [hg, if_pos (by simp only [List.length_singleton]; omega), Nat.sub_self] at ex'
        simp only [List.getElem?_cons_zero, Option.some.injEq] at ex'
        rw [ex']
      · rw [if_neg hk]
        refine getByte_congr hB h k0 k1 k0 k1 ?_
        show b[k.toNat]? = _
        rw [hg, if_neg (by simp only [List.length_singleton]; omega)]
  · unfold setByte
    rw [hl.1, Res.bind_ok, if_pos (by omega)]

example : ∃ a', setByte (some (mk1 (.int .int16) 2 [1, 2, 3, 4])) 2 9 = .ok a' ∧ a'.data = [1, 2, 9, 4] := ⟨_, rfl, rfl⟩

theorem checks_ok {A B : Int} {src dst : Arr} (hs : Bytes A src) (hd : Bytes B dst) {so d n : Int} (h0 : 0 ≤ so) (h1 : 0 ≤ d) (h2 : 0 ≤ n)
    (h3 : so + n ≤ A * src.ty.size) (h4 : d + n ≤ B * dst.ty.size) : blockChecks (some src) (some dst) so d n = .ok (src, dst) := by
  have a1 : src.dims = 1 := hs.shape.dims
  have a2 : dst.dims = 1 := hd.shape.dims
  have a3 : src.total = A := hs.shape.total
  have a4 : dst.total = B := hd.shape.total
  have a5 : A * src.ty.size ≤ 2147483647 := hs.shape.fitsBytes
  have a6 : B * dst.ty.size ≤ 2147483647 := hd.shape.fitsBytes
  unfold blockChecks ensureSingle
  simp only []
  rw [if_neg (by omega), Res.bind_ok, if_neg (by omega), Res.bind_ok, hs.prim, if_neg (by simp), hd.prim, if_neg (by simp), if_neg (by omega), if_neg (by omega),
    if_neg (by omega), a3, a4, i32_ok (by unfold I32; omega), Res.bind_ok, i32_ok (by unfold I32; omega), Res.bind_ok, i32_ok (by unfold I32; omega), Res.bind_ok,
    wrapU32_of (by unfold U32; omega), wrapU32_of (by unfold U32; omega), if_neg (by omega), i32_ok (by unfold I32; omega), Res.bind_ok,
    wrapU32_of (by unfold U32; omega), wrapU32_of (by unfold U32; omega), if_neg (by omega)]

/-- **C44** (partial: non-empty arrays). `BlockCopy` between two arrays of any primitive element types, with both ranges inside
them, sets exactly the `n` bytes from `d` on to the `n` source bytes from `so` on and leaves every other byte unchanged. -/
theorem C44_block_copy_partial {A B : Int} {src dst : Arr} (hs : Bytes A src) (hd : Bytes B dst) (hA : 0 < A) (hB : 0 < B) (so d n : Int)
    (h0 : 0 ≤ so) (h1 : 0 ≤ d) (h2 : 0 ≤ n) (h3 : so + n ≤ A * src.ty.size) (h4 : d + n ≤ B * dst.ty.size) :
    ∃ dst', blockCopy (some src) so (some dst) d n = .ok dst' ∧ Bytes B dst' ∧ dst'.ty = dst.ty ∧
      ∀ k, 0 ≤ k → k < B * dst.ty.size →
        getByte (some dst') k = if d ≤ k ∧ k < d + n then getByte (some src) (so + (k - d)) else getByte (some dst) k := by
  have sl := (C44_byte_length hs).2
  have dl := (C44_byte_length hd).2
  have hp := peek_some (buf := src.data) (i := so) (n := n) h0 h2 (by omega)
  obtain ⟨b, hb, hbl, hg⟩ := poke_some (buf := dst.data) (i := d) (xs := (src.data.drop so.toNat).take n.toNat) h1
    (by rw [List.length_take, List.length_drop]; omega)
  have hD := withData hd hbl
  refine ⟨{ dst with data := b }, ?_, hD, rfl, fun k k0 k1 => ?_⟩
  · unfold blockCopy
    rw [checks_ok hs hd h0 h1 h2 h3 h4, Res.bind_ok]
    simp only []
    rw [addr0 hd.shape hB, Res.bind_ok, addr0 hs.shape hA, Res.bind_ok, Int.zero_add, Int.zero_add, hp]
    simp only []
    rw [hb]
  · have hlen : ((src.data.drop so.toNat).take n.toNat).length = n.toNat := by rw [List.length_take, List.length_drop]; omega
    rw [hlen] at hg
    by_cases hk : d ≤ k ∧ k < d + n
    · rw [if_pos hk]
      refine getByte_congr hD hs k0 k1 (by omega) (by omega) ?_
      show b[k.toNat]? = _
      rw [hg, if_pos (by omega), List.getElem?_take, if_pos (by omega), List.getElem?_drop]
      congr 1; omega
    · rw [if_neg hk]
      refine getByte_congr hD hd k0 k1 k0 k1 ?_
      show b[k.toNat]? = _
      rw [hg, if_neg (by omega)]

example : ∃ a', blockCopy (some (mk1 (.int .int32) 1 [1, 2, 3, 4])) 1 (some (mk1 (.int .int16) 2 [9, 9, 9, 9])) 0 3 = .ok a' ∧ a'.data = [2, 3, 4, 9] := ⟨_, rfl, rfl⟩

/-- **C44** (partial: non-empty arrays). `BlockCopy` within one array copies as if through a temporary, overlap or not. -/
theorem C44_block_copy_within_partial {A : Int} {a : Arr} (ha : Bytes A a) (hA : 0 < A) (so d n : Int)
    (h0 : 0 ≤ so) (h1 : 0 ≤ d) (h2 : 0 ≤ n) (h3 : so + n ≤ A * a.ty.size) (h4 : d + n ≤ A * a.ty.size) :
    ∃ a', blockCopyWithin (some a) so d n = .ok a' ∧ Bytes A a' ∧ a'.ty = a.ty ∧
      ∀ k, 0 ≤ k → k < A * a.ty.size → getByte (some a') k = if d ≤ k ∧ k < d + n then getByte (some a) (so + (k - d)) else getByte (some a) k := by
  have sl := (C44_byte_length ha).2
  have hp := peek_some (buf := a.data) (i := so) (n := n) h0 h2 (by omega)
  obtain ⟨b, hb, hbl, hg⟩ := poke_some (buf := a.data) (i := d) (xs := (a.data.drop so.toNat).take n.toNat) h1
    (by rw [List.length_take, List.length_drop]; omega)
  have hD := withData ha hbl
  refine ⟨{ a with data := b }, ?_, hD, rfl, fun k k0 k1 => ?_⟩
  · unfold blockCopyWithin
    rw [checks_ok ha ha h0 h1 h2 h3 h4, Res.bind_ok]
    simp only []
    rw [addr0 ha.shape hA, Res.bind_ok, Int.zero_add, Int.zero_add]
    unfold SBModel.move
    rw [hp]
    simp only []
    rw [hb]
  · have hlen : ((a.data.drop so.toNat).take n.toNat).length = n.toNat := by rw [List.length_take, List.length_drop]; omega
    rw [hlen] at hg
    by_cases hk : d ≤ k ∧ k < d + n
    · rw [if_pos hk]
      refine getByte_congr hD ha k0 k1 (by omega) (by omega) ?_
      show b[k.toNat]? = _
      rw [hg, if_pos (by omega), List.getElem?_take, if_pos (by omega), List.getElem?_drop]
      congr 1; omega
    · rw [if_neg hk]
      refine getByte_congr hD ha k0 k1 k0 k1 ?_
      show b[k.toNat]? = _
      rw [hg, if_neg (by omega)]

example : ∃ a', blockCopyWithin (some (mk1 (.int .byte) 5 [1, 2, 3, 4, 5])) 0 1 4 = .ok a' ∧ a'.data = [1, 1, 2, 3, 4] := ⟨_, rfl, rfl⟩

/-- **C44** (partial: as long as the end positions fit an Int32). Negative arguments throw ArgumentOutOfRange, ranges leaving an
array throw Argument; nothing is written. -/
theorem C44_block_copy_throws_partial {A B : Int} {src dst : Arr} (hs : Bytes A src) (hd : Bytes B dst) (so d n : Int)
    (f1 : so + n ≤ 2147483647) (f2 : d + n ≤ 2147483647) :
    ((so < 0 ∨ d < 0 ∨ n < 0) → blockCopy (some src) so (some dst) d n = .throw .argumentOutOfRange) ∧
    (0 ≤ so → 0 ≤ d → 0 ≤ n → (so + n > A * src.ty.size ∨ d + n > B * dst.ty.size) → blockCopy (some src) so (some dst) d n = .throw .argument) := by
  have a1 : src.dims = 1 := hs.shape.dims
  have a2 : dst.dims = 1 := hd.shape.dims
  have a3 : src.total = A := hs.shape.total
  have a4 : dst.total = B := hd.shape.total
  have a5 : A * src.ty.size ≤ 2147483647 := hs.shape.fitsBytes
  have a6 : B * dst.ty.size ≤ 2147483647 := hd.shape.fitsBytes
  have a7 := (C44_byte_length hs).2
  have a8 := (C44_byte_length hd).2
  refine ⟨fun h => ?_, fun h0 h1 h2 h => ?_⟩
  · unfold blockCopy blockChecks ensureSingle
    simp only []
    rw [if_neg (by omega), Res.bind_ok, if_neg (by omega), Res.bind_ok, hs.prim, if_neg (by simp), hd.prim, if_neg (by simp)]
    by_cases c1 : so < 0
    · rw [if_pos c1]; rfl
    rw [if_neg c1]
    by_cases c2 : d < 0
    · rw [if_pos c2]; rfl
    rw [if_neg c2, if_pos (by omega)]; rfl
  · unfold blockCopy blockChecks ensureSingle
    simp only []
    rw [if_neg (by omega), Res.bind_ok, if_neg (by omega), Res.bind_ok, hs.prim, if_neg (by simp), hd.prim, if_neg (by simp), if_neg (by omega), if_neg (by omega),
      if_neg (by omega), a3, a4, i32_ok (by unfold I32; omega), Res.bind_ok, i32_ok (by unfold I32; omega), Res.bind_ok, i32_ok (by unfold I32; omega), Res.bind_ok,
      wrapU32_of (by unfold U32; omega), wrapU32_of (by unfold U32; omega)]
    by_cases c : A * (src.ty.size : Int) < so + n
    · rw [if_pos c]; rfl
    · rw [if_neg c, i32_ok (by unfold I32; omega), Res.bind_ok, wrapU32_of (by unfold U32; omega), wrapU32_of (by unfold U32; omega), if_pos (by omega)]; rfl

example : blockCopy (some (mk1 (.int .byte) 2 [1, 2])) 1 (some (mk1 (.int .byte) 2 [1, 2])) 0 2 = .throw .argument := by decide +kernel

/-- **C44**: null arguments, several dimensions and arrays of references are refused. -/
theorem C44_block_copy_refuses (src dst : Arr) (so d n : Int) :
    blockCopy none so (some dst) d n = .throw .argumentNull ∧ blockCopy (some src) so none d n = .throw .argumentNull ∧
    (src.dims ≠ 1 ∨ dst.dims ≠ 1 → blockCopy (some src) so (some dst) d n = .throw .rank) ∧
    (src.dims = 1 → dst.dims = 1 → (src.ty = .object ∨ src.ty = .string ∨ dst.ty = .object ∨ dst.ty = .string) →
      blockCopy (some src) so (some dst) d n = .throw .argument) := by
  refine ⟨rfl, rfl, fun h => ?_, fun h1 h2 h => ?_⟩
  · unfold blockCopy blockChecks ensureSingle
    simp only []
    by_cases c : src.dims ≠ 1
    · rw [if_pos c]; rfl
    · rw [if_neg c, Res.bind_ok, if_pos (by omega)]; rfl
  · unfold blockCopy blockChecks ensureSingle
    simp only []
    rw [if_neg (by omega), Res.bind_ok, if_neg (by omega), Res.bind_ok]
    by_cases c : src.ty.isPrimitive = false
    · rw [if_pos c]; rfl
    · rw [if_neg c, if_pos]
      · rfl
      · rcases h with h | h | h | h <;> simp [h, DT.isPrimitive] at *

example : blockCopy (some (mk1 .string 0 [])) 0 (some (mk1 (.int .byte) 2 [1, 2])) 0 0 = .throw .argument := by decide +kernel

/-- **C44** is false of the code: copying nothing into or out of an empty array throws IndexOutOfRange. -/
theorem C44_block_copy_empty_refuted {A : Int} {src dst : Arr} (hs : Bytes A src) (hd : Bytes 0 dst) :
    blockCopy (some src) 0 (some dst) 0 0 = .throw .indexOutOfRange := by
  have a7 := (C44_byte_length hs).2
  have a8 := (C44_byte_length hd).2
  unfold blockCopy
  rw [checks_ok hs hd (by omega) (by omega) (by omega) (by omega) (by omega), Res.bind_ok]
  simp only []
  rw [addr0_empty hd.shape]; rfl

/-- **C44** is false of the code: a source offset near the Int32 maximum overflows (undefined) instead of throwing. -/
theorem C44_block_copy_overflow_refuted {A B : Int} {src dst : Arr} (hs : Bytes A src) (hd : Bytes B dst) (n : Int) (h : 0 < n) :
    blockCopy (some src) 2147483647 (some dst) 0 n = .ub := by
  have a1 : src.dims = 1 := hs.shape.dims
  have a2 : dst.dims = 1 := hd.shape.dims
  have a3 : src.total = A := hs.shape.total
  have a4 : dst.total = B := hd.shape.total
  have a5 : A * src.ty.size ≤ 2147483647 := hs.shape.fitsBytes
  have a6 : B * dst.ty.size ≤ 2147483647 := hd.shape.fitsBytes
  have a7 := (C44_byte_length hs).2
  have a8 := (C44_byte_length hd).2
  have ov : i32 (2147483647 + n) = .ub := by unfold i32; rw [if_neg (by unfold I32; omega)]
  unfold blockCopy blockChecks ensureSingle
  simp only []
  rw [if_neg (by omega), Res.bind_ok, if_neg (by omega), Res.bind_ok, hs.prim, if_neg (by simp), hd.prim, if_neg (by simp), if_neg (by omega), if_neg (by omega),
    if_neg (by omega), a3, a4, i32_ok (by unfold I32; omega), Res.bind_ok, i32_ok (by unfold I32; omega), Res.bind_ok, ov]
  rfl

end Verif.BufProps
