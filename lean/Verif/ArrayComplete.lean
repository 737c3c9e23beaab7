import Verif.BufferProps
/-!
# C169, C170: what the operations of Array and Buffer do, for every argument
-/
namespace Verif.ArrProps
open ArrModel ArrSpec
open IntVal (Ty)

theorem i32_over {x : Int} (h : ¬ I32 x) : i32 x = .ub := by unfold i32; rw [if_neg h]

/-! ## C169: Array -/

/-- **C169**. `Rank`, `Length`, `GetLength`, `GetLowerBound` and `GetUpperBound` of every array, with every dimension number: the declared sizes; a dimension number that is negative or equal to the rank is treated as a
dimension of size -1, a larger one throws. -/
theorem C169_dimensions (sh : Shape) (a : Arr) (h : HasShape sh a) (hd : sh.args.1 ≤ 2147483647 ∧ sh.args.2.1 ≤ 2147483647 ∧ sh.args.2.2 ≤ 2147483647) (d : Int) :
    a.dims = sh.rank ∧ length a = sh.cells ∧
    getLength a d = (if sh.rank < d then .throw .indexOutOfRange else .ok ((sh.size d).getD (-1))) ∧
    getLowerBound a d = (if sh.rank < d then .throw .indexOutOfRange else .ok 0) ∧
    getUpperBound a d = (if sh.rank < d then .throw .indexOutOfRange else .ok ((sh.size d).getD (-1) - 1)) := by
  have e0 := h.dims
  have e1 := h.d1
  have e2 := h.d2
  have e3 := h.d3
  have hn := h.nonneg
  have key : getLength a d = (if sh.rank < d then .throw .indexOutOfRange else .ok ((sh.size d).getD (-1))) := by
    unfold getLength
    rw [e0, e1, e2, e3]
    by_cases hr : sh.rank < d
    · rw [if_pos hr, if_pos hr]
    · rw [if_neg hr, if_neg hr]
      cases sh <;> simp only [Shape.rank, Shape.size, Shape.args] at * <;>
        · by_cases c0 : d = 0
          · simp [c0]
          by_cases c1 : d = 1
          · simp [c1]
          by_cases c2 : d = 2
          · first | (exfalso; omega) | simp [c2]
          simp [c0, c1, c2]
  refine ⟨e0, h.total, key, ?_, ?_⟩
  · unfold getLowerBound; rw [e0]
  · unfold getUpperBound
    rw [e0, key]
    by_cases hr : sh.rank < d
    · rw [if_pos hr, if_pos hr]
    · rw [if_neg hr, if_neg hr, if_neg hr, Res.bind_ok, i32_ok]
      unfold I32
      cases sh <;> simp only [Shape.size, Shape.args, Shape.NonNeg] at * <;> repeat' split
      all_goals simp only [Option.getD_some, Option.getD_none]; omega

example : ∃ a, newArr (.int .int32) 2 3 (-1) = .ok a ∧ HasShape (.two 2 3) a ∧ getLength a 1 = .ok 3 ∧ getLength a 2 = .ok (-1) ∧ getLength a 3 = .throw .indexOutOfRange ∧ getUpperBound a 0 = .ok 1 :=
  ⟨_, rfl, ⟨by decide, rfl, rfl, rfl, rfl, rfl, by decide, by decide, by decide⟩, rfl, rfl, rfl, rfl⟩

/-- **C169**. `Copy` from one array to another, for every pair of arrays, positions and length: null arrays are refused; then, in this order, negative lengths and positions, a source range ending behind the Int32 range
(undefined) or behind the source, the same for the destination, arrays of different ranks and of different element types; otherwise elements `di..di+n` are those of the source (in storage order) and the others stay. -/
theorem C169_copy (shs shd : Shape) (src dst : Arr) (hs : HasShape shs src) (hd : HasShape shd dst) (si di n : Int) :
    copy none si (some dst) di n = .throw .argumentNull ∧ copy (some src) si none di n = .throw .argumentNull ∧
    (if n < 0 then copy (some src) si (some dst) di n = .throw .argumentOutOfRange
     else if si < 0 ∨ di < 0 then copy (some src) si (some dst) di n = .throw .argument
     else if 2147483647 < si + n then copy (some src) si (some dst) di n = .ub
     else if shs.cells < si + n then copy (some src) si (some dst) di n = .throw .argument
     else if 2147483647 < di + n then copy (some src) si (some dst) di n = .ub
     else if shd.cells < di + n then copy (some src) si (some dst) di n = .throw .argument
     else if shs.rank ≠ shd.rank then copy (some src) si (some dst) di n = .throw .rank
     else if src.ty ≠ dst.ty then copy (some src) si (some dst) di n = .throw .notImplemented
     else ∃ dst', copy (some src) si (some dst) di n = .ok dst' ∧ HasShape shd dst' ∧ dst'.ty = dst.ty ∧
        ∀ m : Nat, cell dst' m = if di ≤ m ∧ m < di + n then cell src (si.toNat + (m - di.toNat)) else cell dst m) := by
  obtain ⟨r1, r2, r3, r4, r5, r6, r7⟩ := C42_copy_rejects shs shd src dst hs hd si di n
  have t1 := hs.total
  have t2 := hd.total
  refine ⟨r1, r2, ?_⟩
  by_cases c1 : n < 0
  · rw [if_pos c1]; exact r3 c1
  rw [if_neg c1]
  by_cases c2 : si < 0 ∨ di < 0
  · rw [if_pos c2]; exact r4 (by omega) c2
  rw [if_neg c2]
  by_cases c3 : 2147483647 < si + n
  · rw [if_pos c3]
    unfold copy copyChecks
    simp only []
    rw [if_neg c1, if_neg c2, i32_over (by unfold I32; omega)]; rfl
  rw [if_neg c3]
  have hi : i32 (si + n) = .ok (si + n) := i32_ok (by unfold I32; omega)
  by_cases c4 : shs.cells < si + n
  · rw [if_pos c4]
    unfold copy copyChecks
    simp only []
    rw [if_neg c1, if_neg c2, hi, Res.bind_ok, if_pos (by omega)]; rfl
  rw [if_neg c4]
  by_cases c5 : 2147483647 < di + n
  · rw [if_pos c5]
    unfold copy copyChecks
    simp only []
    rw [if_neg c1, if_neg c2, hi, Res.bind_ok, if_neg (by omega), i32_over (x := di + n) (by unfold I32; omega)]; rfl
  rw [if_neg c5]
  by_cases c6 : shd.cells < di + n
  · rw [if_pos c6]; exact r5 (by omega) (by omega) (by omega) (by omega) (by omega) (by omega)
  rw [if_neg c6]
  by_cases c7 : shs.rank ≠ shd.rank
  · rw [if_pos c7]; exact r6 (by omega) (by omega) (by omega) (by omega) (by omega) c7
  rw [if_neg c7]
  have c7' : shs.rank = shd.rank := Decidable.not_not.mp c7
  by_cases c8 : src.ty ≠ dst.ty
  · rw [if_pos c8]; exact r7 (by omega) (by omega) (by omega) (by omega) (by omega) c7' c8
  rw [if_neg c8]
  exact C42_copy_cells shs shd src dst hs hd (Decidable.not_not.mp c8) c7' si di n (by omega) (by omega) (by omega) (by omega) (by omega)

example : copy (some (mk1 (.int .byte) 3 [1, 2, 3])) 1 (some (mk1 (.int .byte) 2 [8, 9])) 0 2 = .ok (mk1 (.int .byte) 2 [2, 3]) ∧
    copy (some (mk1 (.int .byte) 3 [1, 2, 3])) 2147483647 (some (mk1 (.int .byte) 2 [8, 9])) 0 1 = .ub ∧
    copy (some (mk1 (.int .byte) 3 [1, 2, 3])) 0 (some (mk1 (.int .int16) 2 [8, 9, 8, 9])) 0 1 = .throw .notImplemented := by decide +kernel

/-- **C169**. `Copy` within one array, for every array, positions and length: as between two arrays; overlapping ranges are undefined unless `memcpy` tolerates them (`ov`), and then copied as through a temporary. -/
theorem C169_copy_within (ov : Bool) (sh : Shape) (a : Arr) (ha : HasShape sh a) (hsz : 0 < a.ty.size) (si di n : Int) :
    if n < 0 then copyWithin ov a si di n = .throw .argumentOutOfRange
    else if si < 0 ∨ di < 0 then copyWithin ov a si di n = .throw .argument
    else if 2147483647 < si + n then copyWithin ov a si di n = .ub
    else if sh.cells < si + n then copyWithin ov a si di n = .throw .argument
    else if 2147483647 < di + n then copyWithin ov a si di n = .ub
    else if sh.cells < di + n then copyWithin ov a si di n = .throw .argument
    else if ov = false ∧ si < di + n ∧ di < si + n then copyWithin ov a si di n = .ub
    else ∃ a', copyWithin ov a si di n = .ok a' ∧ HasShape sh a' ∧ a'.ty = a.ty ∧
        ∀ m : Nat, cell a' m = if di ≤ m ∧ m < di + n then cell a (si.toNat + (m - di.toNat)) else cell a m := by
  have t1 := ha.total
  by_cases c1 : n < 0
  · rw [if_pos c1]; unfold copyWithin copyChecks; rw [if_pos c1]; rfl
  rw [if_neg c1]
  by_cases c2 : si < 0 ∨ di < 0
  · rw [if_pos c2]; unfold copyWithin copyChecks; rw [if_neg c1, if_pos c2]; rfl
  rw [if_neg c2]
  by_cases c3 : 2147483647 < si + n
  · rw [if_pos c3]; unfold copyWithin copyChecks; rw [if_neg c1, if_neg c2, i32_over (by unfold I32; omega)]; rfl
  rw [if_neg c3]
  have hi : i32 (si + n) = .ok (si + n) := i32_ok (by unfold I32; omega)
  by_cases c4 : sh.cells < si + n
  · rw [if_pos c4]; unfold copyWithin copyChecks; rw [if_neg c1, if_neg c2, hi, Res.bind_ok, if_pos (by omega)]; rfl
  rw [if_neg c4]
  by_cases c5 : 2147483647 < di + n
  · rw [if_pos c5]; unfold copyWithin copyChecks; rw [if_neg c1, if_neg c2, hi, Res.bind_ok, if_neg (by omega), i32_over (x := di + n) (by unfold I32; omega)]; rfl
  rw [if_neg c5]
  have hj : i32 (di + n) = .ok (di + n) := i32_ok (by unfold I32; omega)
  by_cases c6 : sh.cells < di + n
  · rw [if_pos c6]; unfold copyWithin copyChecks; rw [if_neg c1, if_neg c2, hi, Res.bind_ok, if_neg (by omega), hj, Res.bind_ok, if_pos (by omega)]; rfl
  rw [if_neg c6]
  obtain ⟨a1, a2, a3, a4⟩ := range_bytes ha (i := si) (n := n) (by omega) (by omega) (by omega)
  obtain ⟨b1, b2, b3, b4⟩ := range_bytes ha (i := di) (n := n) (by omega) (by omega) (by omega)
  have hch : copyWithin ov a si di n = (if ov = false ∧ si * (a.ty.size : Int) < di * a.ty.size + n * a.ty.size ∧ di * (a.ty.size : Int) < si * a.ty.size + n * a.ty.size then .ub
      else match SBModel.peek a.data (si * (a.ty.size : Int)) (n * (a.ty.size : Int)) with
        | none => .ub
        | some bs => match SBModel.poke a.data (di * (a.ty.size : Int)) bs with
          | none => .ub
          | some m => .ok { a with data := m }) := by
    unfold copyWithin copyChecks
    rw [if_neg c1, if_neg c2, hi, Res.bind_ok, if_neg (by omega), hj, Res.bind_ok, if_neg (by omega), if_neg (by simp), if_neg (by simp), Res.bind_ok,
      i32_ok (by unfold I32; omega), Res.bind_ok, i32_ok (by unfold I32; omega), Res.bind_ok, i32_ok (by unfold I32; omega), Res.bind_ok]
    rfl
  have hiff : ∀ x y : Int, x < y + n ↔ x * (a.ty.size : Int) < y * a.ty.size + n * a.ty.size := by
    intro x y
    rw [← Int.add_mul]
    exact ⟨fun h => Int.mul_lt_mul_of_pos_right h (by omega), fun h => Int.lt_of_mul_lt_mul_right h (by omega)⟩
  by_cases c7 : ov = false ∧ si < di + n ∧ di < si + n
  · rw [if_pos c7, hch, if_pos ⟨c7.1, (hiff si di).mp c7.2.1, (hiff di si).mp c7.2.2⟩]
  rw [if_neg c7, hch, if_neg (fun hh => c7 ⟨hh.1, (hiff si di).mpr hh.2.1, (hiff di si).mpr hh.2.2⟩)]
  obtain ⟨bs, d, k1, k2, k3, k4⟩ := block_move (s := a.ty.size) (by omega) (by omega) (by omega) a3 b3
  refine ⟨{ a with data := d }, ?_, ⟨ha.nonneg, ha.d1, ha.d2, ha.d3, ha.dims, ha.total, by rw [k3]; exact ha.bytes, ha.fits, ha.fitsBytes⟩, rfl, fun m => k4 m⟩
  rw [k1]
  simp only []
  rw [k2]

example : copyWithin true (mk1 (.int .byte) 5 [1, 2, 3, 4, 5]) 0 1 4 = .ok (mk1 (.int .byte) 5 [1, 1, 2, 3, 4]) ∧ copyWithin false (mk1 (.int .byte) 5 [1, 2, 3, 4, 5]) 0 1 4 = .ub ∧
    copyWithin false (mk1 (.int .byte) 5 [1, 2, 3, 4, 5]) 2 4 2 = .throw .argument := by decide +kernel

/-- **C169**. `Clear` of every array, with every start and amount: null is refused, several dimensions are a RankException; a range inside the array is zeroed and the rest stays; any other range is undefined. -/
theorem C169_clear (sh : Shape) (a : Arr) (ha : HasShape sh a) (hsz : 0 < a.ty.size) (i n : Int) :
    clear none i n = .throw .argumentNull ∧
    (if sh.rank ≠ 1 then clear (some a) i n = .throw .rank
     else if i < 0 ∨ n < 0 ∨ sh.cells < i + n then clear (some a) i n = .ub
     else ∃ a', clear (some a) i n = .ok a' ∧ HasShape sh a' ∧ a'.ty = a.ty ∧
        ∀ k, 0 ≤ k → k < sh.cells → (i ≤ k ∧ k < i + n → cell a' k.toNat = List.replicate a.ty.size 0) ∧ (¬ (i ≤ k ∧ k < i + n) → getAt a' (.one k) = getAt a (.one k))) := by
  refine ⟨rfl, ?_⟩
  by_cases hr : sh.rank ≠ 1
  · rw [if_pos hr]
    unfold clear ensureSingle
    simp only []
    rw [if_pos (by rw [ha.dims]; exact hr)]; rfl
  rw [if_neg hr]
  cases sh with
  | one A =>
    by_cases hb : i < 0 ∨ n < 0 ∨ (Shape.one A).cells < i + n
    · rw [if_pos hb]; exact C42_clear_refuted A a ha hsz i n hb
    · rw [if_neg hb]
      simp only [Shape.cells] at hb ⊢
      exact C42_clear_partial A a ha i n (by omega) (by omega) (by omega)
  | two => simp [Shape.rank] at hr
  | three => simp [Shape.rank] at hr

example : clear (some (mk1 (.int .byte) 5 [1, 2, 3, 4, 5])) 1 3 = .ok (mk1 (.int .byte) 5 [1, 0, 0, 0, 5]) ∧ clear (some (mk1 (.int .byte) 5 [1, 2, 3, 4, 5])) 4 2 = .ub := by decide +kernel

/-- **C169**. `IndexOf` in every array, with every start and count (negative: to the end), whatever `Equals` answers. -/
theorem C169_index_of (eq : Int → Int → Bool) (sh : Shape) (a : Arr) (value : Int) (h : HasShape sh a) (i n : Int) (hi : I32 i) :
    indexOf eq none value i n = .throw .argumentNull ∧
    (if sh.rank ≠ 1 then indexOf eq (some a) value i n = .throw .rank
     else if n < 0 ∧ 2147483647 < sh.cells - i then indexOf eq (some a) value i n = .ub
     else if i < 0 ∨ sh.cells < i ∨ sh.cells < i + n then indexOf eq (some a) value i n = .throw .argumentOutOfRange
     else if a.ty ≠ .object ∧ a.ty ≠ .string then indexOf eq (some a) value i n = .throw .notImplemented
     else ∃ r, indexOf eq (some a) value i n = .ok r ∧
      ((r = -1 ∧ ∀ k, i ≤ k → k < (if n < 0 then sh.cells else i + n) → ¬ Matches eq a value k) ∨
       (i ≤ r ∧ r < (if n < 0 then sh.cells else i + n) ∧ Matches eq a value r ∧ ∀ k, i ≤ k → k < r → ¬ Matches eq a value k))) := by
  obtain ⟨r1, r2, r3⟩ := C73_index_of_rejects eq sh a value h i n
  refine ⟨r1, ?_⟩
  by_cases hr : sh.rank ≠ 1
  · rw [if_pos hr]; exact r2 hr
  rw [if_neg hr]
  cases sh with
  | two => simp [Shape.rank] at hr
  | three => simp [Shape.rank] at hr
  | one A =>
    have d1 : a.dims = 1 := h.dims
    have t1 : a.total = A := h.total
    have f1 : A ≤ 2147483647 := h.fits
    have n0 : 0 ≤ A := h.nonneg
    generalize hc : (Shape.one A).cells = C
    have hc : A = C := hc
    subst hc
    unfold I32 at hi
    by_cases c1 : n < 0 ∧ 2147483647 < A - i
    · rw [if_pos c1]
      unfold indexOf
      simp only []
      rw [if_neg (by omega), if_pos c1.1, t1, i32_over (by unfold I32; omega)]; rfl
    rw [if_neg c1]
    by_cases c2 : i < 0 ∨ A < i ∨ A < i + n
    · rw [if_pos c2]
      by_cases hn : n < 0
      · unfold indexOf
        simp only []
        rw [if_neg (by omega), if_pos hn, t1, i32_ok (by unfold I32; omega), Res.bind_ok, if_pos (by omega)]
      · exact r3 rfl (by omega) (by omega)
    rw [if_neg c2]
    by_cases c3 : a.ty ≠ .object ∧ a.ty ≠ .string
    · rw [if_pos c3]
      by_cases hn : n < 0
      · unfold indexOf
        simp only []
        rw [if_neg (by omega), if_pos hn, t1, i32_ok (by unfold I32; omega), Res.bind_ok, if_neg (by omega), if_neg (by omega), if_pos c3]
      · exact C73_index_of_values_refuted eq A a value h c3.1 c3.2 i n (by omega) (by omega) (by omega)
    rw [if_neg c3]
    exact C73_index_of_partial eq A a value h (by
      by_cases ho : a.ty = .object
      · exact .inl ho
      · exact .inr (Decidable.not_not.mp fun hs => c3 ⟨ho, hs⟩)) i n (by omega) (by omega) (by omega)

example : indexOf (fun p q => p == q) (some (mk1 .object 2 (leBytes 8 4096 ++ leBytes 8 8192))) 8192 0 (-1) = .ok 1 ∧
    indexOf (fun p q => p == q) (some (mk1 .object 2 (leBytes 8 4096 ++ leBytes 8 8192))) 8192 2 1 = .throw .argumentOutOfRange ∧
    indexOf (fun p q => p == q) (some (mk1 (.int .byte) 2 [1, 2])) 8192 0 2 = .throw .notImplemented := by decide +kernel

end Verif.ArrProps

namespace Verif.BufProps
open ArrModel ArrSpec ArrProps BufModel
open IntVal (Ty)

/-! ## C170: Buffer -/

/-- **C170**. `ByteLength`, `GetByte` and `SetByte` of every array with every index: null, arrays of references and several dimensions are refused; the length is the number of bytes; an index from the length on is refused, a
negative one is undefined; otherwise the byte is read, or replaced with every other byte staying. -/
theorem C170_bytes {A : Int} {a : Arr} (h : Bytes A a) (i : Int) (v : Nat) (b : Arr) :
    byteLength none = .throw .argumentNull ∧ getByte none i = .throw .argumentNull ∧ setByte none i v = .throw .argumentNull ∧
    (b.ty.isPrimitive = false → byteLength (some b) = .throw .argument ∧ getByte (some b) i = .throw .argument ∧ setByte (some b) i v = .throw .argument) ∧
    (b.ty.isPrimitive = true → b.dims ≠ 1 → byteLength (some b) = .throw .rank ∧ getByte (some b) i = .throw .rank ∧ setByte (some b) i v = .throw .rank) ∧
    byteLength (some a) = .ok a.data.length ∧
    (if (a.data.length : Int) ≤ i then getByte (some a) i = .throw .argumentOutOfRange ∧ setByte (some a) i v = .throw .argumentOutOfRange
     else if i < 0 then (0 < A → getByte (some a) i = .ub ∧ setByte (some a) i v = .ub) ∧ (A = 0 → getByte (some a) i = .throw .indexOutOfRange ∧ setByte (some a) i v = .throw .indexOutOfRange)
     else (∃ x, getByte (some a) i = .ok x ∧ a.data[i.toNat]? = some x) ∧
       ∃ a', setByte (some a) i v = .ok a' ∧ Bytes A a' ∧ a'.ty = a.ty ∧ ∀ k : Int, 0 ≤ k → k < a.data.length → getByte (some a') k = if k = i then .ok v else getByte (some a) k) := by
  obtain ⟨l1, l2⟩ := C44_byte_length h
  refine ⟨rfl, rfl, rfl, fun hp => ?_, fun hp hd => ?_, by rw [l1, l2], ?_⟩
  · have : byteLength (some b) = .throw .argument := by unfold byteLength; simp only []; rw [if_pos hp]
    refine ⟨this, ?_, ?_⟩
    · unfold getByte; rw [this]; rfl
    · unfold setByte; rw [this]; rfl
  · have : byteLength (some b) = .throw .rank := by unfold byteLength ensureSingle; simp only []; rw [if_neg (by simp [hp]), if_pos hd]; rfl
    refine ⟨this, ?_, ?_⟩
    · unfold getByte; rw [this]; rfl
    · unfold setByte; rw [this]; rfl
  · rw [← l2]
    by_cases c1 : A * (a.ty.size : Int) ≤ i
    · rw [if_pos c1]
      have hn : 0 ≤ i := by omega
      exact ⟨(C44_get_byte h i hn).2 c1, (C44_set_byte_partial h i hn v).2 c1⟩
    rw [if_neg c1]
    by_cases c2 : i < 0
    · rw [if_pos c2]
      refine ⟨fun hA => ⟨C44_get_byte_negative_refuted h hA i c2, C44_set_byte_negative_refuted h hA i c2 v⟩, fun hA => ?_⟩
      subst hA
      refine ⟨?_, ?_⟩
      · unfold getByte
        rw [l1, Res.bind_ok, if_neg (by omega)]
        simp only []
        rw [addr0_empty h.shape]; rfl
      · unfold setByte
        rw [l1, Res.bind_ok, if_neg (by omega)]
        simp only []
        rw [addr0_empty h.shape]; rfl
    rw [if_neg c2]
    exact ⟨(C44_get_byte h i (by omega)).1 (by omega), (C44_set_byte_partial h i (by omega) v).1 (by omega)⟩

example : Bytes 2 (mk1 (.int .int16) 2 [1, 2, 3, 4]) ∧ getByte (some (mk1 (.int .int16) 2 [1, 2, 3, 4])) 2 = .ok 3 ∧ getByte (some (mk1 (.int .int16) 2 [1, 2, 3, 4])) (-1) = .ub ∧
    getByte (some (mk1 .string 0 [])) 0 = .throw .argument := ⟨⟨⟨by decide, rfl, rfl, rfl, rfl, rfl, by decide, by decide, by decide⟩, by decide⟩, rfl, rfl, rfl⟩

/-- **C170**. `BlockCopy` between any two arrays of primitive elements, with every offset and count (null arrays, matrices and arrays of references are refused: `C44_block_copy_refuses`). -/
theorem C170_block_copy {A B : Int} {src dst : Arr} (hs : Bytes A src) (hd : Bytes B dst) (so d n : Int) :
    if so < 0 ∨ d < 0 ∨ n < 0 then blockCopy (some src) so (some dst) d n = .throw .argumentOutOfRange
    else if 2147483647 < so + n then blockCopy (some src) so (some dst) d n = .ub
    else if (src.data.length : Int) < so + n then blockCopy (some src) so (some dst) d n = .throw .argument
    else if 2147483647 < d + n then blockCopy (some src) so (some dst) d n = .ub
    else if (dst.data.length : Int) < d + n then blockCopy (some src) so (some dst) d n = .throw .argument
    else if A = 0 ∨ B = 0 then blockCopy (some src) so (some dst) d n = .throw .indexOutOfRange
    else ∃ dst', blockCopy (some src) so (some dst) d n = .ok dst' ∧ Bytes B dst' ∧ dst'.ty = dst.ty ∧
      ∀ k : Int, 0 ≤ k → k < dst.data.length → getByte (some dst') k = if d ≤ k ∧ k < d + n then getByte (some src) (so + (k - d)) else getByte (some dst) k := by
  have a1 : src.dims = 1 := hs.shape.dims
  have a2 : dst.dims = 1 := hd.shape.dims
  have a3 : src.total = A := hs.shape.total
  have a4 : dst.total = B := hd.shape.total
  have a5 : A * src.ty.size ≤ 2147483647 := hs.shape.fitsBytes
  have a6 : B * dst.ty.size ≤ 2147483647 := hd.shape.fitsBytes
  have nA : 0 ≤ A := hs.shape.nonneg
  have nB : 0 ≤ B := hd.shape.nonneg
  obtain ⟨s1, s2⟩ := C44_byte_length hs
  obtain ⟨d1, d2⟩ := C44_byte_length hd
  rw [← s2, ← d2]
  have head : ∀ {so d n : Int}, ¬ (so < 0 ∨ d < 0 ∨ n < 0) → blockChecks (some src) (some dst) so d n = ((i32 (so + n)) >>= fun se =>
      if A * (src.ty.size : Int) < wrapU32 se then .throw .argument
      else (i32 (d + n)) >>= fun de => if B * (dst.ty.size : Int) < wrapU32 de then .throw .argument else .ok (src, dst)) := by
    intro so d n h
    unfold blockChecks ensureSingle
    simp only []
    rw [if_neg (by omega), Res.bind_ok, if_neg (by omega), Res.bind_ok, hs.prim, if_neg (by simp), hd.prim, if_neg (by simp), if_neg (by omega), if_neg (by omega),
      if_neg (by omega), a3, a4, i32_ok (by unfold I32; omega), Res.bind_ok, i32_ok (by unfold I32; omega), Res.bind_ok]
    congr 1
    funext se
    rw [wrapU32_of (x := A * (src.ty.size : Int)) (by unfold U32; omega), wrapU32_of (x := B * (dst.ty.size : Int)) (by unfold U32; omega)]
  by_cases c1 : so < 0 ∨ d < 0 ∨ n < 0
  · rw [if_pos c1]
    unfold blockCopy blockChecks ensureSingle
    simp only []
    rw [if_neg (by omega), Res.bind_ok, if_neg (by omega), Res.bind_ok, hs.prim, if_neg (by simp), hd.prim, if_neg (by simp)]
    by_cases e1 : so < 0
    · rw [if_pos e1]; rfl
    rw [if_neg e1]
    by_cases e2 : d < 0
    · rw [if_pos e2]; rfl
    rw [if_neg e2, if_pos (by omega)]; rfl
  rw [if_neg c1]
  by_cases c2 : 2147483647 < so + n
  · rw [if_pos c2]; unfold blockCopy; rw [head c1, i32_over (by unfold I32; omega)]; rfl
  rw [if_neg c2]
  have hi : i32 (so + n) = .ok (so + n) := i32_ok (by unfold I32; omega)
  have wi : wrapU32 (so + n) = so + n := wrapU32_of (by unfold U32; omega)
  by_cases c3 : A * (src.ty.size : Int) < so + n
  · rw [if_pos c3]; unfold blockCopy; rw [head c1, hi, Res.bind_ok, wi, if_pos c3]; rfl
  rw [if_neg c3]
  by_cases c4 : 2147483647 < d + n
  · rw [if_pos c4]; unfold blockCopy; rw [head c1, hi, Res.bind_ok, wi, if_neg c3, i32_over (by unfold I32; omega)]; rfl
  rw [if_neg c4]
  have hj : i32 (d + n) = .ok (d + n) := i32_ok (by unfold I32; omega)
  have wj : wrapU32 (d + n) = d + n := wrapU32_of (by unfold U32; omega)
  by_cases c5 : B * (dst.ty.size : Int) < d + n
  · rw [if_pos c5]; unfold blockCopy; rw [head c1, hi, Res.bind_ok, wi, if_neg c3, hj, Res.bind_ok, wj, if_pos c5]; rfl
  rw [if_neg c5]
  have hok : blockChecks (some src) (some dst) so d n = .ok (src, dst) := by rw [head c1, hi, Res.bind_ok, wi, if_neg c3, hj, Res.bind_ok, wj, if_neg c5]
  by_cases c6 : A = 0 ∨ B = 0
  · rw [if_pos c6]
    unfold blockCopy
    rw [hok, Res.bind_ok]
    simp only []
    by_cases hB : B = 0
    · subst hB; rw [addr0_empty hd.shape]; rfl
    · have hA : A = 0 := c6.resolve_right hB
      subst hA
      rw [addr0 hd.shape (by omega), Res.bind_ok, addr0_empty hs.shape]; rfl
  rw [if_neg c6]
  exact C44_block_copy_partial hs hd (by omega) (by omega) so d n (by omega) (by omega) (by omega) (by omega) (by omega)

example : (∃ a', blockCopy (some (mk1 (.int .int32) 1 [1, 2, 3, 4])) 1 (some (mk1 (.int .int16) 2 [9, 9, 9, 9])) 0 3 = .ok a' ∧ a'.data = [2, 3, 4, 9]) ∧
    blockCopy (some (mk1 (.int .byte) 2 [1, 2])) 2147483647 (some (mk1 (.int .byte) 2 [1, 2])) 0 1 = .ub ∧
    blockCopy (some (mk1 (.int .byte) 2 [1, 2])) 0 (some (mk1 (.int .byte) 0 [])) 0 0 = .throw .indexOutOfRange := ⟨⟨_, rfl, rfl⟩, rfl, rfl⟩

/-- **C170**. `BlockCopy` within one array of primitive elements, with every offset and count: overlap or not, as through a temporary. -/
theorem C170_block_copy_within {A : Int} {a : Arr} (ha : Bytes A a) (so d n : Int) :
    if so < 0 ∨ d < 0 ∨ n < 0 then blockCopyWithin (some a) so d n = .throw .argumentOutOfRange
    else if 2147483647 < so + n then blockCopyWithin (some a) so d n = .ub
    else if (a.data.length : Int) < so + n then blockCopyWithin (some a) so d n = .throw .argument
    else if 2147483647 < d + n then blockCopyWithin (some a) so d n = .ub
    else if (a.data.length : Int) < d + n then blockCopyWithin (some a) so d n = .throw .argument
    else if A = 0 then blockCopyWithin (some a) so d n = .throw .indexOutOfRange
    else ∃ a', blockCopyWithin (some a) so d n = .ok a' ∧ Bytes A a' ∧ a'.ty = a.ty ∧
      ∀ k : Int, 0 ≤ k → k < a.data.length → getByte (some a') k = if d ≤ k ∧ k < d + n then getByte (some a) (so + (k - d)) else getByte (some a) k := by
  have nA : 0 ≤ A := ha.shape.nonneg
  obtain ⟨s1, s2⟩ := C44_byte_length ha
  -- the checks are those of `blockCopy`, and come before anything else
  have hchk : (∀ e, blockChecks (some a) (some a) so d n = .throw e → blockCopyWithin (some a) so d n = .throw e) ∧
      (blockChecks (some a) (some a) so d n = .ub → blockCopyWithin (some a) so d n = .ub) := by
    refine ⟨fun e he => ?_, fun he => ?_⟩ <;> unfold blockCopyWithin <;> rw [he] <;> rfl
  have a1 : a.dims = 1 := ha.shape.dims
  have a3 : a.total = A := ha.shape.total
  have a5 : A * a.ty.size ≤ 2147483647 := ha.shape.fitsBytes
  have head : ¬ (so < 0 ∨ d < 0 ∨ n < 0) → blockChecks (some a) (some a) so d n = ((i32 (so + n)) >>= fun se =>
      if A * (a.ty.size : Int) < wrapU32 se then .throw .argument
      else (i32 (d + n)) >>= fun de => if A * (a.ty.size : Int) < wrapU32 de then .throw .argument else .ok (a, a)) := by
    intro h
    unfold blockChecks ensureSingle
    simp only []
    rw [if_neg (by omega), Res.bind_ok, Res.bind_ok, ha.prim, if_neg (by simp), if_neg (by simp), if_neg (by omega), if_neg (by omega),
      if_neg (by omega), a3, i32_ok (by unfold I32; omega), Res.bind_ok, Res.bind_ok]
    congr 1
    funext se
    rw [wrapU32_of (x := A * (a.ty.size : Int)) (by unfold U32; omega)]
  rw [← s2]
  by_cases c1 : so < 0 ∨ d < 0 ∨ n < 0
  · rw [if_pos c1]
    apply hchk.1
    unfold blockChecks ensureSingle
    simp only []
    rw [if_neg (by omega), Res.bind_ok, Res.bind_ok, ha.prim, if_neg (by simp), if_neg (by simp)]
    by_cases e1 : so < 0
    · rw [if_pos e1]
    rw [if_neg e1]
    by_cases e2 : d < 0
    · rw [if_pos e2]
    rw [if_neg e2, if_pos (by omega)]
  rw [if_neg c1]
  by_cases c2 : 2147483647 < so + n
  · rw [if_pos c2]; apply hchk.2; rw [head c1, i32_over (by unfold I32; omega)]; rfl
  rw [if_neg c2]
  have hi : i32 (so + n) = .ok (so + n) := i32_ok (by unfold I32; omega)
  have wi : wrapU32 (so + n) = so + n := wrapU32_of (by unfold U32; omega)
  by_cases c3 : A * (a.ty.size : Int) < so + n
  · rw [if_pos c3]; apply hchk.1; rw [head c1, hi, Res.bind_ok, wi, if_pos c3]
  rw [if_neg c3]
  by_cases c4 : 2147483647 < d + n
  · rw [if_pos c4]; apply hchk.2; rw [head c1, hi, Res.bind_ok, wi, if_neg c3, i32_over (by unfold I32; omega)]; rfl
  rw [if_neg c4]
  have hj : i32 (d + n) = .ok (d + n) := i32_ok (by unfold I32; omega)
  have wj : wrapU32 (d + n) = d + n := wrapU32_of (by unfold U32; omega)
  by_cases c5 : A * (a.ty.size : Int) < d + n
  · rw [if_pos c5]; apply hchk.1; rw [head c1, hi, Res.bind_ok, wi, if_neg c3, hj, Res.bind_ok, wj, if_pos c5]
  rw [if_neg c5]
  by_cases c6 : A = 0
  · rw [if_pos c6]
    subst c6
    unfold blockCopyWithin
    rw [head c1, hi, Res.bind_ok, wi, if_neg c3, hj, Res.bind_ok, wj, if_neg c5, Res.bind_ok]
    simp only []
    rw [addr0_empty ha.shape]; rfl
  rw [if_neg c6]
  exact C44_block_copy_within_partial ha (by omega) so d n (by omega) (by omega) (by omega) (by omega) (by omega)

example : (∃ a', blockCopyWithin (some (mk1 (.int .byte) 5 [1, 2, 3, 4, 5])) 0 1 4 = .ok a' ∧ a'.data = [1, 1, 2, 3, 4]) ∧ blockCopyWithin (some (mk1 (.int .byte) 2 [1, 2])) 1 0 2 = .throw .argument := ⟨⟨_, rfl, rfl⟩, rfl⟩

end Verif.BufProps
