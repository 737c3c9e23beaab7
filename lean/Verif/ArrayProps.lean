import Verif.ArrayLemmas
set_option linter.unusedSimpArgs false
set_option linter.unusedVariables false
/-!
# Properties of arrays: C40, C41, C42, C43, C73
-/
namespace Verif.ArrProps
open ArrModel ArrSpec
open SBModel (peek poke peek_some poke_some)
open IntVal (Ty)

/-- A concrete choice of the floating-point conversions, for the examples only. -/
def F0 : FConv := ⟨fun _ => 0, fun _ => 0, fun _ => 0, fun _ => 0, fun _ _ => .ub, fun t x => if t = .uint64 then .ok 7 else .ub,
  fun _ => by decide, fun _ => by decide, fun _ => by decide, fun _ => by decide⟩

/-! ## Construction -/

theorem newArr_one (ty : DT) (x : Int) : newArr ty x (-1) (-1) =
    ((i32 (x * ty.size)) >>= fun n => if n < 0 then .ub else .ok ⟨ty, x, -1, -1, 1, x, List.replicate n.toNat 0⟩) := by
  unfold newArr shapeOf
  rw [if_neg (by omega), Res.bind_ok, if_neg (by omega), Res.bind_ok]

theorem newArr_two (ty : DT) (x y : Int) (hy : y ≠ -1) : newArr ty x y (-1) =
    ((i32 (x * y)) >>= fun t => (i32 (t * ty.size)) >>= fun n => if n < 0 then .ub else .ok ⟨ty, x, y, -1, 2, t, List.replicate n.toNat 0⟩) := by
  unfold newArr shapeOf
  rw [if_pos hy]
  cases i32 (x * y) with
  | ok t => simp only [Res.bind_ok]; rw [if_neg (by omega), Res.bind_ok]
  | throw e => rfl
  | ub => rfl

theorem newArr_three (ty : DT) (x y z : Int) (hy : y ≠ -1) (hz : z ≠ -1) : newArr ty x y z =
    ((i32 (x * y)) >>= fun t => (i32 (t * z)) >>= fun t => (i32 (t * ty.size)) >>= fun n =>
      if n < 0 then .ub else .ok ⟨ty, x, y, z, 3, t, List.replicate n.toNat 0⟩) := by
  unfold newArr shapeOf
  rw [if_pos hy]
  cases i32 (x * y) with
  | ok t =>
    simp only [Res.bind_ok]; rw [if_pos hz]
    cases i32 (t * z) with
    | ok u => rfl
    | throw e => rfl
    | ub => rfl
  | throw e => rfl
  | ub => rfl

/-- The constructor gives an array of the requested shape and type with all bytes zero, whenever the sizes are not negative
and the byte count fits an Int32. -/
theorem newArr_ok (ty : DT) (sh : Shape) (hn : sh.NonNeg) (h1 : sh.cells ≤ 2147483647) (h2 : sh.cells * ty.size ≤ 2147483647)
    (h3 : ∀ x y z, sh = .three x y z → x * y ≤ 2147483647) :
    ∃ a, newArr ty sh.args.1 sh.args.2.1 sh.args.2.2 = .ok a ∧ a.ty = ty ∧ HasShape sh a ∧ ∀ b ∈ a.data, b = 0 := by
  cases sh with
  | one x =>
    simp only [Shape.NonNeg, Shape.args, Shape.cells] at *
    have hm := mul_fit (s := ty.size) hn (Int.le_refl x) (by omega)
    rw [newArr_one, i32_ok (by unfold I32; omega), Res.bind_ok, if_neg (by omega)]
    exact ⟨_, rfl, rfl, ⟨hn, rfl, rfl, rfl, rfl, rfl, by simp [Shape.cells]; omega, h1, h2⟩, fun b hb => (List.mem_replicate.mp hb).2⟩
  | two x y =>
    simp only [Shape.NonNeg, Shape.args, Shape.cells] at *
    have hp := Int.mul_nonneg hn.1 hn.2
    have hm := mul_fit (s := ty.size) hp (Int.le_refl (x * y)) (by omega)
    rw [newArr_two _ _ _ (by omega), i32_ok (by unfold I32; omega), Res.bind_ok, i32_ok (by unfold I32; omega), Res.bind_ok, if_neg (by omega)]
    exact ⟨_, rfl, rfl, ⟨hn, rfl, rfl, rfl, rfl, rfl, by simp [Shape.cells]; omega, h1, h2⟩, fun b hb => (List.mem_replicate.mp hb).2⟩
  | three x y z =>
    have h3 := h3 x y z rfl
    simp only [Shape.NonNeg, Shape.args, Shape.cells] at *
    have hp := Int.mul_nonneg hn.1 hn.2.1
    have hq := Int.mul_nonneg hp hn.2.2
    have hm := mul_fit (s := ty.size) hq (Int.le_refl (x * y * z)) (by omega)
    rw [newArr_three _ _ _ _ (by omega) (by omega), i32_ok (by unfold I32; omega), Res.bind_ok, i32_ok (by unfold I32; omega), Res.bind_ok, i32_ok (by unfold I32; omega), Res.bind_ok, if_neg (by omega)]
    exact ⟨_, rfl, rfl, ⟨hn, rfl, rfl, rfl, rfl, rfl, by simp [Shape.cells]; omega, h1, h2⟩, fun b hb => (List.mem_replicate.mp hb).2⟩

example : ∃ a, newArr (.int .int32) 2 3 4 = .ok a ∧ a.total = 24 ∧ a.data.length = 96 := ⟨_, rfl, rfl, rfl⟩

/-! ## C40: addressing -/

/-- **C40**: on an array of any shape: every in-range tuple has an address, which is its row-major position times the element
size and leaves room for a whole element inside the storage; different in-range tuples have disjoint elements; every cell
number is the address of some in-range tuple; every tuple of the array's rank outside the range throws
IndexOutOfRangeException. -/
theorem C40_addressing (sh : Shape) (a : Arr) (h : HasShape sh a) :
    (∀ ix, InBounds sh ix → ∃ o, addressOf a ix = .ok o ∧ o = rowMajor sh ix * a.ty.size ∧ 0 ≤ o ∧ o + a.ty.size ≤ a.data.length) ∧
    (∀ x y o p, InBounds sh x → InBounds sh y → x ≠ y → addressOf a x = .ok o → addressOf a y = .ok p →
      o + a.ty.size ≤ p ∨ p + a.ty.size ≤ o) ∧
    (∀ n, 0 ≤ n → n < a.total → ∃ ix, InBounds sh ix ∧ addressOf a ix = .ok (n * a.ty.size)) ∧
    (∀ ix, ix.rank = sh.rank → ¬ InBounds sh ix → addressOf a ix = .throw .indexOutOfRange) := by
  refine ⟨fun ix hb => ?_, fun x y o p hx hy hne ho hp => ?_, fun n h0 h1 => ?_, fun ix hr hb => ?_⟩
  · obtain ⟨e1, e2, e3⟩ := addressOf_ok h hb
    exact ⟨_, e1, rfl, e2, e3⟩
  · rw [(addressOf_ok h hx).1, Res.ok.injEq] at ho
    rw [(addressOf_ok h hy).1, Res.ok.injEq] at hp
    subst ho hp
    have hne' : rowMajor sh x ≠ rowMajor sh y := fun e => hne (rowMajor_inj hx hy e)
    have cx := inBounds_cells hx
    have cy := inBounds_cells hy
    rcases Int.lt_or_gt_of_ne hne' with hlt | hgt
    · exact Or.inl (mul_fit_lt cx.1 hlt (by omega)).2
    · exact Or.inr (mul_fit_lt cy.1 hgt (by omega)).2
  · rw [h.total] at h1
    obtain ⟨ix, hb, e⟩ := rowMajor_surj h.nonneg h0 h1
    exact ⟨ix, hb, by rw [(addressOf_ok h hb).1, e]⟩
  · have e0 := h.dims
    have e1 := h.d1
    have e2 := h.d2
    have e3 := h.d3
    have key : computeIndex a ix.args.1 ix.args.2.1 ix.args.2.2 = .throw .indexOutOfRange := by
      cases sh <;> cases ix <;> simp only [Idx.rank, Shape.rank] at hr <;> (try omega) <;> simp only [InBounds] at hb
      · rename_i A i
        show computeIndex a i (-1) (-1) = _
        simp only [Shape.rank, Shape.args] at *
        unfold computeIndex
        rw [e0, e1, if_pos rfl]
        by_cases hi : i < 0
        · rw [if_pos (by omega)]
        · rw [if_neg (by omega), if_pos (by omega)]
      · rename_i A B i j
        show computeIndex a i j (-1) = _
        simp only [Shape.rank, Shape.args] at *
        unfold computeIndex
        rw [e0, e1, e2, if_neg (by omega), if_pos rfl]
        by_cases hi : i < 0 ∨ j < 0
        · rw [if_pos (by omega)]
        · rw [if_neg (by omega), if_pos (by omega)]
      · rename_i A B C i j k
        show computeIndex a i j k = _
        simp only [Shape.rank, Shape.args] at *
        unfold computeIndex
        rw [e0, e1, e2, e3, if_neg (by omega), if_neg (by omega), if_pos rfl]
        by_cases hi : i < 0 ∨ j < 0 ∨ k < 0
        · rw [if_pos (by omega)]
        · rw [if_neg (by omega), if_pos (by omega)]
    unfold addressOf address
    rw [key]; rfl

example : ∃ a, newArr (.int .int32) 2 3 4 = .ok a ∧ HasShape (.three 2 3 4) a ∧ addressOf a (.three 1 2 3) = .ok 92 ∧
    addressOf a (.three 1 3 3) = .throw .indexOutOfRange := by
  obtain ⟨a, h1, h2, h3, _⟩ := newArr_ok (.int .int32) (.three 2 3 4) (by decide) (by decide) (by decide) (by intro x y z h; injection h with h1 h2 h3; subst h1 h2; decide)
  refine ⟨a, h1, h3, ?_, ?_⟩
  · rw [(addressOf_ok (ix := .three 1 2 3) h3 (by decide)).1, h2]; rfl
  · exact (C40_addressing _ a h3).2.2.2 _ rfl (by decide)

/-- **C40**: too few or too many (non-negative) indices throw as well. -/
theorem C40_wrong_rank (sh : Shape) (a : Arr) (h : HasShape sh a) (ix : Idx) (hr : ix.rank ≠ sh.rank)
    (hpos : (∀ i j, ix = .two i j → 0 ≤ j) ∧ (∀ i j k, ix = .three i j k → 0 ≤ k)) : addressOf a ix = .throw .indexOutOfRange := by
  have e0 := h.dims
  have key : computeIndex a ix.args.1 ix.args.2.1 ix.args.2.2 = .throw .indexOutOfRange := by
    cases sh <;> cases ix <;> simp only [Idx.rank, Shape.rank] at hr <;> (try omega) <;> simp only [Shape.rank] at e0
    · rename_i A i j
      have := hpos.1 i j rfl
      show computeIndex a i j (-1) = _
      unfold computeIndex
      rw [e0, if_pos rfl, if_pos (by omega)]
    · rename_i A i j k
      have := hpos.2 i j k rfl
      show computeIndex a i j k = _
      unfold computeIndex
      rw [e0, if_pos rfl, if_pos (by omega)]
    · rename_i A B i
      show computeIndex a i (-1) (-1) = _
      unfold computeIndex
      rw [e0, if_neg (by omega), if_pos rfl, if_pos (by omega)]
    · rename_i A B i j k
      have := hpos.2 i j k rfl
      show computeIndex a i j k = _
      unfold computeIndex
      rw [e0, if_neg (by omega), if_pos rfl, if_pos (by omega)]
    · rename_i A B C i
      show computeIndex a i (-1) (-1) = _
      unfold computeIndex
      rw [e0, if_neg (by omega), if_neg (by omega), if_pos rfl, if_pos (by omega)]
    · rename_i A B C i j
      show computeIndex a i j (-1) = _
      unfold computeIndex
      rw [e0, if_neg (by omega), if_neg (by omega), if_pos rfl, if_pos (by omega)]
  unfold addressOf address
  rw [key]; rfl

example : ∃ a, newArr .char 3 (-1) (-1) = .ok a ∧ addressOf a (.two 0 0) = .throw .indexOutOfRange := ⟨_, rfl, rfl⟩

/-- **C40** is false of the code for negative surplus indices: a two-index access with a negative second index on a
one-dimensional array addresses element `i` instead of throwing. -/
theorem C40_negative_surplus_refuted : ∃ a, newArr .char 3 (-1) (-1) = .ok a ∧ addressOf a (.two 1 (-5)) = .ok 4 := ⟨_, rfl, rfl⟩

/-! ## C41: SetValue/GetValue -/

theorem load_int (t : Ty) (x : Int) : loadInt t (leBytes (tySize t) x) = t.wrap x := by
  cases t
  · exact leInt1 x
  · exact leNat1 x
  · exact leInt2 x
  · exact leNat2 x
  · exact leInt4 x
  · exact leNat4 x
  · exact leInt8 x
  · exact leNat8 x

/-- The integral type through which the `switch` converts the value. -/
def viaTy : Ty → Ty
  | .byte | .sbyte | .int16 | .int32 => .int32
  | .uint16 | .uint32 => .uint32
  | .int64 | .uint64 => .int64

theorem store_int (F : FConv) (t : Ty) (v : Ob) : storeBytes F (.int t) v = ((asInt F (viaTy t) v.val) >>= fun x => .ok (leBytes (tySize t) x)) := by
  cases t <;> rfl

theorem wrap_via (t : Ty) (x : Int) : t.wrap ((viaTy t).wrap x) = t.wrap x := by
  cases t <;> simp only [viaTy, Ty.wrap, wrapI8, wrapU8, wrapI16, wrapU16, wrapI32, wrapU32, wrapI64, wrapU64] <;> omega

theorem wrap_bit (t : Ty) (b : Bool) : t.wrap (if b then 1 else 0) = if b then 1 else 0 := by
  cases t <;> cases b <;> rfl

theorem store_load {F : FConv} {ty : DT} {v : Ob} {r : Val} (hw : Val.Wf v.val) (hr : converted F ty v.val = some r) :
    ∃ bs, storeBytes F ty v = .ok bs ∧ bs.length = ty.size ∧ loadBytes ty bs = .ok (.box r) := by
  obtain ⟨addr, val⟩ := v
  have load4 : ∀ x : Int, U32 x → leNat (leBytes 4 x) = x := fun x h => by unfold U32 at h; rw [leNat4]; omega
  have load8 : ∀ x : Int, U64 x → leNat (leBytes 8 x) = x := fun x h => by unfold U64 at h; rw [leNat8]; omega
  cases ty with
  | int t =>
    rw [store_int]
    cases val <;> simp only [converted, Option.some.injEq, reduceCtorEq] at hr <;> subst hr
    · rename_i b
      refine ⟨_, rfl, leBytes_length _ _, ?_⟩
      show Res.ok (Got.box (.int t (loadInt t _))) = _
      rw [load_int, wrap_bit]
    · rename_i c
      refine ⟨_, rfl, leBytes_length _ _, ?_⟩
      show Res.ok (Got.box (.int t (loadInt t _))) = _
      rw [load_int, wrap_via]
    · rename_i u x
      refine ⟨_, rfl, leBytes_length _ _, ?_⟩
      show Res.ok (Got.box (.int t (loadInt t _))) = _
      rw [load_int, wrap_via]
  | boolean =>
    cases val <;> simp only [converted, Option.some.injEq, reduceCtorEq] at hr <;> subst hr
    · rename_i b
      cases b <;> exact ⟨_, rfl, rfl, rfl⟩
    · rename_i u x
      by_cases hx : x = 0
      · subst hx; exact ⟨_, rfl, rfl, rfl⟩
      · refine ⟨leBytes 1 1, ?_, rfl, ?_⟩
        · simp [storeBytes, asBool, hx]
        · simp [loadBytes, leBytes, leNat, hx]
  | char =>
    cases val <;> simp only [converted, Option.some.injEq, reduceCtorEq] at hr
    · rename_i c
      subst hr
      simp only [Val.Wf] at hw
      refine ⟨_, rfl, leBytes_length _ _, ?_⟩
      show Res.ok (Got.box (.char (leInt (leBytes 4 c)))) = _
      rw [leInt4, wrapI32_of (by unfold I32; omega)]
    · rename_i u x
      split at hr
      · rename_i hx
        simp only [Option.some.injEq] at hr
        subst hr
        refine ⟨_, rfl, leBytes_length _ _, ?_⟩
        show Res.ok (Got.box (.char (leInt (leBytes 4 (wrapI32 x))))) = _
        rw [leInt4, wrapI32_of (x := x) (by unfold I32; omega), wrapI32_of (x := x) (by unfold I32; omega)]
      · cases hr
  | single =>
    cases val <;> simp only [converted, Option.some.injEq, reduceCtorEq] at hr <;> subst hr <;>
      refine ⟨_, rfl, leBytes_length _ _, ?_⟩ <;> show Res.ok (Got.box (.single (leNat (leBytes 4 _)))) = _
    · rw [load4 _ (F.iToS_bits _)]
    · rw [load4 _ (F.iToS_bits _)]
    · rw [load4 _ hw]
    · rw [load4 _ (F.dToS_bits _)]
  | double =>
    cases val <;> simp only [converted, Option.some.injEq, reduceCtorEq] at hr <;> subst hr <;>
      refine ⟨_, rfl, leBytes_length _ _, ?_⟩ <;> show Res.ok (Got.box (.double (leNat (leBytes 8 _)))) = _
    · rw [load8 _ (F.iToD_bits _)]
    · rw [load8 _ (F.iToD_bits _)]
    · rw [load8 _ (F.sToD_bits _)]
    · rw [load8 _ hw]
  | dateTime =>
    cases val <;> simp only [converted, Option.some.injEq, reduceCtorEq] at hr <;> subst hr
    refine ⟨_, rfl, leBytes_length _ _, ?_⟩
    show Res.ok (Got.box (.dateTime (leNat (leBytes 8 _)))) = _
    rw [load8 _ hw]
  | timeSpan =>
    cases val <;> simp only [converted, Option.some.injEq, reduceCtorEq] at hr <;> subst hr
    refine ⟨_, rfl, leBytes_length _ _, ?_⟩
    show Res.ok (Got.box (.timeSpan (leInt (leBytes 8 _)))) = _
    rw [leInt8, wrapI64_of hw]
  | object => cases val <;> simp [converted] at hr
  | string => cases val <;> simp [converted] at hr
  | null => cases val <;> simp [converted] at hr
  | decimal => cases val <;> simp [converted] at hr

/-- Storing bytes into one element: the array afterwards, element by element. -/
theorem setAt_bytes {F : FConv} {sh : Shape} {a : Arr} {v : Ob} {ix : Idx} {bs : List Nat} (h : HasShape sh a) (hb : InBounds sh ix)
    (hs : storeBytes F a.ty v = .ok bs) (hl : bs.length = a.ty.size) :
    ∃ a', setAt F a (some v) ix = .ok a' ∧ HasShape sh a' ∧ a'.ty = a.ty ∧
      ∀ m : Nat, cell a' m = if m = (rowMajor sh ix).toNat then bs else cell a m := by
  obtain ⟨h1, h2, h3⟩ := addressOf_ok h hb
  have hc := inBounds_cells hb
  obtain ⟨d, hd, hdl, hdg⟩ := poke_some (buf := a.data) (i := rowMajor sh ix * a.ty.size) (xs := bs) h2 (by rw [hl]; exact h3)
  refine ⟨{ a with data := d }, ?_, ?_, rfl, fun m => ?_⟩
  · unfold setAt setValue
    simp only []
    unfold addressOf at h1
    rw [h1, Res.bind_ok, hs, Res.bind_ok, hd]
  · exact ⟨h.nonneg, h.d1, h.d2, h.d3, h.dims, h.total, by rw [hdl]; exact h.bytes, h.fits, h.fitsBytes⟩
  · have e : (rowMajor sh ix * (a.ty.size : Int)).toNat = (rowMajor sh ix).toNat * a.ty.size := by
      rw [Int.toNat_mul hc.1 (by omega)]; simp
    rw [e] at hdg
    exact cell_poke_one hl hdg m

theorem getAt_other {sh : Shape} {a a' : Arr} {ix jx : Idx} {bs : List Nat} (h : HasShape sh a) (h' : HasShape sh a') (ht : a'.ty = a.ty)
    (hb : InBounds sh ix) (hj : InBounds sh jx) (hne : jx ≠ ix)
    (hc : ∀ m : Nat, cell a' m = if m = (rowMajor sh ix).toNat then bs else cell a m) : getAt a' jx = getAt a jx := by
  rw [getAt_cell h' hj, getAt_cell h hj, ht, hc, if_neg]
  intro e
  have c1 := inBounds_cells hb
  have c2 := inBounds_cells hj
  exact hne (rowMajor_inj hj hb (by omega))

/-- **C41**: for every shape, every in-range tuple and every value that converts to the element type: `SetValue` succeeds,
`GetValue` of the same tuple then returns the converted value, and every other element reads as before. -/
theorem C41_set_get (F : FConv) (sh : Shape) (a : Arr) (v : Ob) (r : Val) (ix : Idx) (h : HasShape sh a) (hb : InBounds sh ix)
    (hw : Val.Wf v.val) (hr : converted F a.ty v.val = some r) :
    ∃ a', setAt F a (some v) ix = .ok a' ∧ HasShape sh a' ∧ a'.ty = a.ty ∧ getAt a' ix = .ok (.box r) ∧
      ∀ jx, InBounds sh jx → jx ≠ ix → getAt a' jx = getAt a jx := by
  obtain ⟨bs, e1, e2, e3⟩ := store_load hw hr
  obtain ⟨a', k1, k2, k3, k4⟩ := setAt_bytes h hb e1 e2
  refine ⟨a', k1, k2, k3, ?_, fun jx hj hne => getAt_other h k2 k3 hb hj hne k4⟩
  rw [getAt_cell k2 hb, k4, if_pos rfl, k3, e3]

example : ∃ a a', newArr (.int .byte) 2 3 (-1) = .ok a ∧ setAt F0 a (some ⟨1000, .int .int32 (-1)⟩) (.two 1 2) = .ok a' ∧
    getAt a' (.two 1 2) = .ok (.box (.int .byte 255)) ∧ getAt a' (.two 1 1) = .ok (.box (.int .byte 0)) := ⟨_, _, rfl, rfl, rfl, rfl⟩

/-- **C41**: arrays of references hold exactly the reference stored. -/
theorem C41_set_get_reference (F : FConv) (sh : Shape) (a : Arr) (v : Ob) (ix : Idx) (h : HasShape sh a) (hb : InBounds sh ix)
    (hv : U64 v.addr) (ht : a.ty = .object ∨ a.ty = .string) :
    ∃ a', setAt F a (some v) ix = .ok a' ∧ HasShape sh a' ∧ a'.ty = a.ty ∧ getAt a' ix = .ok (.ptr v.addr) ∧
      ∀ jx, InBounds sh jx → jx ≠ ix → getAt a' jx = getAt a jx := by
  have e1 : storeBytes F a.ty v = .ok (leBytes 8 v.addr) := by rcases ht with ht | ht <;> rw [ht] <;> rfl
  have e2 : (leBytes 8 v.addr).length = a.ty.size := by rcases ht with ht | ht <;> rw [ht] <;> rfl
  obtain ⟨a', k1, k2, k3, k4⟩ := setAt_bytes h hb e1 e2
  refine ⟨a', k1, k2, k3, ?_, fun jx hj hne => getAt_other h k2 k3 hb hj hne k4⟩
  rw [getAt_cell k2 hb, k4, if_pos rfl, k3]
  have : loadBytes a.ty (leBytes 8 v.addr) = .ok (.ptr (leNat (leBytes 8 v.addr))) := by rcases ht with ht | ht <;> rw [ht] <;> rfl
  unfold U64 at hv
  rw [this, leNat8, show v.addr % 18446744073709551616 = v.addr by omega]

example : ∃ a a', newArr .object 4 (-1) (-1) = .ok a ∧ setAt F0 a (some ⟨4096, .opaque⟩) (.one 3) = .ok a' ∧
    getAt a' (.one 3) = .ok (.ptr 4096) ∧ getAt a' (.one 2) = .ok (.ptr 0) := ⟨_, _, rfl, rfl, rfl, rfl⟩

/-- **C41**: values that do not convert are rejected with InvalidCastException (and null with ArgumentNullException); out-of-range
tuples of the array's rank throw IndexOutOfRangeException. -/
theorem C41_rejects (F : FConv) (sh : Shape) (a : Arr) (v : Ob) (ix : Idx) (h : HasShape sh a) :
    setAt F a none ix = .throw .argumentNull ∧
    (ix.rank = sh.rank → ¬ InBounds sh ix → setAt F a (some v) ix = .throw .indexOutOfRange ∧ getAt a ix = .throw .indexOutOfRange) ∧
    (InBounds sh ix → v.val = .opaque → a.ty ≠ .object → a.ty ≠ .string → setAt F a (some v) ix = .throw .invalidCast) ∧
    (InBounds sh ix → (∃ t, v.val = .dateTime t) → a.ty ≠ .object → a.ty ≠ .string → a.ty ≠ .dateTime → setAt F a (some v) ix = .throw .invalidCast) ∧
    (InBounds sh ix → (∃ t, v.val = .timeSpan t) → a.ty ≠ .object → a.ty ≠ .string → a.ty ≠ .timeSpan → setAt F a (some v) ix = .throw .invalidCast) := by
  have fin : InBounds sh ix → storeBytes F a.ty v = .throw .invalidCast → setAt F a (some v) ix = .throw .invalidCast := by
    intro hb hs
    obtain ⟨h1, _⟩ := addressOf_ok h hb
    unfold setAt setValue
    simp only []
    unfold addressOf at h1
    rw [h1, Res.bind_ok, hs]; rfl
  refine ⟨rfl, fun hr hb => ?_, fun hb hv h1 h2 => fin hb ?_, fun hb hv h1 h2 h3 => fin hb ?_, fun hb hv h1 h2 h3 => fin hb ?_⟩
  · have := (C40_addressing sh a h).2.2.2 ix hr hb
    unfold addressOf at this
    unfold setAt setValue getAt getValue
    simp only []
    rw [this]; exact ⟨rfl, rfl⟩
  · obtain ⟨ad, val⟩ := v
    simp only at hv; subst hv
    cases hty : a.ty with
    | int t => cases t <;> rfl
    | object => exact absurd hty h1
    | string => exact absurd hty h2
    | _ => rfl
  · obtain ⟨t, hv⟩ := hv
    obtain ⟨ad, val⟩ := v
    simp only at hv; subst hv
    cases hty : a.ty with
    | int t => cases t <;> rfl
    | object => exact absurd hty h1
    | string => exact absurd hty h2
    | dateTime => exact absurd hty h3
    | _ => rfl
  · obtain ⟨t, hv⟩ := hv
    obtain ⟨ad, val⟩ := v
    simp only at hv; subst hv
    cases hty : a.ty with
    | int t => cases t <;> rfl
    | object => exact absurd hty h1
    | string => exact absurd hty h2
    | timeSpan => exact absurd hty h3
    | _ => rfl

example : ∃ a, newArr (.int .int32) 4 (-1) (-1) = .ok a ∧ setAt F0 a (some ⟨4096, .opaque⟩) (.one 3) = .throw .invalidCast ∧
    setAt F0 a (some ⟨4096, .opaque⟩) (.one 4) = .throw .indexOutOfRange := ⟨_, rfl, rfl, rfl⟩

/-- **C41** is false of the code: a Char element set from the Int16 -1 reads back as the character value -1, outside the 16-bit
range (.NET: U+FFFF), because the cast goes to the 4-byte `wchar_t`. -/
theorem C41_char_refuted : ∃ a a', newArr .char 1 (-1) (-1) = .ok a ∧ setAt F0 a (some ⟨4096, .int .int16 (-1)⟩) (.one 0) = .ok a' ∧
    getAt a' (.one 0) = .ok (.box (.char (-1))) := ⟨_, _, rfl, rfl, rfl⟩

/-- **C41** is false of the code: a Double that fits UInt64 but not Int64 cannot be stored in a UInt64 array, because the switch
asks for the Int64 value. -/
theorem C41_double_to_uint64_refuted (F : FConv) (sh : Shape) (a : Arr) (ad bits x : Int) (ix : Idx) (h : HasShape sh a) (hb : InBounds sh ix)
    (ht : a.ty = .int .uint64) (h1 : F.dToI .uint64 bits = .ok x) (h2 : F.dToI .int64 bits = .ub) :
    setAt F a (some ⟨ad, .double bits⟩) ix = .ub := by
  obtain ⟨e1, _⟩ := addressOf_ok h hb
  unfold setAt setValue
  simp only []
  unfold addressOf at e1
  rw [e1, Res.bind_ok, ht]
  show (Res.bind (Res.bind (F.dToI .int64 bits) _) _) = _
  rw [h2]; rfl

example : F0.dToI .uint64 4895412794951729152 = .ok 7 ∧ F0.dToI .int64 4895412794951729152 = .ub := by decide

/-! ## Index arrays -/

theorem entry_ok {n : Int} {ix : Arr} {k : Int} {x : Int} (h : HasShape (.one n) ix) (ht : ix.ty = .int .int32) (h0 : 0 ≤ k) (h1 : k < n)
    (hx : getAt ix (.one k) = .ok (.box (.int .int32 x))) : indexEntry ix k = .ok x := by
  obtain ⟨e1, e2, e3⟩ := addressOf_ok (ix := .one k) h ⟨h0, h1⟩
  unfold getAt getValue at hx
  unfold addressOf at e1
  simp only [Idx.args] at e1 hx
  unfold indexEntry
  rw [e1, Res.bind_ok] at hx ⊢
  rw [ht] at hx ⊢
  have : ((DT.int Ty.int32).size : Int) = 4 := rfl
  rw [this] at hx ⊢
  cases hp : peek ix.data (rowMajor (.one n) (.one k) * 4) 4 with
  | none => rw [hp] at hx; cases hx
  | some bs =>
    rw [hp] at hx
    simp only [loadBytes, loadInt, Res.ok.injEq, Got.box.injEq, Val.int.injEq, true_and] at hx
    simp only []; rw [hx]

/-- **C41**: `GetValue(indices)`/`SetValue(value, indices)` with a one-dimensional Int32 array of 1 to 3 entries are the calls with
those indices. -/
theorem C41_index_array (F : FConv) (a : Arr) (v : Option Ob) (ix : Idx) (ia : Arr) (h : HasShape (.one ix.rank) ia) (ht : ia.ty = .int .int32)
    (he : match ix with
      | .one i => getAt ia (.one 0) = .ok (.box (.int .int32 i))
      | .two i j => getAt ia (.one 0) = .ok (.box (.int .int32 i)) ∧ getAt ia (.one 1) = .ok (.box (.int .int32 j))
      | .three i j k => getAt ia (.one 0) = .ok (.box (.int .int32 i)) ∧ getAt ia (.one 1) = .ok (.box (.int .int32 j)) ∧
          getAt ia (.one 2) = .ok (.box (.int .int32 k))) :
    getValueAt a (some ia) = getAt a ix ∧ setValueAt F a v (some ia) = setAt F a v ix := by
  have key : indexEntries (some ia) = .ok (some ix.args) := by
    have hd : ia.dims = 1 := h.dims
    cases ix with
    | one i =>
      have h1 : ia.d1 = 1 := h.d1
      unfold indexEntries ensureSingle
      simp only []
      rw [hd, h1, if_neg (by omega), Res.bind_ok]
      rw [if_neg (by omega), if_neg (by omega), entry_ok h ht (by omega) (by simp [Idx.rank]) he, Res.bind_ok, if_neg (by omega), Res.bind_ok, if_neg (by omega), Res.bind_ok]
      rfl
    | two i j =>
      have h1 : ia.d1 = 2 := h.d1
      unfold indexEntries ensureSingle
      simp only []
      rw [hd, h1, if_neg (by omega), Res.bind_ok]
      rw [if_neg (by omega), if_neg (by omega), entry_ok h ht (by omega) (by simp [Idx.rank]) he.1, Res.bind_ok, if_pos (by omega), entry_ok h ht (by omega) (by simp [Idx.rank]) he.2, Res.bind_ok, if_neg (by omega), Res.bind_ok]
      rfl
    | three i j k =>
      have h1 : ia.d1 = 3 := h.d1
      unfold indexEntries ensureSingle
      simp only []
      rw [hd, h1, if_neg (by omega), Res.bind_ok]
      rw [if_neg (by omega), if_neg (by omega), entry_ok h ht (by omega) (by simp [Idx.rank]) he.1, Res.bind_ok, if_pos (by omega), entry_ok h ht (by omega) (by simp [Idx.rank]) he.2.1, Res.bind_ok, if_pos (by omega), entry_ok h ht (by omega) (by simp [Idx.rank]) he.2.2, Res.bind_ok]
      rfl
  unfold getValueAt setValueAt
  rw [key, Res.bind_ok, Res.bind_ok]
  exact ⟨rfl, rfl⟩

/-- A one-dimensional array of the given type holding bytes, for examples. -/
def mk1 (ty : DT) (n : Int) (bytes : List Nat) : Arr := ⟨ty, n, -1, -1, 1, n, bytes⟩

example : getValueAt (mk1 .char 2 [65, 0, 0, 0, 66, 0, 0, 0]) (some (mk1 (.int .int32) 1 [1, 0, 0, 0])) = .ok (.box (.char 66)) := by decide +kernel

/-- **C41** is false of the code: with an empty index array `GetValue` answers a null reference and `SetValue` does nothing, for every array (.NET
throws ArgumentException). -/
theorem C41_empty_index_refuted (F : FConv) (a : Arr) (v : Option Ob) (ia : Arr) (h : HasShape (.one 0) ia) :
    getValueAt a (some ia) = .ok (.ptr 0) ∧ setValueAt F a v (some ia) = .ok a := by
  have key : indexEntries (some ia) = .ok none := by
    have hd : ia.dims = 1 := h.dims
    have h1 : ia.d1 = 0 := h.d1
    unfold indexEntries ensureSingle
    simp only []
    rw [hd, h1, if_neg (by omega), Res.bind_ok, if_neg (by omega), if_pos rfl]
  unfold getValueAt setValueAt
  rw [key, Res.bind_ok, Res.bind_ok]
  exact ⟨rfl, rfl⟩

example : getValueAt (mk1 .char 1 [65, 0, 0, 0]) (some (mk1 (.int .int32) 0 [])) = .ok (.ptr 0) := by decide +kernel

/-! ## C42: Copy, CopyTo, Clear -/

theorem toNat_mul_size {x : Int} (h : 0 ≤ x) (s : Nat) : (x * (s : Int)).toNat = x.toNat * s := by
  rw [Int.toNat_mul h (by omega)]; simp

theorem block_move {src dst : List Nat} {s : Nat} {si di n : Int} (h0 : 0 ≤ si) (h1 : 0 ≤ di) (h2 : 0 ≤ n)
    (h3 : si * s + n * s ≤ src.length) (h4 : di * s + n * s ≤ dst.length) :
    ∃ bs d, peek src (si * s) (n * s) = some bs ∧ poke dst (di * s) bs = some d ∧ d.length = dst.length ∧
      ∀ m : Nat, (d.drop (m * s)).take s = if di ≤ m ∧ m < di + n then (src.drop ((si.toNat + (m - di.toNat)) * s)).take s else (dst.drop (m * s)).take s := by
  have p0 := Int.mul_nonneg h0 (show (0 : Int) ≤ s by omega)
  have p1 := Int.mul_nonneg h1 (show (0 : Int) ≤ s by omega)
  have p2 := Int.mul_nonneg h2 (show (0 : Int) ≤ s by omega)
  have hlen : ((src.drop (si * (s : Int)).toNat).take (n * (s : Int)).toNat).length = (n * (s : Int)).toNat := by
    rw [List.length_take, List.length_drop]; omega
  obtain ⟨d, hd, hdl, hdg⟩ := poke_some (buf := dst) (i := di * s) (xs := (src.drop (si * (s : Int)).toNat).take (n * (s : Int)).toNat) p1 (by rw [hlen]; omega)
  refine ⟨_, d, peek_some p0 p2 h3, hd, hdl, fun m => ?_⟩
  rw [hlen, toNat_mul_size h0, toNat_mul_size h1, toNat_mul_size h2] at hdg
  have hs : (si.toNat + n.toNat) * s ≤ src.length := by
    rw [Nat.add_mul, ← toNat_mul_size h0, ← toNat_mul_size h2]; omega
  have := cell_poke_block (s := s) (k := si.toNat) (n := n.toNat) (t := di.toNat) hs hdg m
  rw [this]
  by_cases hm : di ≤ m ∧ (m : Int) < di + n
  · rw [if_pos hm, if_pos (by omega)]
  · rw [if_neg hm, if_neg (by omega)]

theorem range_bytes {sh : Shape} {a : Arr} (h : HasShape sh a) {i n : Int} (h0 : 0 ≤ i) (h1 : 0 ≤ n) (h2 : i + n ≤ sh.cells) :
    0 ≤ i * (a.ty.size : Int) ∧ 0 ≤ n * (a.ty.size : Int) ∧ i * (a.ty.size : Int) + n * (a.ty.size : Int) ≤ a.data.length ∧ (a.data.length : Int) ≤ 2147483647 := by
  have e := mul_fit (s := a.ty.size) (show 0 ≤ i + n by omega) h2 (by omega)
  rw [Int.add_mul] at e
  have hby := h.bytes
  have := h.fitsBytes
  exact ⟨Int.mul_nonneg h0 (by omega), Int.mul_nonneg h1 (by omega), by omega, by omega⟩

/-- **C42** (any rank, elements in storage order): `Copy(src, si, dst, di, n)` between two arrays of one type and rank and a range
inside both makes elements `di..di+n` of the destination equal to elements `si..si+n` of the source and leaves the rest. -/
theorem C42_copy_cells (shs shd : Shape) (src dst : Arr) (hs : HasShape shs src) (hd : HasShape shd dst) (ht : src.ty = dst.ty)
    (hrk : shs.rank = shd.rank) (si di n : Int) (h0 : 0 ≤ si) (h1 : 0 ≤ di) (h2 : 0 ≤ n) (h3 : si + n ≤ src.total) (h4 : di + n ≤ dst.total) :
    ∃ dst', copy (some src) si (some dst) di n = .ok dst' ∧ HasShape shd dst' ∧ dst'.ty = dst.ty ∧
      ∀ m : Nat, cell dst' m = if di ≤ m ∧ m < di + n then cell src (si.toNat + (m - di.toNat)) else cell dst m := by
  have hst := hs.total
  have hdt := hd.total
  have f1 := hs.fits
  have f2 := hd.fits
  obtain ⟨a1, a2, a3, a4⟩ := range_bytes hs h0 h2 (by omega)
  obtain ⟨b1, b2, b3, b4⟩ := range_bytes hd h1 h2 (by omega)
  rw [← ht] at b1 b2 b3
  obtain ⟨bs, d, k1, k2, k3, k4⟩ := block_move (s := src.ty.size) h0 h1 h2 a3 b3
  refine ⟨{ dst with data := d }, ?_, ?_, rfl, fun m => ?_⟩
  · unfold copy copyChecks
    simp only []
    rw [if_neg (by omega), if_neg (by omega), i32_ok (x := si + n) (by unfold I32; omega), Res.bind_ok, if_neg (by omega),
      i32_ok (x := di + n) (by unfold I32; omega), Res.bind_ok, if_neg (by omega), hs.dims, hd.dims, if_neg (by simp [hrk]), if_neg (by simp [ht]), Res.bind_ok,
      i32_ok (by unfold I32; omega), Res.bind_ok, i32_ok (by unfold I32; omega), Res.bind_ok, i32_ok (by unfold I32; omega), Res.bind_ok, k1]
    simp only []
    rw [k2]
  · exact ⟨hd.nonneg, hd.d1, hd.d2, hd.d3, hd.dims, hd.total, by rw [k3]; exact hd.bytes, hd.fits, hd.fitsBytes⟩
  · have := k4 m
    unfold cell
    rw [ht] at this ⊢
    exact this

example : copy (some (mk1 (.int .int16) 3 [1, 0, 2, 0, 3, 0])) 1 (some (mk1 (.int .int16) 4 [9, 9, 9, 9, 9, 9, 9, 9])) 2 2 =
    .ok (mk1 (.int .int16) 4 [9, 9, 9, 9, 2, 0, 3, 0]) := by decide +kernel

theorem getAt_one {A : Int} {a : Arr} (h : HasShape (.one A) a) {k : Int} (h0 : 0 ≤ k) (h1 : k < A) :
    getAt a (.one k) = loadBytes a.ty (cell a k.toNat) := getAt_cell (ix := .one k) h ⟨h0, h1⟩

/-- **C42**: on one-dimensional arrays, in terms of `GetValue`. -/
theorem C42_copy (A B : Int) (src dst : Arr) (hs : HasShape (.one A) src) (hd : HasShape (.one B) dst) (ht : src.ty = dst.ty)
    (si di n : Int) (h0 : 0 ≤ si) (h1 : 0 ≤ di) (h2 : 0 ≤ n) (h3 : si + n ≤ A) (h4 : di + n ≤ B) :
    ∃ dst', copy (some src) si (some dst) di n = .ok dst' ∧ HasShape (.one B) dst' ∧ dst'.ty = dst.ty ∧
      ∀ k, 0 ≤ k → k < B → getAt dst' (.one k) = if di ≤ k ∧ k < di + n then getAt src (.one (si + (k - di))) else getAt dst (.one k) := by
  obtain ⟨d, e1, e2, e3, e4⟩ := C42_copy_cells _ _ src dst hs hd ht rfl si di n h0 h1 h2 (by rw [hs.total]; exact h3) (by rw [hd.total]; exact h4)
  refine ⟨d, e1, e2, e3, fun k hk0 hk1 => ?_⟩
  rw [getAt_one e2 hk0 hk1, e3, e4, getAt_one hd hk0 hk1]
  by_cases hk : di ≤ k ∧ k < di + n
  · rw [if_pos hk, if_pos (by omega), getAt_one hs (by omega) (by omega), ht]
    congr 2; omega
  · rw [if_neg hk, if_neg (by omega)]

example : HasShape (.one 3) (mk1 (.int .int16) 3 [1, 0, 2, 0, 3, 0]) := ⟨by decide, rfl, rfl, rfl, rfl, rfl, by decide, by decide, by decide⟩

/-- **C42**: bad arguments of `Copy` throw: null, negative length, negative index, a range outside an array (as long as
`index + length` fits Int32), different ranks, different element types. The destination is not touched. -/
theorem C42_copy_rejects (shs shd : Shape) (src dst : Arr) (hs : HasShape shs src) (hd : HasShape shd dst) (si di n : Int) :
    copy none si (some dst) di n = .throw .argumentNull ∧ copy (some src) si none di n = .throw .argumentNull ∧
    (n < 0 → copy (some src) si (some dst) di n = .throw .argumentOutOfRange) ∧
    (0 ≤ n → si < 0 ∨ di < 0 → copy (some src) si (some dst) di n = .throw .argument) ∧
    (0 ≤ n → 0 ≤ si → 0 ≤ di → si + n ≤ 2147483647 → di + n ≤ 2147483647 → si + n > src.total ∨ di + n > dst.total →
      copy (some src) si (some dst) di n = .throw .argument) ∧
    (0 ≤ n → 0 ≤ si → 0 ≤ di → si + n ≤ src.total → di + n ≤ dst.total → shs.rank ≠ shd.rank →
      copy (some src) si (some dst) di n = .throw .rank) ∧
    (0 ≤ n → 0 ≤ si → 0 ≤ di → si + n ≤ src.total → di + n ≤ dst.total → shs.rank = shd.rank → src.ty ≠ dst.ty →
      copy (some src) si (some dst) di n = .throw .notImplemented) := by
  have f1 := hs.fits
  have f2 := hd.fits
  have t1 := hs.total
  have t2 := hd.total
  refine ⟨rfl, rfl, fun h => ?_, fun h h' => ?_, fun h a b c d e => ?_, fun h a b c d e => ?_, fun h a b c d e f => ?_⟩ <;> unfold copy copyChecks <;> simp only []
  · rw [if_pos h]; rfl
  · rw [if_neg (by omega), if_pos h']; rfl
  · rw [if_neg (by omega), if_neg (by omega), i32_ok (x := si + n) (by unfold I32; omega), Res.bind_ok]
    by_cases hx : si + n > src.total
    · rw [if_pos hx]; rfl
    · rw [if_neg hx, i32_ok (x := di + n) (by unfold I32; omega), Res.bind_ok, if_pos (by omega)]; rfl
  · rw [if_neg (by omega), if_neg (by omega), i32_ok (x := si + n) (by unfold I32; omega), Res.bind_ok, if_neg (by omega),
      i32_ok (x := di + n) (by unfold I32; omega), Res.bind_ok, if_neg (by omega), hs.dims, hd.dims, if_pos e]; rfl
  · rw [if_neg (by omega), if_neg (by omega), i32_ok (x := si + n) (by unfold I32; omega), Res.bind_ok, if_neg (by omega),
      i32_ok (x := di + n) (by unfold I32; omega), Res.bind_ok, if_neg (by omega), hs.dims, hd.dims, if_neg (by simp [e]), if_pos f]; rfl

example : copy (some (mk1 .boolean 2 [0, 1])) 1 (some (mk1 .boolean 2 [0, 0])) 0 2 = .throw .argument := by decide +kernel

/-- **C42** is false of the code: an index near the Int32 maximum overflows in `index + length` (undefined) instead of throwing. -/
theorem C42_copy_overflow_refuted (src dst : Arr) (n : Int) (h : 0 < n) : copy (some src) 2147483647 (some dst) 0 n = .ub := by
  unfold copy copyChecks
  simp only []
  rw [if_neg (by omega), if_neg (by omega)]
  have : i32 (2147483647 + n) = .ub := by unfold i32; rw [if_neg (by unfold I32; omega)]
  rw [this]; rfl

/-- **C42** (partial: ranges that do not overlap, or a platform whose `memcpy` tolerates overlap). `Copy` within one array behaves
as if through a temporary. -/
theorem C42_copy_within_partial (ov : Bool) (A : Int) (a : Arr) (ha : HasShape (.one A) a)
    (si di n : Int) (h0 : 0 ≤ si) (h1 : 0 ≤ di) (h2 : 0 ≤ n) (h3 : si + n ≤ A) (h4 : di + n ≤ A) (hov : ov = true ∨ si + n ≤ di ∨ di + n ≤ si) :
    ∃ a', copyWithin ov a si di n = .ok a' ∧ HasShape (.one A) a' ∧ a'.ty = a.ty ∧
      ∀ k, 0 ≤ k → k < A → getAt a' (.one k) = if di ≤ k ∧ k < di + n then getAt a (.one (si + (k - di))) else getAt a (.one k) := by
  have hst : a.total = A := ha.total
  have f1 : A ≤ 2147483647 := ha.fits
  obtain ⟨a1, a2, a3, a4⟩ := range_bytes ha h0 h2 h3
  obtain ⟨b1, b2, b3, b4⟩ := range_bytes ha h1 h2 h4
  obtain ⟨bs, d, k1, k2, k3, k4⟩ := block_move (s := a.ty.size) h0 h1 h2 a3 b3
  have hno : ¬ (ov = false ∧ si * (a.ty.size : Int) < di * a.ty.size + n * a.ty.size ∧ di * (a.ty.size : Int) < si * a.ty.size + n * a.ty.size) := by
    rintro ⟨g1, g2, g3⟩
    rcases hov with h | h | h
    · rw [h] at g1; cases g1
    · have := Int.mul_le_mul_of_nonneg_right h (show (0 : Int) ≤ a.ty.size by omega)
      rw [Int.add_mul] at this; omega
    · have := Int.mul_le_mul_of_nonneg_right h (show (0 : Int) ≤ a.ty.size by omega)
      rw [Int.add_mul] at this; omega
  have hsh : HasShape (.one A) { a with data := d } := ⟨ha.nonneg, ha.d1, ha.d2, ha.d3, ha.dims, ha.total, by rw [k3]; exact ha.bytes, ha.fits, ha.fitsBytes⟩
  refine ⟨{ a with data := d }, ?_, hsh, rfl, fun k hk0 hk1 => ?_⟩
  · unfold copyWithin copyChecks
    rw [if_neg (by omega), if_neg (by omega), i32_ok (x := si + n) (by unfold I32; omega), Res.bind_ok, if_neg (by omega),
      i32_ok (x := di + n) (by unfold I32; omega), Res.bind_ok, if_neg (by omega), if_neg (by simp), if_neg (by simp), Res.bind_ok,
      i32_ok (by unfold I32; omega), Res.bind_ok, i32_ok (by unfold I32; omega), Res.bind_ok, i32_ok (by unfold I32; omega), Res.bind_ok, if_neg hno, k1]
    simp only []
    rw [k2]
  · rw [getAt_one hsh hk0 hk1, getAt_one ha hk0 hk1]
    have := k4 k.toNat
    unfold cell
    show loadBytes a.ty ((d.drop (k.toNat * a.ty.size)).take a.ty.size) = _
    rw [this]
    by_cases hk : di ≤ k ∧ k < di + n
    · rw [if_pos hk, if_pos (by omega), getAt_one ha (by omega) (by omega)]
      unfold cell
      congr 4; omega
    · rw [if_neg hk, if_neg (by omega)]

example : copyWithin true (mk1 (.int .byte) 5 [1, 2, 3, 4, 5]) 0 1 4 = .ok (mk1 (.int .byte) 5 [1, 1, 2, 3, 4]) ∧
    copyWithin false (mk1 (.int .byte) 5 [1, 2, 3, 4, 5]) 0 3 2 = .ok (mk1 (.int .byte) 5 [1, 2, 3, 1, 2]) := by decide +kernel

/-- **C42** is false of the code: every overlapping copy of a non-empty range within one array is undefined (it uses `memcpy`,
not `memmove`). -/
theorem C42_copy_overlap_refuted (A : Int) (a : Arr) (ha : HasShape (.one A) a) (hsz : 0 < a.ty.size)
    (si di n : Int) (h0 : 0 ≤ si) (h1 : 0 ≤ di) (h3 : si + n ≤ A) (h4 : di + n ≤ A) (h5 : si < di + n) (h6 : di < si + n) (h2 : 0 < n) :
    copyWithin false a si di n = .ub := by
  have hst : a.total = A := ha.total
  have f1 : A ≤ 2147483647 := ha.fits
  obtain ⟨a1, a2, a3, a4⟩ := range_bytes ha h0 (show 0 ≤ n by omega) h3
  obtain ⟨b1, b2, b3, b4⟩ := range_bytes ha h1 (show 0 ≤ n by omega) h4
  have m1 := Int.mul_lt_mul_of_pos_right h5 (show (0 : Int) < a.ty.size by omega)
  have m2 := Int.mul_lt_mul_of_pos_right h6 (show (0 : Int) < a.ty.size by omega)
  rw [Int.add_mul] at m1 m2
  unfold copyWithin copyChecks
  rw [if_neg (by omega), if_neg (by omega), i32_ok (x := si + n) (by unfold I32; omega), Res.bind_ok, if_neg (by omega),
      i32_ok (x := di + n) (by unfold I32; omega), Res.bind_ok, if_neg (by omega), if_neg (by simp), if_neg (by simp), Res.bind_ok,
      i32_ok (by unfold I32; omega), Res.bind_ok, i32_ok (by unfold I32; omega), Res.bind_ok, i32_ok (by unfold I32; omega), Res.bind_ok, if_pos ⟨rfl, m1, m2⟩]

example : copyWithin false (mk1 (.int .byte) 5 [1, 2, 3, 4, 5]) 0 1 4 = .ub := by decide +kernel

/-- **C42**: `CopyTo(target, index)` of a one-dimensional array copies all elements behind `index`. -/
theorem C42_copy_to (A B : Int) (src dst : Arr) (hs : HasShape (.one A) src) (hd : HasShape (.one B) dst) (ht : src.ty = dst.ty)
    (i : Int) (h1 : 0 ≤ i) (h4 : i + A ≤ B) :
    ∃ dst', copyTo src (some dst) i = .ok dst' ∧ HasShape (.one B) dst' ∧ dst'.ty = dst.ty ∧
      ∀ k, 0 ≤ k → k < B → getAt dst' (.one k) = if i ≤ k ∧ k < i + A then getAt src (.one (k - i)) else getAt dst (.one k) := by
  have hA : 0 ≤ A := hs.nonneg
  have f2 : B ≤ 2147483647 := hd.fits
  obtain ⟨d, e1, e2, e3, e4⟩ := C42_copy A B src dst hs hd ht 0 i A (by omega) h1 hA (by omega) h4
  refine ⟨d, ?_, e2, e3, fun k a b => ?_⟩
  · have d1 : dst.dims = 1 := hd.dims
    have t1 : src.total = A := hs.total
    have s1 : src.d1 = A := hs.d1
    unfold copyTo verifyRange ensureSingle
    simp only []
    rw [if_neg (by omega), Res.bind_ok, Res.bind_ok, t1, i32_ok (by unfold I32; omega), Res.bind_ok, Res.bind_ok, s1]
    exact e1
  · rw [e4 k a b]; split
    · congr 2; omega
    · rfl

example : copyTo (mk1 (.int .byte) 2 [7, 8]) (some (mk1 (.int .byte) 4 [1, 2, 3, 4])) 1 = .ok (mk1 (.int .byte) 4 [1, 7, 8, 4]) := by decide +kernel

/-- **C42** (partial: ranges inside the array). `Clear(array, start, n)` zeroes exactly the elements `start..start+n`. -/
theorem C42_clear_partial (A : Int) (a : Arr) (ha : HasShape (.one A) a) (i n : Int) (h0 : 0 ≤ i) (h2 : 0 ≤ n) (h3 : i + n ≤ A) :
    ∃ a', clear (some a) i n = .ok a' ∧ HasShape (.one A) a' ∧ a'.ty = a.ty ∧
      ∀ k, 0 ≤ k → k < A → (i ≤ k ∧ k < i + n → cell a' k.toNat = List.replicate a.ty.size 0) ∧
        (¬ (i ≤ k ∧ k < i + n) → getAt a' (.one k) = getAt a (.one k)) := by
  have f1 : A ≤ 2147483647 := ha.fits
  have d1 : a.dims = 1 := ha.dims
  obtain ⟨a1, a2, a3, a4⟩ := range_bytes ha h0 h2 h3
  have hz : (List.replicate (n * (a.ty.size : Int)).toNat 0).length = (n * (a.ty.size : Int)).toNat := by simp
  obtain ⟨bs, d, k1, k2, k3, k4⟩ := block_move (src := List.replicate (n * (a.ty.size : Int)).toNat 0) (dst := a.data) (s := a.ty.size) (si := 0) (by omega) h0 h2
    (by rw [hz]; omega) a3
  have hbs : bs = List.replicate (n * (a.ty.size : Int)).toNat 0 := by
    rw [peek_some (by omega) a2 (by rw [hz]; omega)] at k1
    injection k1 with k1
    rw [← k1]; simp
  subst hbs
  have hsh : HasShape (.one A) { a with data := d } := ⟨ha.nonneg, ha.d1, ha.d2, ha.d3, ha.dims, ha.total, by rw [k3]; exact ha.bytes, ha.fits, ha.fitsBytes⟩
  refine ⟨{ a with data := d }, ?_, hsh, rfl, fun k hk0 hk1 => ⟨fun hk => ?_, fun hk => ?_⟩⟩
  · unfold clear verifyRange ensureSingle
    simp only []
    rw [if_neg (by omega), Res.bind_ok, Res.bind_ok, i32_ok (x := i + n) (by unfold I32; omega), Res.bind_ok, Res.bind_ok,
      i32_ok (by unfold I32; omega), Res.bind_ok, i32_ok (by unfold I32; omega), Res.bind_ok, if_neg (by omega), k2]
  · show (d.drop (k.toNat * a.ty.size)).take a.ty.size = _
    rw [k4, if_pos (by omega), List.drop_replicate, List.take_replicate]
    congr 1
    rw [toNat_mul_size h2, ← Nat.sub_mul]
    have : 1 * a.ty.size ≤ (n.toNat - ((0:Int).toNat + (k.toNat - i.toNat))) * a.ty.size := Nat.mul_le_mul_right _ (by omega)
    omega
  · rw [getAt_one hsh hk0 hk1, getAt_one ha hk0 hk1]
    show loadBytes a.ty ((d.drop (k.toNat * a.ty.size)).take a.ty.size) = _
    rw [k4, if_neg (by omega)]; rfl

example : clear (some (mk1 (.int .byte) 5 [1, 2, 3, 4, 5])) 1 3 = .ok (mk1 (.int .byte) 5 [1, 0, 0, 0, 5]) := by decide +kernel

/-- **C42** is false of the code: `Clear` with any range outside the array (negative start, negative count, or end beyond the
length) is undefined behaviour; no exception is ever thrown, since the range check only creates exception objects. -/
theorem C42_clear_refuted (A : Int) (a : Arr) (ha : HasShape (.one A) a) (hsz : 0 < a.ty.size) (i n : Int)
    (hbad : i < 0 ∨ n < 0 ∨ i + n > A) : clear (some a) i n = .ub := by
  have d1 : a.dims = 1 := ha.dims
  have hby : (a.data.length : Int) = A * a.ty.size := ha.bytes
  have hA : 0 ≤ A := ha.nonneg
  unfold clear verifyRange ensureSingle
  simp only []
  rw [if_neg (by omega), Res.bind_ok, Res.bind_ok]
  by_cases g1 : I32 (i + n)
  · rw [i32_ok g1, Res.bind_ok, Res.bind_ok]
    by_cases g2 : I32 (i * (a.ty.size : Int))
    · rw [i32_ok g2, Res.bind_ok]
      by_cases g3 : I32 (n * (a.ty.size : Int))
      · rw [i32_ok g3, Res.bind_ok]
        by_cases g4 : n * (a.ty.size : Int) < 0
        · rw [if_pos g4]
        · rw [if_neg g4]
          have hn : 0 ≤ n := by
            rcases (show n < 0 ∨ 0 ≤ n by omega) with h | h
            · have := Int.mul_lt_mul_of_pos_right h (show (0 : Int) < a.ty.size by omega)
              rw [Int.zero_mul] at this; omega
            · exact h
          have : poke a.data (i * (a.ty.size : Int)) (List.replicate (n * (a.ty.size : Int)).toNat 0) = none := by
            unfold poke
            rw [if_neg]
            rw [List.length_replicate]
            rintro ⟨p1, p2⟩
            rcases hbad with h | h | h
            · have := Int.mul_lt_mul_of_pos_right h (show (0 : Int) < a.ty.size by omega)
              rw [Int.zero_mul] at this; omega
            · omega
            · have := Int.mul_lt_mul_of_pos_right h (show (0 : Int) < a.ty.size by omega)
              rw [Int.add_mul] at this; omega
          rw [this]
      · unfold i32; rw [if_neg g3]; rfl
    · have : i32 (i * (a.ty.size : Int)) = .ub := by unfold i32; rw [if_neg g2]
      rw [this]; rfl
  · have : i32 (i + n) = .ub := by unfold i32; rw [if_neg g1]
    rw [this]; rfl

example : clear (some (mk1 (.int .byte) 5 [1, 2, 3, 4, 5])) 4 2 = .ub := by decide +kernel

/-! ## C43: shape -/

/-- **C43** (partial: the dimension number is not negative and not equal to the rank). `Rank` and `Length` are the declared ones,
`GetLength(d)` is the size of dimension `d` and throws for `d > Rank`; bounds are `0` and `size - 1`. -/
theorem C43_shape_partial (sh : Shape) (a : Arr) (h : HasShape sh a) (d : Int) :
    a.dims = sh.rank ∧ length a = sh.cells ∧
    (0 ≤ d → d < sh.rank → ∃ n, sh.size d = some n ∧ getLength a d = .ok n ∧ getLowerBound a d = .ok 0 ∧ (n ≤ 2147483647 → getUpperBound a d = .ok (n - 1))) ∧
    (d > sh.rank → getLength a d = .throw .indexOutOfRange ∧ getLowerBound a d = .throw .indexOutOfRange ∧ getUpperBound a d = .throw .indexOutOfRange) := by
  have e0 := h.dims
  have e1 := h.d1
  have e2 := h.d2
  have e3 := h.d3
  have hn := h.nonneg
  refine ⟨e0, h.total, fun h0 h1 => ?_, fun h1 => ?_⟩
  · have key : ∃ n, sh.size d = some n ∧ 0 ≤ n ∧ getLength a d = .ok n := by
      unfold getLength
      rw [e0, if_neg (by omega), e1, e2, e3]
      cases sh <;> simp only [Shape.rank, Shape.size, Shape.args, Shape.NonNeg] at *
      · have : d = 0 := by omega
        subst this; exact ⟨_, rfl, hn, rfl⟩
      · rcases (show d = 0 ∨ d = 1 by omega) with rfl | rfl
        · exact ⟨_, rfl, hn.1, rfl⟩
        · exact ⟨_, rfl, hn.2, rfl⟩
      · rcases (show d = 0 ∨ d = 1 ∨ d = 2 by omega) with rfl | rfl | rfl
        · exact ⟨_, rfl, hn.1, rfl⟩
        · exact ⟨_, rfl, hn.2.1, rfl⟩
        · exact ⟨_, rfl, hn.2.2, rfl⟩
    obtain ⟨n, k1, k2, k3⟩ := key
    refine ⟨n, k1, k3, ?_, fun hle => ?_⟩
    · unfold getLowerBound; rw [e0, if_neg (by omega)]
    · unfold getUpperBound; rw [e0, if_neg (by omega), k3, Res.bind_ok, i32_ok (by unfold I32; omega)]
  · unfold getLength getLowerBound getUpperBound
    rw [e0, if_pos h1, if_pos h1, if_pos h1]
    exact ⟨rfl, rfl, rfl⟩

example : ∃ a, newArr .char 2 3 (-1) = .ok a ∧ getLength a 1 = .ok 3 ∧ getUpperBound a 0 = .ok 1 ∧ getLength a 3 = .throw .indexOutOfRange := ⟨_, rfl, rfl, rfl, rfl⟩

/-- **C43** is false of the code: `GetLength(Rank)` and `GetLength` of a negative dimension answer -1 on every array instead of
throwing (the test is `rank > dimensionCount`). -/
theorem C43_get_length_refuted (sh : Shape) (a : Arr) (h : HasShape sh a) :
    getLength a sh.rank = .ok (-1) ∧ (∀ d, d < 0 → getLength a d = .ok (-1)) ∧ getLowerBound a sh.rank = .ok 0 ∧ getUpperBound a sh.rank = .ok (-2) := by
  have e0 := h.dims
  have e1 := h.d1
  have e2 := h.d2
  have e3 := h.d3
  have key : getLength a sh.rank = .ok (-1) := by
    unfold getLength
    rw [e0, if_neg (by omega)]
    cases sh <;> simp only [Shape.rank, Shape.args] at * <;> simp [e2, e3]
  have hr : 1 ≤ sh.rank := by cases sh <;> simp [Shape.rank]
  refine ⟨key, fun d hd => ?_, ?_, ?_⟩
  · unfold getLength
    rw [e0, if_neg (by omega), if_neg (by omega), if_neg (by omega), if_neg (by omega)]
  · unfold getLowerBound; rw [e0, if_neg (by omega)]
  · unfold getUpperBound; rw [e0, if_neg (by omega), key, Res.bind_ok]; decide

/-! ## C73: IndexOf -/

/-- Element `k` is what is searched for: null for null, otherwise what the element's own `Equals` says. -/
def Matches (eq : Int → Int → Bool) (a : Arr) (value k : Int) : Prop :=
  ∃ p, getAt a (.one k) = .ok (.ptr p) ∧ if p = 0 then value = 0 else eq p value = true

theorem indexOfLoop_spec (eq : Int → Int → Bool) {A : Int} {a : Arr} (value : Int) (h : HasShape (.one A) a) (ht : a.ty = .object ∨ a.ty = .string) :
    ∀ (n : Nat) (i : Int), 0 ≤ i → i + n ≤ A →
    ∃ r, indexOfLoop eq a value n i = .ok r ∧
      ((r = -1 ∧ ∀ k, i ≤ k → k < i + n → ¬ Matches eq a value k) ∨
       (i ≤ r ∧ r < i + n ∧ Matches eq a value r ∧ ∀ k, i ≤ k → k < r → ¬ Matches eq a value k))
  | 0, i, _, _ => ⟨-1, rfl, Or.inl ⟨rfl, fun k h1 h2 => by omega⟩⟩
  | n + 1, i, h0, h1 => by
    have hget : ∃ p, getAt a (.one i) = .ok (.ptr p) := by
      rw [getAt_one h h0 (by omega)]
      rcases ht with ht | ht <;> rw [ht] <;> exact ⟨_, rfl⟩
    obtain ⟨p, hp⟩ := hget
    have hp' : getValue a i (-1) (-1) = .ok (.ptr p) := hp
    obtain ⟨r, e1, e2⟩ := indexOfLoop_spec eq value h ht n (i + 1) (by omega) (by push_cast at h1; omega)
    have hm : Matches eq a value i ↔ if p = 0 then value = 0 else eq p value = true := by
      constructor
      · rintro ⟨q, hq, hc⟩
        rw [hp] at hq; injection hq with hq; injection hq with hq; subst hq; exact hc
      · intro hc; exact ⟨p, hp, hc⟩
    unfold indexOfLoop
    rw [hp', Res.bind_ok]
    simp only []
    by_cases hmi : Matches eq a value i
    · refine ⟨i, ?_, Or.inr ⟨by omega, by push_cast; omega, hmi, fun k a b => by omega⟩⟩
      rw [hm] at hmi
      by_cases hp0 : p = 0
      · rw [if_pos hp0] at hmi ⊢; rw [if_pos hmi]
      · rw [if_neg hp0] at hmi ⊢; rw [if_pos hmi]
    · refine ⟨r, ?_, ?_⟩
      · rw [hm] at hmi
        by_cases hp0 : p = 0
        · rw [if_pos hp0] at hmi ⊢; rw [if_neg hmi, e1]
        · rw [if_neg hp0] at hmi ⊢; rw [if_neg hmi, e1]
      · rcases e2 with ⟨c1, c2⟩ | ⟨c1, c2, c3, c4⟩
        · refine Or.inl ⟨c1, fun k ha hb => ?_⟩
          by_cases hk : k = i
          · subst hk; exact hmi
          · exact c2 k (by omega) (by push_cast at hb; omega)
        · refine Or.inr ⟨by omega, by push_cast; omega, c3, fun k ha hb => ?_⟩
          by_cases hk : k = i
          · subst hk; exact hmi
          · exact c4 k (by omega) hb

/-- **C73** (partial: arrays of references). `IndexOf(array, value, start, count)` (negative count: to the end) returns the first
position in the range whose element is null (searching null) or says it equals the value, or -1; whatever `Equals` does. -/
theorem C73_index_of_partial (eq : Int → Int → Bool) (A : Int) (a : Arr) (value : Int) (h : HasShape (.one A) a) (ht : a.ty = .object ∨ a.ty = .string)
    (i n : Int) (h0 : 0 ≤ i) (h1 : i ≤ A) (h2 : i + n ≤ A) :
    ∃ r, indexOf eq (some a) value i n = .ok r ∧
      ((r = -1 ∧ ∀ k, i ≤ k → k < (if n < 0 then A else i + n) → ¬ Matches eq a value k) ∨
       (i ≤ r ∧ r < (if n < 0 then A else i + n) ∧ Matches eq a value r ∧ ∀ k, i ≤ k → k < r → ¬ Matches eq a value k)) := by
  have d1 : a.dims = 1 := h.dims
  have t1 : a.total = A := h.total
  have f1 : A ≤ 2147483647 := h.fits
  have hty : ¬ (a.ty ≠ .object ∧ a.ty ≠ .string) := by rintro ⟨x, y⟩; exact ht.elim x y
  unfold indexOf
  simp only []
  rw [if_neg (by omega), t1]
  by_cases hn : n < 0
  · obtain ⟨r, e1, e2⟩ := indexOfLoop_spec eq value h ht (A - i).toNat i h0 (by omega)
    rw [if_pos hn, i32_ok (by unfold I32; omega), Res.bind_ok, if_neg (by omega), if_neg (by omega), if_neg hty, i32_ok (by unfold I32; omega), Res.bind_ok]
    refine ⟨r, e1, ?_⟩
    rw [show i + ((A - i).toNat : Int) = A by omega] at e2
    rw [if_pos hn]; exact e2
  · obtain ⟨r, e1, e2⟩ := indexOfLoop_spec eq value h ht n.toNat i h0 (by omega)
    rw [if_neg hn, Res.bind_ok, if_neg (by omega), if_neg (by omega), if_neg hty, i32_ok (by unfold I32; omega), Res.bind_ok]
    refine ⟨r, e1, ?_⟩
    rw [show i + (n.toNat : Int) = i + n by omega] at e2
    rw [if_neg hn]; exact e2

example : indexOf (fun p q => p == q) (some (mk1 .object 3 (leBytes 8 4096 ++ leBytes 8 0 ++ leBytes 8 8192))) 8192 0 (-1) = .ok 2 ∧
    indexOf (fun p q => p == q) (some (mk1 .object 3 (leBytes 8 4096 ++ leBytes 8 0 ++ leBytes 8 8192))) 0 0 (-1) = .ok 1 := by decide +kernel

/-- **C73**: null arrays, arrays of higher rank and ranges outside the array throw. -/
theorem C73_index_of_rejects (eq : Int → Int → Bool) (sh : Shape) (a : Arr) (value : Int) (h : HasShape sh a) (i n : Int) :
    indexOf eq none value i n = .throw .argumentNull ∧
    (sh.rank ≠ 1 → indexOf eq (some a) value i n = .throw .rank) ∧
    (sh.rank = 1 → 0 ≤ n → i < 0 ∨ i > a.total ∨ n > a.total - i → indexOf eq (some a) value i n = .throw .argumentOutOfRange) := by
  refine ⟨rfl, fun hr => ?_, fun hr hn hbad => ?_⟩ <;> unfold indexOf <;> simp only []
  · rw [h.dims, if_pos hr]
  · rw [h.dims, if_neg (by omega), if_neg (by omega), Res.bind_ok]
    by_cases hx : i < 0 ∨ i > a.total
    · rw [if_pos hx]
    · rw [if_neg hx, if_pos (by omega)]

example : indexOf (fun p q => p == q) (some (mk1 .object 1 (leBytes 8 4096))) 0 2 0 = .throw .argumentOutOfRange := by decide +kernel

/-- **C73** is false of the code: arrays of numbers (any element type other than references) always throw NotImplementedException,
for every value and every range inside the array. -/
theorem C73_index_of_values_refuted (eq : Int → Int → Bool) (A : Int) (a : Arr) (value : Int) (h : HasShape (.one A) a)
    (h1 : a.ty ≠ .object) (h2 : a.ty ≠ .string) (i n : Int) (h3 : 0 ≤ i) (h4 : 0 ≤ n) (h5 : i + n ≤ A) :
    indexOf eq (some a) value i n = .throw .notImplemented := by
  have d1 : a.dims = 1 := h.dims
  have t1 : a.total = A := h.total
  unfold indexOf
  simp only []
  rw [if_neg (by omega), t1, if_neg (by omega), Res.bind_ok, if_neg (by omega), if_neg (by omega), if_pos ⟨h1, h2⟩]

example : indexOf (fun p q => p == q) (some (mk1 (.int .byte) 1 [5])) 0 0 1 = .throw .notImplemented := by decide +kernel

end Verif.ArrProps
