import Verif.ArraySpec
import Verif.StringBuilderLemmas
set_option linter.unusedSimpArgs false
set_option linter.unusedVariables false
namespace Verif.ArrProps
open ArrModel ArrSpec
open SBModel (peek poke peek_some poke_some)
open IntVal (Ty)

/-! ## Row-major arithmetic -/

theorem rm_bound {i j a b : Int} (hi : 0 ≤ i ∧ i < a) (hj : 0 ≤ j ∧ j < b) :
    0 ≤ i * b ∧ 0 ≤ i * b + j ∧ i * b + j < a * b := by
  have h1 : 0 ≤ i * b := Int.mul_nonneg hi.1 (by omega)
  have h2 : i * b ≤ (a - 1) * b := Int.mul_le_mul_of_nonneg_right (by omega) (by omega)
  rw [Int.sub_mul, Int.one_mul] at h2
  omega

theorem rm_inj {i j i' j' b : Int} (hj : 0 ≤ j ∧ j < b) (hj' : 0 ≤ j' ∧ j' < b) (h : i * b + j = i' * b + j') : i = i' ∧ j = j' := by
  have hb : b ≠ 0 := by omega
  have e1 : (i * b + j) / b = i := by rw [Int.add_comm, Int.add_mul_ediv_right _ _ hb, Int.ediv_eq_zero_of_lt hj.1 hj.2]; omega
  have e2 : (i' * b + j') / b = i' := by rw [Int.add_comm, Int.add_mul_ediv_right _ _ hb, Int.ediv_eq_zero_of_lt hj'.1 hj'.2]; omega
  rw [h, e2] at e1
  subst e1
  exact ⟨rfl, by omega⟩

theorem rm_surj {n a b : Int} (h0 : 0 ≤ n) (h1 : n < a * b) (ha : 0 ≤ a) (hb : 0 ≤ b) :
    ∃ i j, (0 ≤ i ∧ i < a) ∧ (0 ≤ j ∧ j < b) ∧ n = i * b + j := by
  have hb' : 0 < b := by
    rcases Int.lt_or_eq_of_le hb with h | h
    · exact h
    · rw [← h] at h1; omega
  refine ⟨n / b, n % b, ⟨Int.ediv_nonneg h0 hb, Int.ediv_lt_of_lt_mul hb' h1⟩, ⟨Int.emod_nonneg _ (by omega), Int.emod_lt_of_pos _ hb'⟩, ?_⟩
  have := Int.mul_ediv_add_emod n b
  rw [Int.mul_comm]; omega

/-! ## Index computation -/

theorem inBounds_cells {sh : Shape} {ix : Idx} (h : InBounds sh ix) : 0 ≤ rowMajor sh ix ∧ rowMajor sh ix < sh.cells := by
  cases sh <;> cases ix <;> simp only [InBounds] at h
  · exact h
  · exact (rm_bound h.1 h.2).2
  · rename_i a b c i j k
    have h1 := rm_bound h.1 h.2.1
    exact (rm_bound ⟨h1.2.1, h1.2.2⟩ h.2.2).2

theorem rowMajor_inj {sh : Shape} {x y : Idx} (hx : InBounds sh x) (hy : InBounds sh y) (h : rowMajor sh x = rowMajor sh y) : x = y := by
  cases sh <;> cases x <;> simp only [InBounds] at hx <;> cases y <;> simp only [InBounds] at hy
  · simp only [rowMajor] at h; subst h; rfl
  · simp only [rowMajor] at h
    obtain ⟨h1, h2⟩ := rm_inj hx.2 hy.2 h
    subst h1 h2; rfl
  · simp only [rowMajor] at h
    obtain ⟨h1, h2⟩ := rm_inj hx.2.2 hy.2.2 h
    obtain ⟨h3, h4⟩ := rm_inj hx.2.1 hy.2.1 h1
    subst h2 h3 h4; rfl

theorem rowMajor_surj {sh : Shape} (hn : sh.NonNeg) {n : Int} (h0 : 0 ≤ n) (h1 : n < sh.cells) : ∃ ix, InBounds sh ix ∧ rowMajor sh ix = n := by
  cases sh with
  | one a => exact ⟨.one n, ⟨h0, h1⟩, rfl⟩
  | two a b =>
    obtain ⟨i, j, hi, hj, e⟩ := rm_surj h0 h1 hn.1 hn.2
    exact ⟨.two i j, ⟨hi, hj⟩, e.symm⟩
  | three a b c =>
    obtain ⟨m, k, hm, hk, e⟩ := rm_surj h0 h1 (Int.mul_nonneg hn.1 hn.2.1) hn.2.2
    obtain ⟨i, j, hi, hj, e'⟩ := rm_surj hm.1 hm.2 hn.1 hn.2.1
    refine ⟨.three i j k, ⟨hi, hj, hk⟩, ?_⟩
    simp only [rowMajor]; rw [← e', ← e]

theorem shape_lit {sh : Shape} {a : Arr} (h : HasShape sh a) : 0 ≤ sh.cells := by
  have := h.nonneg
  cases sh with
  | one a => exact this
  | two a b => exact Int.mul_nonneg this.1 this.2
  | three a b c => exact Int.mul_nonneg (Int.mul_nonneg this.1 this.2.1) this.2.2

theorem computeIndex_ok {sh : Shape} {a : Arr} {ix : Idx} (h : HasShape sh a) (hb : InBounds sh ix) :
    computeIndex a ix.args.1 ix.args.2.1 ix.args.2.2 = .ok (rowMajor sh ix) := by
  have hc := inBounds_cells hb
  have hf := h.fits
  have e0 := h.dims
  have e1 := h.d1
  have e2 := h.d2
  have e3 := h.d3
  cases sh <;> cases ix <;> simp only [InBounds] at hb
  · rename_i A i
    show computeIndex a i (-1) (-1) = _
    simp only [Shape.rank, Shape.args] at *
    unfold computeIndex
    rw [e0, e1, if_pos rfl, if_neg (by omega), if_neg (by omega)]
    rfl
  · rename_i A B i j
    show computeIndex a i j (-1) = _
    simp only [Shape.rank, Shape.args, rowMajor, Shape.cells] at *
    have h1 := rm_bound hb.1 hb.2
    unfold computeIndex
    rw [e0, e1, e2, if_neg (by omega), if_pos rfl, if_neg (by omega), if_neg (by omega), i32_ok (by unfold I32; omega), Res.bind_ok,
      i32_ok (by unfold I32; omega)]
  · rename_i A B C i j k
    show computeIndex a i j k = _
    simp only [Shape.rank, Shape.args, rowMajor, Shape.cells] at *
    have h1 := rm_bound hb.1 hb.2.1
    have h2 := rm_bound ⟨h1.2.1, h1.2.2⟩ hb.2.2
    have h3 : 0 ≤ i * B * C := Int.mul_nonneg h1.1 (by omega)
    have h4 : 0 ≤ j * C := Int.mul_nonneg hb.2.1.1 (by omega)
    have h5 : i * B ≤ i * B * C := by
      have := Int.mul_le_mul_of_nonneg_left (show (1 : Int) ≤ C by omega) h1.1
      rw [Int.mul_one] at this; exact this
    have e : (i * B + j) * C = i * B * C + j * C := Int.add_mul _ _ _
    rw [e] at h2 hc ⊢
    unfold computeIndex
    rw [e0, e1, e2, e3, if_neg (by omega), if_neg (by omega), if_pos rfl, if_neg (by omega), if_neg (by omega), i32_ok (by unfold I32; omega), Res.bind_ok,
      i32_ok (by unfold I32; omega), Res.bind_ok, i32_ok (by unfold I32; omega), Res.bind_ok, i32_ok (by unfold I32; omega), Res.bind_ok,
      i32_ok (by unfold I32; omega)]

theorem mul_fit {n m s : Int} (h0 : 0 ≤ n) (h1 : n ≤ m) (hs : 0 ≤ s) : 0 ≤ n * s ∧ n * s ≤ m * s :=
  ⟨Int.mul_nonneg h0 hs, Int.mul_le_mul_of_nonneg_right h1 hs⟩

theorem mul_fit_lt {n m s : Int} (h0 : 0 ≤ n) (h1 : n < m) (hs : 0 ≤ s) : 0 ≤ n * s ∧ n * s + s ≤ m * s := by
  have := Int.mul_le_mul_of_nonneg_right (show n + 1 ≤ m by omega) hs
  rw [Int.add_mul, Int.one_mul] at this
  exact ⟨Int.mul_nonneg h0 hs, this⟩

theorem addressOf_ok {sh : Shape} {a : Arr} {ix : Idx} (h : HasShape sh a) (hb : InBounds sh ix) :
    addressOf a ix = .ok (rowMajor sh ix * a.ty.size) ∧ 0 ≤ rowMajor sh ix * a.ty.size ∧ rowMajor sh ix * a.ty.size + a.ty.size ≤ a.data.length := by
  have hc := inBounds_cells hb
  have hm := mul_fit_lt (s := a.ty.size) hc.1 hc.2 (by omega)
  have hby := h.bytes
  have hfb := h.fitsBytes
  refine ⟨?_, hm.1, by omega⟩
  unfold addressOf address
  rw [computeIndex_ok h hb, Res.bind_ok, i32_ok (by unfold I32; omega), Res.bind_ok, if_neg (by omega)]

/-! ## Cells -/

theorem cell_getElem (d : List Nat) (s m j : Nat) : ((d.drop (m * s)).take s)[j]? = if j < s then d[m * s + j]? else none := by
  rw [List.getElem?_take]
  split
  · rw [List.getElem?_drop]
  · rfl

theorem sep_lt {m n s : Nat} (h : m < n) : m * s + s ≤ n * s := by
  have := Nat.mul_le_mul_right s (show m + 1 ≤ n by omega)
  rw [Nat.add_mul, Nat.one_mul] at this; exact this

/-- Overwriting the bytes of one element changes that element only. -/
theorem cell_poke_one {d b xs : List Nat} {s n : Nat} (hl : xs.length = s)
    (hg : ∀ j : Nat, b[j]? = if n * s ≤ j ∧ j < n * s + xs.length then xs[j - n * s]? else d[j]?) (m : Nat) :
    (b.drop (m * s)).take s = if m = n then xs else (d.drop (m * s)).take s := by
  apply List.ext_getElem?
  intro j
  rw [cell_getElem]
  by_cases hj : j < s
  · rw [if_pos hj, hg]
    by_cases hmn : m = n
    · subst hmn
      rw [if_pos (by omega), if_pos rfl]
      congr 1; omega
    · rw [if_neg hmn, cell_getElem, if_pos hj]
      rw [if_neg]
      rintro ⟨h1, h2⟩
      rcases Nat.lt_or_gt_of_ne hmn with h | h
      · have := sep_lt (s := s) h; omega
      · have := sep_lt (s := s) h; omega
  · rw [if_neg hj]
    split
    · rw [List.getElem?_eq_none (by omega)]
    · rw [cell_getElem, if_neg hj]

/-- Copying a block of whole elements: element `m` of the result. -/
theorem cell_poke_block {src d b : List Nat} {s k n t : Nat} (hs : (k + n) * s ≤ src.length)
    (hg : ∀ j : Nat, b[j]? = if t * s ≤ j ∧ j < t * s + n * s then ((src.drop (k * s)).take (n * s))[j - t * s]? else d[j]?) (m : Nat) :
    (b.drop (m * s)).take s = if t ≤ m ∧ m < t + n then (src.drop ((k + (m - t)) * s)).take s else (d.drop (m * s)).take s := by
  apply List.ext_getElem?
  intro j
  rw [cell_getElem]
  by_cases hj : j < s
  · rw [if_pos hj, hg]
    by_cases hm : t ≤ m ∧ m < t + n
    · have h1 := Nat.mul_le_mul_right s hm.1
      have h2 := sep_lt (s := s) hm.2
      rw [Nat.add_mul] at h2
      rw [if_pos (by omega), if_pos hm, cell_getElem, if_pos hj, List.getElem?_take, if_pos (by omega), List.getElem?_drop]
      congr 1
      have h3 : (k + (m - t)) * s = k * s + (m * s - t * s) := by rw [Nat.add_mul, Nat.sub_mul]
      omega
    · rw [if_neg hm, cell_getElem, if_pos hj, if_neg]
      rintro ⟨h1, h2⟩
      have h3 : t * s + n * s = (t + n) * s := (Nat.add_mul _ _ _).symm
      rcases Nat.lt_or_ge m t with h | h
      · have := sep_lt (s := s) h; omega
      · have : t + n ≤ m := by omega
        have := Nat.mul_le_mul_right s this
        omega
  · rw [if_neg hj]
    split
    · rw [cell_getElem, if_neg hj]
    · rw [cell_getElem, if_neg hj]

theorem getAt_cell {sh : Shape} {a : Arr} {ix : Idx} (h : HasShape sh a) (hb : InBounds sh ix) :
    getAt a ix = loadBytes a.ty (cell a (rowMajor sh ix).toNat) := by
  obtain ⟨h1, h2, h3⟩ := addressOf_ok h hb
  have hc := inBounds_cells hb
  unfold getAt getValue
  unfold addressOf at h1
  rw [h1, Res.bind_ok, peek_some h2 (by omega) h3]
  simp only []
  unfold cell
  have e : (rowMajor sh ix * (a.ty.size : Int)).toNat = (rowMajor sh ix).toNat * a.ty.size := by
    rw [Int.toNat_mul hc.1 (by omega)]; simp
  rw [e]; simp

theorem cell_length {sh : Shape} {a : Arr} (h : HasShape sh a) {m : Nat} (hm : (m : Int) < sh.cells) : (cell a m).length = a.ty.size := by
  have hby := h.bytes
  have := mul_fit_lt (s := a.ty.size) (show (0:Int) ≤ m by omega) hm (by omega)
  unfold cell
  rw [List.length_take, List.length_drop]
  have e : (m : Int) * (a.ty.size : Int) = ((m * a.ty.size : Nat) : Int) := by push_cast; rfl
  omega

end Verif.ArrProps
