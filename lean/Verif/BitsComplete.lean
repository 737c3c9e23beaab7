import Verif.ArrayComplete
import Verif.BitConverterProps
import Verif.BuildComplete
import Verif.FloatMathProps
import Verif.IntExact
/-!
# C171, C172: BitConverter on every byte array and index; sign, neighbours and division by zero for every Double
-/
namespace Verif.BufProps
open ArrModel ArrSpec ArrProps BufModel
open SBModel (peek poke peek_some poke_some)
open IntVal (Ty InTy)

/-! ## C171: BitConverter -/

theorem digit_leBytes : ∀ (n : Nat) (x : Int) (k : Nat), k < n → (leBytes n x)[k]? = some (x / 256 ^ k % 256).toNat := by
  intro n
  induction n with
  | zero => intro x k h; omega
  | succ n ih =>
    intro x k h
    cases k with
    | zero => simp [leBytes]
    | succ k => rw [leBytes, List.getElem?_cons_succ, ih _ _ (by omega), Int.ediv_ediv_of_nonneg (by omega), Int.pow_succ, Int.mul_comm 256]

theorem wrap_mod (t : Ty) (x : Int) : t.wrap x % 256 ^ tySize t = x % 256 ^ tySize t := by
  obtain ⟨p1, p2, p4, p8⟩ := pow256
  cases t <;> simp only [tySize, p1, p2, p4, p8, Ty.wrap, wrapI8, wrapI16, wrapI32, wrapI64, wrapU8, wrapU16, wrapU32, wrapU64] <;> omega

theorem wrap_bytes (t : Ty) (x : Int) : leBytes (tySize t) (t.wrap x) = leBytes (tySize t) x := by
  apply leNat_inj _ _ (leBytes_lt _ _) (leBytes_lt _ _) (by rw [leBytes_length, leBytes_length])
  rw [leNat_leBytes, leNat_leBytes, wrap_mod]

/-- **C171**. `ToInt16 ... ToUInt64` of every Byte array at every index: refused outside the array and where too few bytes follow; otherwise the number of the type whose `k`-th base-256 digit (of the two's complement) is the byte at
`index + k`; it is the only such number. -/
theorem C171_read {A : Int} {a : Arr} (h : ByteArr A a) (hb : ∀ b ∈ a.data, b < 256) (t : Ty) (i : Int) :
    toInt t none i = .throw .argumentNull ∧
    (if i < 0 ∨ A ≤ i then toInt t (some a) i = .throw .argumentOutOfRange
     else if A < i + tySize t then toInt t (some a) i = .throw .argument
     else ∃ v, toInt t (some a) i = .ok v ∧ InTy t v ∧ (∀ k : Nat, k < tySize t → getByte (some a) (i + k) = .ok (v / 256 ^ k % 256).toNat) ∧
       ∀ v', InTy t v' → (∀ k : Nat, k < tySize t → getByte (some a) (i + k) = .ok (v' / 256 ^ k % 256).toNat) → v' = v) := by
  obtain ⟨r1, r2, r3, -⟩ := C45_throws h t i
  refine ⟨r1, ?_⟩
  by_cases c1 : i < 0 ∨ A ≤ i
  · rw [if_pos c1]; exact r2 c1
  rw [if_neg c1]
  by_cases c2 : A < i + tySize t
  · rw [if_pos c2]; exact r3 (by omega) (by omega) c2
  rw [if_neg c2]
  have hs : 0 < tySize t ∧ tySize t ≤ 8 := by cases t <;> decide
  have hsz : (a.ty.size : Int) = 1 := by rw [h.ty]; rfl
  have hB : Bytes A a := ⟨h.shape, by rw [h.ty]; rfl⟩
  have hby : (a.data.length : Int) = A * a.ty.size := h.shape.bytes
  rw [hsz, Int.mul_one] at hby
  generalize hbs : (a.data.drop i.toNat).take (tySize t) = bs
  have hlen : bs.length = tySize t := by rw [← hbs, List.length_take, List.length_drop]; omega
  have hlt : ∀ b ∈ bs, b < 256 := by
    intro b hm
    rw [← hbs] at hm
    exact hb b (List.mem_of_mem_drop (List.mem_of_mem_take hm))
  have hle : bs = leBytes (tySize t) (leNat bs) := by rw [← hlen]; exact (leBytes_leNat bs hlt).symm
  have hbyte : ∀ k : Nat, k < tySize t → getByte (some a) (i + k) = .ok (t.wrap (leNat bs) / 256 ^ k % 256).toNat := by
    intro k hk
    obtain ⟨y, e1, e2⟩ := getByte_eq hB (i := i + k) (by omega) (by rw [hsz]; omega)
    rw [e1]
    have e3 := digit_leBytes (tySize t) (t.wrap (leNat bs)) k hk
    rw [wrap_bytes, ← hle, ← hbs, List.getElem?_take, if_pos hk, List.getElem?_drop, show i.toNat + k = (i + k).toNat by omega, e2] at e3
    rw [Option.some.injEq] at e3
    rw [hbs] at e3
    rw [e3]
  have hr : InTy t (t.wrap (leNat bs)) := (IntVal.wrap_congruent t _).1
  refine ⟨t.wrap (leNat bs), ?_, hr, hbyte, fun v' h1 h2 => ?_⟩
  · exact (C45_round_trip t _ hr).2 A a i h (by omega) (by omega) hbyte
  · have e1 := (C45_round_trip t v' h1).2 A a i h (by omega) (by omega) h2
    have e2 := (C45_round_trip t _ hr).2 A a i h (by omega) (by omega) hbyte
    rw [e1, Res.ok.injEq] at e2
    exact e2

example : ByteArr 4 (mk1 (.int .byte) 4 [7, 254, 255, 7]) ∧ toInt .int16 (some (mk1 (.int .byte) 4 [7, 254, 255, 7])) 1 = .ok (-2) ∧ toInt .int16 (some (mk1 (.int .byte) 4 [7, 254, 255, 7])) 3 = .throw .argument :=
  ⟨⟨⟨by decide, rfl, rfl, rfl, rfl, rfl, by decide, by decide, by decide⟩, rfl⟩, by decide +kernel, by decide +kernel⟩

/-- **C171**. The other readers: `ToDouble` and `ToSingle` give the bit pattern `ToUInt64` and `ToUInt32` give, `ToChar` gives the number `ToInt16` gives (so never a code unit above 0x7FFF), and `ToBoolean` tells whether the byte at the index is not 0. -/
theorem C171_read_others {A : Int} {a : Arr} (h : ByteArr A a) (i : Int) :
    (∀ v, toDouble v i = toInt .uint64 v i ∧ toSingle v i = toInt .uint32 v i ∧ toChar v i = toInt .int16 v i) ∧
    BufModel.toBool none i = .throw .argumentNull ∧
    (if i < 0 ∨ A ≤ i then BufModel.toBool (some a) i = .throw .argumentOutOfRange
     else ∃ b, getByte (some a) i = .ok b ∧ BufModel.toBool (some a) i = .ok (decide (b ≠ 0))) := by
  refine ⟨fun v => ⟨rfl, rfl, rfl⟩, rfl, ?_⟩
  by_cases c1 : i < 0 ∨ A ≤ i
  · rw [if_pos c1]; exact (C45_throws h .int32 i).2.2.2 c1
  rw [if_neg c1]
  have hsz : (a.ty.size : Int) = 1 := by rw [h.ty]; rfl
  have hB : Bytes A a := ⟨h.shape, by rw [h.ty]; rfl⟩
  have hby : (a.data.length : Int) = A * a.ty.size := h.shape.bytes
  have t1 : a.total = A := h.shape.total
  have f1 : A ≤ 2147483647 := h.shape.fits
  rw [hsz, Int.mul_one] at hby
  obtain ⟨y, e1, e2⟩ := getByte_eq hB (i := i) (by omega) (by rw [hsz]; omega)
  refine ⟨y, e1, ?_⟩
  have had := (addressOf_ok h.shape (ix := .one i) ⟨by omega, by omega⟩).1
  unfold addressOf at had
  simp only [Idx.args, rowMajor] at had
  rw [hsz, Int.mul_one] at had
  unfold BufModel.toBool
  simp only []
  rw [if_neg (by omega), t1, i32_ok (by unfold I32; omega), Res.bind_ok, if_neg (by omega), had, Res.bind_ok, peek_some (by omega) (by omega) (by omega)]
  have hlt : i.toNat < a.data.length := by omega
  have : List.take (1 : Int).toNat (List.drop i.toNat a.data) = [y] := by
    rw [List.drop_eq_getElem_cons hlt]
    rw [List.getElem?_eq_getElem hlt, Option.some.injEq] at e2
    rw [e2]; rfl
  rw [this]
  simp only [leNat]
  congr 1
  have e : ((y : Int) + 256 * 0 ≠ 0) ↔ y ≠ 0 := by omega
  exact decide_eq_decide.mpr e

example : BufModel.toBool (some (mk1 (.int .byte) 2 [0, 7])) 1 = .ok true ∧ toChar (some (mk1 (.int .byte) 2 [0, 128])) 0 = .ok (-32768) := by decide +kernel

theorem create_over {c : Int} (h1 : SBModel.limit < c) (h2 : c ≤ 2147483647) : SBModel.create c SBModel.maximumCapacity = .ub := by
  have h1' := h1
  simp only [SBModel.limit] at h1'
  unfold SBModel.create SBModel.maximumCapacity
  rw [if_neg (by omega), if_neg (by omega), if_neg (by omega)]
  simp only []
  rw [if_neg (by omega)]
  exact StrProps.setCapacity_over (SBProps.inv_initial (by omega) (by omega)) rfl h1 h2

/-- **C171**. `ToString(value, start, length)` of every Byte array with every start and length. -/
theorem C171_to_string {A : Int} {a : Arr} (h : ByteArr A a) (hb : ∀ b ∈ a.data, b < 256) (i n : Int) (hi : I32 i) (hn : I32 n) (m : Int) (hm : m = if n = -1 then A - i else n) :
    BufModel.toString none i n = .throw .argumentNull ∧
    BufModel.toString (some a) i n =
      if n = -1 ∧ 2147483647 < A - i then .ub
      else if i = 0 ∧ A = 0 then .ok []
      else if i < 0 ∨ A ≤ i ∨ m < 0 then .throw .argumentOutOfRange
      else if A < i + m then .throw .argument
      else if 715827840 < m then .ub
      else .ok (hexDump ((a.data.drop i.toNat).take m.toNat)) := by
  refine ⟨rfl, ?_⟩
  unfold I32 at hi hn
  have ht : a.total = A := h.shape.total
  have f1 : A ≤ 2147483647 := h.shape.fits
  have f0 : 0 ≤ A := h.shape.nonneg
  by_cases c1 : n = -1 ∧ 2147483647 < A - i
  · rw [if_pos c1]
    unfold BufModel.toString
    simp only []
    rw [if_pos c1.1, ht, i32_over (by unfold I32; omega)]; rfl
  rw [if_neg c1]
  have e : BufModel.toString (some a) i n = (if i < 0 ∨ i ≥ A then (if i = 0 ∧ A = 0 then .ok [] else .throw .argumentOutOfRange)
      else if m < 0 then .throw .argumentOutOfRange
      else (i32 (A - m)) >>= fun room =>
        if i > room then .throw .argument
        else if m = 0 then .ok []
        else (i32 (m * 3)) >>= fun c3 => (i32 (c3 - 1)) >>= fun c =>
          (ofOut (SBModel.create c SBModel.maximumCapacity)) >>= fun s =>
            (i32 (i + m)) >>= fun _ => (dumpLoop a i m.toNat i s) >>= fun s => SBModel.toStr s) := by
    unfold BufModel.toString
    simp only []
    by_cases c : n = -1
    · rw [if_pos c] at hm ⊢
      rw [ht, i32_ok (by unfold I32; omega), Res.bind_ok, hm]
    · rw [if_neg c] at hm ⊢
      rw [Res.bind_ok, ht, hm]
  rw [e]
  by_cases c2 : i = 0 ∧ A = 0
  · rw [if_pos (show i < 0 ∨ i ≥ A by omega), if_pos c2, if_pos c2]
  by_cases c3 : i < 0 ∨ A ≤ i
  · rw [if_pos (show i < 0 ∨ i ≥ A from c3), if_neg c2, if_neg c2, if_pos (show i < 0 ∨ A ≤ i ∨ m < 0 by omega)]
  rw [if_neg (show ¬ (i < 0 ∨ i ≥ A) from c3)]
  by_cases c4 : m < 0
  · rw [if_pos c4, if_neg c2, if_pos (show i < 0 ∨ A ≤ i ∨ m < 0 by omega)]
  rw [if_neg c4, if_neg c2, if_neg (show ¬ (i < 0 ∨ A ≤ i ∨ m < 0) by omega)]
  have m32 : m ≤ 2147483647 := by rw [hm]; split <;> omega
  rw [i32_ok (by unfold I32; omega), Res.bind_ok]
  by_cases c5 : A < i + m
  · rw [if_pos c5, if_pos (by omega)]
  rw [if_neg c5, if_neg (by omega)]
  by_cases c6 : 715827840 < m
  · rw [if_pos c6, if_neg (by omega)]
    by_cases c7 : m * 3 ≤ 2147483647
    · rw [i32_ok (by unfold I32; omega), Res.bind_ok, i32_ok (by unfold I32; omega), Res.bind_ok, create_over (by simp only [SBModel.limit]; omega) (by omega)]; rfl
    · rw [i32_over (by unfold I32; omega)]; rfl
  rw [if_neg c6]
  have hmain := (C46_to_string_partial h hb i m (by omega) (by omega) (by omega) (by omega) (by omega)).1
  unfold BufModel.toString at hmain
  simp only [] at hmain
  rw [if_neg (show ¬ m = -1 by omega), Res.bind_ok, ht, if_neg (by omega), if_neg (by omega), i32_ok (by unfold I32; omega), Res.bind_ok, if_neg (by omega)] at hmain
  exact hmain

example : BufModel.toString (some (mk1 (.int .byte) 4 [1, 254, 16, 7])) 1 2 = .ok (w "FE-10") ∧ BufModel.toString (some (mk1 (.int .byte) 4 [1, 254, 16, 7])) 2 (-1) = .ok (w "10-07") ∧
    BufModel.toString (some (mk1 (.int .byte) 2 [1, 254])) (-2147483648) (-1) = .ub ∧ BufModel.toString (some (mk1 (.int .byte) 2 [1, 254])) 1 (-2) = .throw .argumentOutOfRange := by decide +kernel

end Verif.BufProps

namespace Verif.FltProps
open FltModel FltSpec

/-! ## C172: sign, neighbours, division by zero -/

/-- **C172**. `IsNegative` of every value: the sign bit, and true for every NaN. -/
theorem C172_is_negative {F : Fmt} (hF : Lib F) (b : Nat) (hb : Pattern F b) : isNegative F b = decide (classOf F b = .nan ∨ b / F.S = 1) := by
  by_cases hn : classOf F b = .nan
  · rw [C50_is_negative_nan_refuted hF b hn]; simp [hn]
  · rw [C50_is_negative_partial hF b hb hn]; simp [hn]

example : Lib dbl ∧ Pattern dbl 0x8000000000000000 ∧ isNegative dbl 0x8000000000000000 = true ∧ isNegative dbl 0x7FF8000000000000 = true ∧ isNegative dbl 0x3FF0000000000000 = false :=
  ⟨Or.inl rfl, by unfold Pattern; decide +kernel, by decide +kernel, by decide +kernel, by decide +kernel⟩

/-- **C172**. `BitIncrement` and `BitDecrement` of every Double: the neighbour for finite values, the value itself for NaN and for the infinity in the direction of the step; from the other infinity the step lands on
1.797693134862315E+308, four values before the last finite one. -/
theorem C172_neighbours (x : Nat) (hx : Pattern dbl x) :
    (if classOf dbl x = .nan then bitIncrement x = x ∧ bitDecrement x = x
     else if x = posInf dbl then bitIncrement x = x ∧ bitDecrement x = 0x7FEFFFFFFFFFFFFB
     else if x = negInf dbl then bitIncrement x = 0xFFEFFFFFFFFFFFFB ∧ bitDecrement x = x
     else Next x (bitIncrement x) ∧ Prev x (bitDecrement x)) := by
  by_cases c1 : classOf dbl x = .nan
  · rw [if_pos c1]; exact (C49_fixed x hx).1 c1
  rw [if_neg c1]
  by_cases c2 : x = posInf dbl
  · rw [if_pos c2, c2]; exact ⟨(C49_fixed x hx).2.1, by decide +kernel⟩
  rw [if_neg c2]
  by_cases c3 : x = negInf dbl
  · rw [if_pos c3, c3]; exact ⟨by decide +kernel, (C49_fixed x hx).2.2⟩
  rw [if_neg c3]
  refine C49_adjacent_partial x hx ⟨c1, fun hi => ?_⟩
  have := (C50_infinities (Or.inl rfl : Lib dbl) x hx)
  have hc := (class_inf (facts (Or.inl rfl : Lib dbl)) x).mp hi
  rw [dbl_pat] at hx
  have e1 : posInf dbl = 0x7FF0000000000000 := by decide +kernel
  have e2 : negInf dbl = 0xFFF0000000000000 := by decide +kernel
  simp only [dbl] at hc
  omega

example : Pattern dbl 0x3FF0000000000000 ∧ classOf dbl 0x3FF0000000000000 ≠ .nan ∧ (0x3FF0000000000000 : Nat) ≠ posInf dbl ∧ (0x3FF0000000000000 : Nat) ≠ negInf dbl := by unfold Pattern; decide +kernel

/-- **C172**. `CopySign(x, y)` for every pair: the magnitude bits of `x`, and the sign of `y`, a NaN counting as negative. -/
theorem C172_copy_sign (x y : Nat) (hx : Pattern dbl x) (hy : Pattern dbl y) :
    Pattern dbl (copySign x y) ∧ mag dbl (copySign x y) = mag dbl x ∧ neg dbl (copySign x y) = (decide (classOf dbl y = .nan) || neg dbl y) := by
  by_cases hn : classOf dbl y = .nan
  · rw [decide_eq_true hn, Bool.true_or]; exact C77_copy_sign_nan x y hx hn
  · rw [decide_eq_false hn, Bool.false_or]; exact C77_copy_sign_partial x y hx hy hn

example : copySign 0x3FF0000000000000 0x7FF8000000000000 = 0xBFF0000000000000 ∧ copySign 0xBFF0000000000000 0 = 0x3FF0000000000000 := by decide +kernel

/-- **C172**. `Divide(Double, Double)` by either zero, for every dividend: NaN for a zero, +infinity for everything else, NaNs and negative numbers included; every other divisor is left to the hardware division. -/
theorem C172_divide (v1 v2 : Nat) :
    divideSpecial v1 v2 = if classOf dbl v2 = .zero then (if classOf dbl v1 = .zero then some 0x7FF8000000000000 else some (posInf dbl)) else none := by
  have h := facts (Or.inl rfl : Lib dbl)
  have h0 : classOf dbl 0 = .zero := by decide +kernel
  have v0 : val dbl 0 = 0 := by decide +kernel
  have z : ∀ x, feq dbl x 0 = true ↔ classOf dbl x = .zero := by
    intro x
    rw [class_zero h, feq_iff h, h0, v0]
    have hk := val_eq_key h.M0 x 0
    have hk0 : key dbl 0 = 0 := by decide +kernel
    have hkz : key dbl x = 0 ↔ x % dbl.S = 0 := by unfold key mag; split <;> omega
    rw [v0, hk0, hkz] at hk
    rw [hk]
    constructor
    · exact fun y => y.2.2
    · intro y
      refine ⟨?_, by simp, y⟩
      rw [(class_zero h x).mpr y]; simp
  unfold divideSpecial
  by_cases c2 : classOf dbl v2 = .zero
  · rw [if_pos ((z v2).mpr c2), if_pos c2]
    by_cases c1 : classOf dbl v1 = .zero
    · rw [if_pos ((z v1).mpr c1), if_pos c1]
    · rw [if_neg (by rw [z]; exact c1), if_neg c1]
  · rw [if_neg (by rw [z]; exact c2), if_neg c2]

example : divideSpecial 0x7FF8000000000000 0 = some (posInf dbl) ∧ divideSpecial 0 0x8000000000000000 = some 0x7FF8000000000000 ∧ divideSpecial 0 0x3FF0000000000000 = none := by decide +kernel

end Verif.FltProps
