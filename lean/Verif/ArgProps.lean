import Verif.StringProps
import Verif.BoolCharProps
import Verif.IntProps
import Verif.BufferProps
import Verif.TypesProps
/-!
# C97-C100: null arguments, boxed integers, array initialisation, pointers
-/
namespace Verif.ArgProps
open SBModel StrModel ArrModel ArrSpec ArrProps BufModel IntVal

/-! ## C97: null arguments -/

/-- C97 (partial): every String method that .NET specifies to reject null throws ArgumentNullException for a null argument, whatever the string
and the other arguments are.  Missing: `Contains` and the others below. -/
theorem C97_string_partial (v : WStr) (i j n : Int) (c : Nat) (sep : Option WStr) (same : Bool) :
    StrModel.copy none = .throw .argumentNull ∧
    StrModel.copyTo v i none j n = .throw .argumentNull ∧
    endsWith v none same = .throw .argumentNull ∧
    startsWith v none same = .throw .argumentNull ∧
    indexOfStr v none i n = .throw .argumentNull ∧
    indexOfStr0 v none = .throw .argumentNull ∧
    indexOfStr1 v none i = .throw .argumentNull ∧
    indexOfAny v none i n = .throw .argumentNull ∧
    lastIndexOfStr v none i n = .throw .argumentNull ∧
    lastIndexOfAny v none i n = .throw .argumentNull ∧
    StrModel.insert v i none = .throw .argumentNull ∧
    joinChar c none i n = .throw .argumentNull ∧
    joinStr sep none i n = .throw .argumentNull ∧
    concatArray none = .throw .argumentNull ∧
    BCModel.charParse none = .throw .argumentNull :=
  ⟨rfl, rfl, rfl, rfl, rfl, rfl, rfl, rfl, rfl, rfl, rfl, rfl, rfl, rfl, rfl⟩

/-- C97 (partial): the same for Array, Buffer, BitConverter and the integer parsers; here either of two arrays may be null. -/
theorem C97_array_partial (L : Locale) (F : FConv) (a : Arr) (o : Option Arr) (v : Option Ob) (eq : Int → Int → Bool) (t : IntVal.Ty) (x i j k n : Int) (b : Nat) :
    ArrModel.copy none i o j n = .throw .argumentNull ∧
    ArrModel.copy o i none j n = .throw .argumentNull ∧
    ArrModel.copyTo a none i = .throw .argumentNull ∧
    ArrModel.clear none i n = .throw .argumentNull ∧
    ArrModel.indexOf eq none x i n = .throw .argumentNull ∧
    setValue F a none i j k = .throw .argumentNull ∧
    getValueAt a none = .throw .argumentNull ∧
    setValueAt F a v none = .throw .argumentNull ∧
    blockCopy none i o j n = .throw .argumentNull ∧
    blockCopy o i none j n = .throw .argumentNull ∧
    byteLength none = .throw .argumentNull ∧
    getByte none i = .throw .argumentNull ∧
    setByte none i b = .throw .argumentNull ∧
    toBool none i = .throw .argumentNull ∧
    toChar none i = .throw .argumentNull ∧
    toDouble none i = .throw .argumentNull ∧
    toSingle none i = .throw .argumentNull ∧
    toInt t none i = .throw .argumentNull ∧
    BufModel.toString none i n = .throw .argumentNull ∧
    IntVal.parse L t none = .throw .argumentNull ∧
    IntVal.tryParse L t none = .throw .argumentNull := by
  refine ⟨by cases o <;> rfl, by cases o <;> rfl, rfl, rfl, rfl, rfl, rfl, rfl, ?_, ?_, rfl, rfl, rfl, rfl, rfl, rfl, rfl, rfl, rfl, rfl, rfl⟩ <;>
  · cases o <;> rfl

/-- C97 (partial): an array of the wrong rank or element type is rejected with an exception before any element is read. -/
theorem C97_array_kind_partial (v : WStr) (d : WStr) (isChar : Bool) (sep : Option WStr) (c : Nat) (i j n : Int) (refs : Bool) (items : List (Option WStr)) :
    StrModel.copyTo v i (some ⟨isChar, false, d⟩) j n = .throw .rank ∧
    StrModel.copyTo v i (some ⟨false, true, d⟩) j n = .throw .argumentNull ∧
    (0 ≤ i → 0 ≤ n → i + n ≤ v.length → indexOfAny v (some ⟨isChar, false, d⟩) i n = .throw .rank ∧
      indexOfAny v (some ⟨false, true, d⟩) i n = .throw .argumentNull) ∧
    (items ≠ [] → joinChar c (some ⟨refs, false, items⟩) i n = .throw .rank ∧ joinStr sep (some ⟨refs, false, items⟩) i n = .throw .rank) ∧
    concatArray (some ⟨refs, false, items⟩) = .throw .rank := by
  refine ⟨rfl, rfl, ?_, ?_, rfl⟩
  · intro h1 h2 h3
    unfold indexOfAny
    constructor <;>
    · simp only []
      rw [if_neg (by omega), if_neg (by omega)]
      rfl
  · intro h
    have hl : ¬ items.length = 0 := by cases items with
      | nil => exact absurd rfl h
      | cons a r => simp
    unfold joinChar joinStr joinWith
    constructor <;>
    · simp only []
      rw [if_neg hl]
      rfl

example : indexOfAny (w "abc") (some ⟨true, false, w "b"⟩) 0 3 = .throw .rank := by decide +kernel
example : joinChar 44 (some ⟨true, false, [some (w "a")]⟩) 0 1 = .throw .rank := by decide +kernel

/-- C97 fails for these methods: a null argument is dereferenced. (.NET: ArgumentNullException for `Contains`; nothing is appended or inserted
for StringBuilder; `Equals` answers false; a null element of the array is the empty text.) -/
theorem C97_null_refuted :
    StrModel.contains (w "abc") none = .ub ∧
    SBModel.appendStr initial none 0 (-1) = .ub ∧
    SBModel.insertStr initial 0 none 1 = .ub ∧
    StrModel.newFromArray none 0 (-1) = .ub ∧
    IntVal.equalsObj 5 .null = .ub ∧
    BCModel.charEqualsObj 65 .null = .ub ∧
    concatArray (some ⟨true, true, [some (w "a"), none]⟩) = .ub := by
  decide +kernel

/-- C97 fails for every `StringBuilder.Append(String, start, count)` of null (.NET: nothing is appended when both numbers are 0): it is
dereferenced unless the start is negative and the count is not. -/
theorem C97_append_null_refuted (s : SB) (i n : Int) :
    (¬ (i < 0 ∧ 0 ≤ n) → SBModel.appendStr s none i n = .ub) ∧ (i < 0 → 0 ≤ n → SBModel.appendStr s none i n = .threw .argumentOutOfRange s) := by
  unfold SBModel.appendStr
  simp only []
  constructor
  · intro h; rw [if_neg (by omega)]
  · intro h1 h2; rw [if_pos ⟨h2, h1⟩]

/-! ## C98: boxed integers -/

/-- C98 (partial): comparing with a boxed value: null comes first, another type is rejected, a value of the same type compares as the numbers do
(for the 8- and 16-bit types always, otherwise when they are less than 2^31 apart: C23). -/
theorem C98_compare_partial (ty : IntVal.Ty) (a : Int) (ha : InTy ty a) :
    (∃ r, compareToObj ty a .null = .ok r ∧ r > 0) ∧
    compareToObj ty a .other = .throw .argument ∧
    ∀ b, InTy ty b → (ty = .int32 ∨ ty = .uint32 ∨ ty = .int64 ∨ ty = .uint64 → -2147483648 ≤ a - b ∧ a - b ≤ 2147483647) →
      ∃ r, compareToObj ty a (.same b) = .ok r ∧ (r < 0 ↔ a < b) ∧ (r = 0 ↔ a = b) ∧ (r > 0 ↔ b < a) := by
  refine ⟨⟨1, rfl, by decide⟩, rfl, fun b hb hc => ?_⟩
  obtain ⟨r, e, h⟩ := C23_compareTo_partial ty a b ha hb hc
  refine ⟨r, e, ?_⟩
  unfold SignOK at h
  omega

example : InTy .int64 (-5) ∧ InTy .int64 7 ∧ compareToObj .int64 (-5) (.same 7) = .ok (-12) := by unfold InTy; decide +kernel

/-- C98 (partial): `Equals` on boxed values is equality of type and number.  Missing: null, which is dereferenced (`C97_null_refuted`). -/
theorem C98_equals_partial (a : Int) : equalsObj a .other = .ok false ∧ ∀ b, equalsObj a (.same b) = .ok true ↔ a = b := by
  refine ⟨rfl, fun b => ?_⟩
  show Res.ok (a == b) = Res.ok true ↔ _
  rw [Res.ok.injEq]; simp

/-- Number of bits of the integer types. -/
def bits : IntVal.Ty → Nat
  | .sbyte | .byte => 8 | .int16 | .uint16 => 16 | .int32 | .uint32 => 32 | .int64 | .uint64 => 64

/-- C98 (partial): reading a boxed integer as another integer type gives the value of that type that is congruent modulo 2^bits; it is the number
itself exactly when it fits. -/
theorem C98_convert_partial (target : IntVal.Ty) (x : Int) :
    InTy target (convert target x) ∧ (∃ k : Int, convert target x = x + k * 2 ^ bits target) ∧ (convert target x = x ↔ InTy target x) := by
  have key : InTy target (convert target x) ∧ ∃ k : Int, convert target x = x + k * 2 ^ bits target := by
    unfold InTy convert
    cases target <;> simp only [Ty.wrap, Ty.min, Ty.max, bits, wrapI8, wrapU8, wrapI16, wrapU16, wrapI32, wrapU32, wrapI64, wrapU64]
    · exact ⟨by omega, -((x + 128) / 256), by omega⟩
    · exact ⟨by omega, -(x / 256), by omega⟩
    · exact ⟨by omega, -((x + 32768) / 65536), by omega⟩
    · exact ⟨by omega, -(x / 65536), by omega⟩
    · exact ⟨by omega, -((x + 2147483648) / 4294967296), by omega⟩
    · exact ⟨by omega, -(x / 4294967296), by omega⟩
    · exact ⟨by omega, -((x + 9223372036854775808) / 18446744073709551616), by omega⟩
    · exact ⟨by omega, -(x / 18446744073709551616), by omega⟩
  refine ⟨key.1, key.2, fun h => h ▸ key.1, fun h => ?_⟩
  unfold InTy at h
  unfold convert
  cases target <;> simp only [Ty.wrap, Ty.min, Ty.max, wrapI8, wrapU8, wrapI16, wrapU16, wrapI32, wrapU32, wrapI64, wrapU64] at * <;> omega

example : convert .sbyte 200 = -56 ∧ convert .uint32 (-1) = 4294967295 ∧ convert .int16 1234 = 1234 := by decide +kernel

/-- **C98**, the rest refuted: `Equals(null)` is undefined for every value (it is false in .NET); and two different boxed numbers may compare equal, or in the wrong order (`C23_exact`: for every two numbers that are
2^32 apart the result of comparing is 0, if there is one). -/
theorem C98_refuted : (∀ a : Int, equalsObj a .null = .ub) ∧
    (∀ a : Int, InTy .uint64 a → InTy .uint64 (a + 4294967296) → compareToObj .uint64 (a + 4294967296) (.same a) = .ok 0 ∧ equalsObj (a + 4294967296) (.same a) = .ok false) ∧
    (∀ a : Int, InTy .uint32 a → 2147483648 ≤ a → ∃ r, compareToObj .uint32 a (.same 0) = .ok r ∧ r < 0) := by
  refine ⟨fun a => rfl, ?_, ?_⟩
  · intro a h1 h2
    constructor
    · show Res.ok (wrapI32 (wrapU64 (a + 4294967296 - a))) = _
      rw [show a + 4294967296 - a = 4294967296 by omega]
      rfl
    · show Res.ok (a + 4294967296 == a) = _
      rw [beq_eq_false_iff_ne.2 (by omega)]
  · intro a h1 h2
    unfold InTy at h1
    simp only [Ty.min, Ty.max] at h1
    exact ⟨_, rfl, by unfold wrapI32 wrapU32; omega⟩

example : compareToObj .uint64 4294967297 (.same 1) = .ok 0 ∧ compareToObj .uint32 4294967295 (.same 0) = .ok (-1) := by decide +kernel

/-! ## C99: arrays filled from data -/

/-- The bytes of a list of elements, one behind the other. -/
theorem cell_flatten (s : Nat) (cs : List (List Nat)) (h : ∀ c ∈ cs, c.length = s) (m : Nat) (hm : m < cs.length) :
    (cs.flatten.drop (m * s)).take s = cs[m] := by
  induction cs generalizing m with
  | nil => simp at hm
  | cons c r ih =>
    have hc : c.length = s := h c (by simp)
    cases m with
    | zero => simp [← hc]
    | succ m =>
      rw [List.flatten_cons, List.drop_append, hc, show (m + 1) * s - s = m * s by rw [Nat.add_mul]; omega,
        List.drop_of_length_le (by rw [hc, Nat.add_mul]; omega), List.nil_append]
      simpa using ih (fun c hc => h c (by simp [hc])) m (by simpa using hm)

theorem flatten_length (s : Nat) (cs : List (List Nat)) (h : ∀ c ∈ cs, c.length = s) : cs.flatten.length = cs.length * s := by
  induction cs with
  | nil => simp
  | cons c r ih => rw [List.flatten_cons, List.length_append, ih (fun c hc => h c (by simp [hc])), h c (by simp), List.length_cons, Nat.add_mul]; omega

theorem init_cells {sh : Shape} {a : Arr} (h : HasShape sh a) (cs : List (List Nat)) (extra : List Nat) (hl : (cs.length : Int) = sh.cells)
    (hs : ∀ c ∈ cs, c.length = a.ty.size) :
    ∃ a', initFrom a (cs.flatten ++ extra) = .ok a' ∧ HasShape sh a' ∧ a'.ty = a.ty ∧ ∀ m (hm : m < cs.length), cell a' m = cs[m] := by
  have hf := flatten_length _ cs hs
  have hfi : ((cs.flatten.length : Nat) : Int) = sh.cells * a.ty.size := by rw [hf]; push_cast; rw [hl]
  have h1 := h.fitsBytes
  have h0 : (0 : Int) ≤ sh.cells * a.ty.size := by omega
  unfold initFrom
  rw [h.total, i32_ok ⟨by omega, h1⟩, Res.bind_ok, peek_some (by omega) h0 (by rw [List.length_append]; push_cast; omega)]
  have e : List.take (sh.cells * ↑a.ty.size).toNat (List.drop (Int.toNat 0) (cs.flatten ++ extra)) = cs.flatten := by
    rw [show (sh.cells * ↑a.ty.size).toNat = cs.flatten.length by omega]; simp
  simp only []
  rw [e]
  have hb := h.bytes
  have e2 : poke a.data 0 cs.flatten = some cs.flatten := by
    unfold poke
    rw [if_pos ⟨by omega, by omega⟩]
    rw [List.drop_of_length_le (by omega)]; simp
  rw [e2, ← h.total]
  refine ⟨{ a with data := cs.flatten }, rfl, ⟨h.nonneg, h.d1, h.d2, h.d3, h.dims, h.total, hfi, h.fits, h.fitsBytes⟩, rfl, ?_⟩
  intro m hm
  exact cell_flatten _ cs hs m hm

/-- **C99**: after `Initialize` from a C++ array of integers, every element of the array, of any shape, is the number at its row-major position. -/
theorem C99_integers (t : IntVal.Ty) (sh : Shape) (a : Arr) (xs : List Int) (extra : List Nat) (h : HasShape sh a) (ht : a.ty = .int t)
    (hl : (xs.length : Int) = sh.cells) (hx : ∀ x ∈ xs, InTy t x) :
    ∃ a', initFrom a ((xs.map (leBytes (tySize t))).flatten ++ extra) = .ok a' ∧ HasShape sh a' ∧
      ∀ ix, InBounds sh ix → ∃ x, xs[(rowMajor sh ix).toNat]? = some x ∧ getAt a' ix = .ok (.box (.int t x)) := by
  obtain ⟨a', h1, h2, h3, h4⟩ := init_cells h (xs.map (leBytes (tySize t))) extra (by simpa using hl)
    (by intro c hc; obtain ⟨x, _, rfl⟩ := List.mem_map.mp hc; rw [leBytes_length, ht]; rfl)
  refine ⟨a', h1, h2, fun ix hb => ?_⟩
  have hc := inBounds_cells hb
  have hm : (rowMajor sh ix).toNat < xs.length := by omega
  refine ⟨xs[(rowMajor sh ix).toNat], List.getElem?_eq_getElem hm, ?_⟩
  rw [getAt_cell h2 hb, h4 _ (by simpa using hm), h3, ht, List.getElem_map]
  show Res.ok (Got.box (.int t (loadInt t _))) = _
  rw [load_int]
  have := hx _ (List.getElem_mem hm)
  rw [show t.wrap xs[(rowMajor sh ix).toNat] = xs[(rowMajor sh ix).toNat] from (C98_convert_partial t _).2.2.mpr this]

example : ∃ a a', newArr (.int .int16) 2 2 (-1) = .ok a ∧ initFrom a (([1, -2, 3, -4].map (leBytes 2)).flatten) = .ok a' ∧
    getAt a' (.two 1 1) = .ok (.box (.int .int16 (-4))) := ⟨_, _, rfl, rfl, rfl⟩

/-- **C99** for references: the array holds exactly the addresses given. -/
theorem C99_references (sh : Shape) (a : Arr) (ps : List Int) (extra : List Nat) (h : HasShape sh a) (ht : a.ty = .object ∨ a.ty = .string)
    (hl : (ps.length : Int) = sh.cells) (hx : ∀ p ∈ ps, U64 p) :
    ∃ a', initFrom a ((ps.map (leBytes 8)).flatten ++ extra) = .ok a' ∧ HasShape sh a' ∧
      ∀ ix, InBounds sh ix → ∃ p, ps[(rowMajor sh ix).toNat]? = some p ∧ getAt a' ix = .ok (.ptr p) := by
  obtain ⟨a', h1, h2, h3, h4⟩ := init_cells h (ps.map (leBytes 8)) extra (by simpa using hl)
    (by intro c hc; obtain ⟨x, _, rfl⟩ := List.mem_map.mp hc; rw [leBytes_length]; rcases ht with ht | ht <;> rw [ht] <;> rfl)
  refine ⟨a', h1, h2, fun ix hb => ?_⟩
  have hc := inBounds_cells hb
  have hm : (rowMajor sh ix).toNat < ps.length := by omega
  refine ⟨ps[(rowMajor sh ix).toNat], List.getElem?_eq_getElem hm, ?_⟩
  rw [getAt_cell h2 hb, h4 _ (by simpa using hm), h3, List.getElem_map]
  have := hx _ (List.getElem_mem hm)
  unfold U64 at this
  have e : ∀ bs, loadBytes a.ty bs = .ok (.ptr (leNat bs)) := by intro bs; rcases ht with ht | ht <;> rw [ht] <;> rfl
  rw [e, leNat8]
  rw [show ps[(rowMajor sh ix).toNat] % 18446744073709551616 = ps[(rowMajor sh ix).toNat] by omega]

/-! ## C100: pointers -/
open Types

/-- C100 (partial): the operator used to reach a member agrees with the way the type is declared: `->` exactly when the declaration's text ends
with `*` (the type's own name not doing so). -/
theorem C100_access_partial (ci : Fmt.CharInfo) (t : Types.Ty) (d n : WStr) (hd : declText ci t = .ok d) (hn : formatType ci t = .ok n)
    (hstar : n.getLast? ≠ some 42) :
    (access (some t) = w "->" ↔ d.getLast? = some 42) ∧ (access (some t) = w "." ↔ d.getLast? ≠ some 42) ∧
    (isPointer t = true → d = n ++ w "*") ∧ (isPointer t = false → d = n) := by
  unfold declText at hd
  rw [hn, Res.bind_ok, Res.ok.injEq] at hd
  subst hd
  have ne : w "->" ≠ w "." := by decide +kernel
  unfold access
  simp only []
  cases isPointer t
  · simp [hstar, ne.symm]
  · simp [ne]; decide +kernel

/-- Specification: which kinds of types .NET passes by reference. -/
def IsReference : Kind → Prop
  | .class | .interface | .array => True
  | _ => False

/-- C100 (partial): a named type other than an interface is a pointer in C++ exactly when it is a reference type in .NET. -/
theorem C100_reference_partial (name : WStr) (k : Kind) (hk : k ≠ .interface) : isPointer (.named name k) = true ↔ IsReference k := by
  cases k <;> simp [isPointer, IsReference] at *

example : isPointer (.named (w "Foo") .class) = true ∧ isPointer (.named (w "Int32") .struct) = false := by decide +kernel

/-- C100 fails for interfaces: a variable of an interface type is declared as a value of the (abstract) C++ class. -/
theorem C100_interface_refuted (name : WStr) : isPointer (.named name .interface) = false ∧ IsReference .interface ∧ access (some (.named name .interface)) = w "." :=
  ⟨rfl, trivial, rfl⟩

end Verif.ArgProps
