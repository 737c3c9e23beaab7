import Verif.BufferProps
set_option linter.unusedSimpArgs false
set_option linter.unusedVariables false
/-!
# Properties of BitConverter: C45, C46
-/
namespace Verif.BufProps
open ArrModel ArrSpec ArrProps BufModel
open SBModel (peek poke peek_some poke_some)
open IntVal (Ty)

/-! ## Specification -/

/-- A one-dimensional Byte array. -/
structure ByteArr (A : Int) (a : Arr) : Prop where
  shape : HasShape (.one A) a
  ty : a.ty = .int .byte

/-- The 16 hexadecimal digits. -/
def hexDigits : List Nat := w "0123456789ABCDEF"

/-- Two hexadecimal digits of a byte. -/
def hexByte (b : Nat) : WStr := [hexDigits.getD (b / 16) 0, hexDigits.getD (b % 16) 0]

/-- Bytes in hexadecimal, joined by `-`. -/
def hexDump : List Nat → WStr
  | [] => []
  | [b] => hexByte b
  | b :: c :: t => hexByte b ++ w "-" ++ hexDump (c :: t)

/-- Position of a digit in `hexDigits`. -/
def digitVal (c : Nat) : Nat := hexDigits.findIdx (· = c)

/-- Reading a dump back: pairs of digits, each pair followed by one separator or the end. -/
def unDump : WStr → List Nat
  | h :: l :: _ :: t => (digitVal h * 16 + digitVal l) :: unDump t
  | [h, l] => [digitVal h * 16 + digitVal l]
  | _ => []

/-! ## GetBytes -/

theorem getBytes_ok (mem : List Nat) (hm : 0 < mem.length) (hb : mem.length ≤ 8) :
    ∃ a, getBytes mem mem.length = .ok a ∧ ByteArr mem.length a ∧ a.data = mem := by
  obtain ⟨a, h1, h2, h3, h4⟩ := newArr_ok (.int .byte) (.one mem.length) (by simp [Shape.NonNeg]) (by simp [Shape.cells]; omega)
    (by simp [Shape.cells, DT.size, tySize]; omega) (by intro x y z h; cases h)
  simp only [Shape.args] at h1
  have hl : a.data.length = mem.length := by have := h3.bytes; rw [h2] at this; simp [Shape.cells, DT.size, tySize] at this; omega
  obtain ⟨b, p1, p2, p3⟩ := poke_some (buf := a.data) (i := 0) (xs := mem) (by omega) (by omega)
  have hbm : b = mem := by
    apply List.ext_getElem?
    intro j
    rw [p3]
    by_cases hj : j < mem.length
    · rw [if_pos (by simp; omega)]; simp
    · rw [if_neg (by simp; omega), List.getElem?_eq_none (by omega), List.getElem?_eq_none (by omega)]
  refine ⟨{ a with data := b }, ?_, ⟨⟨h3.nonneg, h3.d1, h3.d2, h3.d3, h3.dims, h3.total, ?_, h3.fits, h3.fitsBytes⟩, h2⟩, hbm⟩
  · unfold getBytes
    rw [h1, Res.bind_ok, addr0 h3 (by omega), Res.bind_ok, peek_some (by omega) (by omega) (by omega)]
    simp only []
    rw [show List.take (mem.length : Int).toNat (List.drop (0 : Int).toNat mem) = mem by simp, p1]
  · show (b.length : Int) = _
    rw [p2]; exact h3.bytes

/-- **C45**: `GetBytes` of an integer gives a new one-dimensional Byte array holding its little-endian representation: as many
bytes as the type has, and the byte at position `k` is the `k`-th base-256 digit of the two's complement. -/
theorem C45_get_bytes (t : Ty) (x : Int) :
    ∃ a, getBytesInt t x = .ok a ∧ ByteArr (tySize t) a ∧ ∀ k : Nat, k < tySize t → getByte (some a) k = .ok (x / 256 ^ k % 256).toNat := by
  have hs : 0 < tySize t ∧ tySize t ≤ 8 := by cases t <;> decide
  obtain ⟨a, h1, h2, h3⟩ := getBytes_ok (leBytes (tySize t) x) (by rw [leBytes_length]; omega) (by rw [leBytes_length]; omega)
  rw [leBytes_length] at h1 h2
  refine ⟨a, h1, h2, fun k hk => ?_⟩
  have hsz : (a.ty.size : Int) = 1 := by rw [h2.ty]; rfl
  have hB : Bytes (tySize t) a := ⟨h2.shape, by rw [h2.ty]; rfl⟩
  obtain ⟨y, e1, e2⟩ := getByte_eq hB (i := k) (by omega) (by rw [hsz]; omega)
  rw [e1]
  rw [h3, Int.toNat_natCast] at e2
  have key : ∀ (n : Nat) (x : Int) (k : Nat), k < n → (leBytes n x)[k]? = some (x / 256 ^ k % 256).toNat := by
    intro n
    induction n with
    | zero => intro x k h; omega
    | succ n ih =>
      intro x k h
      cases k with
      | zero => simp [leBytes]
      | succ k =>
        rw [leBytes, List.getElem?_cons_succ, ih _ _ (by omega), Int.ediv_ediv_of_nonneg (by omega), Int.pow_succ, Int.mul_comm 256]
  rw [key _ _ _ hk] at e2
  injection e2 with e2; rw [e2]

example : ∃ a, getBytesInt .int32 (-2) = .ok a ∧ a.data = [254, 255, 255, 255] := ⟨_, rfl, rfl⟩

/-! ## Reading back -/

theorem putBytes_ok {A : Int} {a : Arr} (h : ByteArr A a) {i : Int} {n : Nat} (h0 : 0 ≤ i) (hn : 0 < n) (h1 : i + n ≤ A) :
    putBytes (some a) i n = .ok ((a.data.drop i.toNat).take n) := by
  have t1 : a.total = A := h.shape.total
  have f1 : A ≤ 2147483647 := h.shape.fits
  have hby : (a.data.length : Int) = A * a.ty.size := h.shape.bytes
  have hsz : (a.ty.size : Int) = 1 := by rw [h.ty]; rfl
  have had := (addressOf_ok h.shape (ix := .one i) ⟨h0, by omega⟩).1
  unfold addressOf at had
  simp only [Idx.args, rowMajor] at had
  rw [hsz, Int.mul_one] at had hby
  unfold putBytes
  simp only []
  rw [if_neg (by omega), t1, i32_ok (by unfold I32; omega), Res.bind_ok, if_neg (by omega), i32_ok (by unfold I32; omega), Res.bind_ok, if_neg (by omega),
    had, Res.bind_ok, peek_some h0 (by omega) (by omega)]
  simp

/-- **C45**: reading an integer type back from the bytes of its value gives the value, for every value of the type; also at any
offset in a larger Byte array that holds those bytes there. -/
theorem C45_round_trip (t : Ty) (x : Int) (hx : t.min ≤ x ∧ x ≤ t.max) :
    (∃ a, getBytesInt t x = .ok a ∧ toInt t (some a) 0 = .ok x) ∧
    ∀ (A : Int) (b : Arr) (i : Int), ByteArr A b → 0 ≤ i → i + tySize t ≤ A →
      (∀ k : Nat, k < tySize t → getByte (some b) (i + k) = .ok (x / 256 ^ k % 256).toNat) → toInt t (some b) i = .ok x := by
  have hload : loadInt t (leBytes (tySize t) x) = x := by
    cases t <;> simp only [tySize, loadInt, leInt1, leInt2, leInt4, leInt8, leNat1, leNat2, leNat4, leNat8, wrapI8, wrapI16, wrapI32, wrapI64] <;>
      simp only [IntVal.Ty.min, IntVal.Ty.max] at hx <;> omega
  have hs : 0 < tySize t ∧ tySize t ≤ 8 := by cases t <;> decide
  have part2 : ∀ (A : Int) (b : Arr) (i : Int), ByteArr A b → 0 ≤ i → i + tySize t ≤ A →
      (∀ k : Nat, k < tySize t → getByte (some b) (i + k) = .ok (x / 256 ^ k % 256).toNat) → toInt t (some b) i = .ok x := by
    intro A b i hb h0 h1 hk
    unfold toInt
    rw [putBytes_ok hb h0 hs.1 h1, Res.bind_ok]
    have hsz : (b.ty.size : Int) = 1 := by rw [hb.ty]; rfl
    have hB : Bytes A b := ⟨hb.shape, by rw [hb.ty]; rfl⟩
    have hby : (b.data.length : Int) = A * b.ty.size := hb.shape.bytes
    rw [hsz] at hby
    have : (b.data.drop i.toNat).take (tySize t) = leBytes (tySize t) x := by
      apply List.ext_getElem?
      intro j
      rw [List.getElem?_take]
      by_cases hj : j < tySize t
      · rw [if_pos hj, List.getElem?_drop]
        obtain ⟨y, e1, e2⟩ := getByte_eq hB (i := i + j) (by omega) (by rw [hsz]; omega)
        rw [hk j hj] at e1
        obtain ⟨c, g1, g2, g3⟩ := C45_get_bytes t x
        obtain ⟨c', g1', g2', g3'⟩ := getBytes_ok (leBytes (tySize t) x) (by rw [leBytes_length]; omega) (by rw [leBytes_length]; omega)
        rw [leBytes_length] at g1' g2'
        have hcc : c = c' := by
          have : getBytesInt t x = .ok c' := g1'
          rw [g1] at this; injection this
        subst hcc
        have hsc : (c.ty.size : Int) = 1 := by rw [g2.ty]; rfl
        have hC : Bytes (tySize t) c := ⟨g2.shape, by rw [g2.ty]; rfl⟩
        obtain ⟨z, d1, d2⟩ := getByte_eq hC (i := j) (by omega) (by rw [hsc]; omega)
        rw [g3 j hj] at d1
        rw [show i.toNat + j = (i + j).toNat by omega, e2]
        rw [g3', Int.toNat_natCast] at d2
        rw [d2]
        rw [Res.ok.injEq] at e1 d1
        rw [← e1, ← d1]
      · rw [if_neg hj, List.getElem?_eq_none (by rw [leBytes_length]; omega)]
    rw [this, hload]
  refine ⟨?_, part2⟩
  obtain ⟨a, h1, h2, h3⟩ := C45_get_bytes t x
  refine ⟨a, h1, part2 _ a 0 h2 (by omega) (by omega) (fun k hk => ?_)⟩
  rw [Int.zero_add]; exact h3 k hk

example : toInt .int16 (some (mk1 (.int .byte) 4 [7, 254, 255, 7])) 1 = .ok (-2) := by decide +kernel

theorem getBytes_drop (mem : List Nat) (hm : 0 < mem.length) (hb : mem.length ≤ 8) :
    ∃ a, getBytes mem mem.length = .ok a ∧ putBytes (some a) 0 mem.length = .ok mem := by
  obtain ⟨a, h1, h2, h3⟩ := getBytes_ok mem hm hb
  refine ⟨a, h1, ?_⟩
  rw [putBytes_ok h2 (by omega) hm (by omega), h3]; simp

/-- **C45**: floating-point values round-trip bit by bit (NaN payloads included), Booleans round-trip, and so do the conversions
between Double and its Int64 bits. -/
theorem C45_round_trip_others :
    (∀ x, U64 x → ∃ a, getBytesDouble x = .ok a ∧ toDouble (some a) 0 = .ok x) ∧
    (∀ x, U32 x → ∃ a, getBytesSingle x = .ok a ∧ toSingle (some a) 0 = .ok x) ∧
    (∀ b, ∃ a, getBytesBool b = .ok a ∧ BufModel.toBool (some a) 0 = .ok b) ∧
    (∀ x, U64 x → int64BitsToDouble (doubleToInt64Bits x) = x) ∧
    (∀ x, I64 x → doubleToInt64Bits (int64BitsToDouble x) = x) := by
  refine ⟨fun x hx => ?_, fun x hx => ?_, fun b => ?_, fun x hx => ?_, fun x hx => ?_⟩
  · obtain ⟨a, h1, h2⟩ := getBytes_drop (leBytes 8 x) (by rw [leBytes_length]; omega) (by rw [leBytes_length]; omega)
    rw [leBytes_length] at h1 h2
    refine ⟨a, h1, ?_⟩
    unfold toDouble
    rw [show (8 : Int) = ((8 : Nat) : Int) from rfl, h2, Res.bind_ok, leNat8]
    unfold U64 at hx; rw [Int.emod_eq_of_lt (by omega) (by omega)]
  · obtain ⟨a, h1, h2⟩ := getBytes_drop (leBytes 4 x) (by rw [leBytes_length]; omega) (by rw [leBytes_length]; omega)
    rw [leBytes_length] at h1 h2
    refine ⟨a, h1, ?_⟩
    unfold toSingle
    rw [show (4 : Int) = ((4 : Nat) : Int) from rfl, h2, Res.bind_ok, leNat4]
    unfold U32 at hx; rw [Int.emod_eq_of_lt (by omega) (by omega)]
  · cases b <;> exact ⟨_, rfl, rfl⟩
  · unfold int64BitsToDouble doubleToInt64Bits wrapU64 wrapI64 U64 at *; omega
  · unfold int64BitsToDouble doubleToInt64Bits wrapU64 wrapI64 I64 at *; omega

example : ∃ a, getBytesDouble 0x3FF0000000000000 = .ok a ∧ a.data = [0, 0, 0, 0, 0, 0, 240, 63] := ⟨_, rfl, rfl⟩

/-- **C45**: `GetBytes(Boolean)` is an array of one byte: 1 for true, 0 for false. -/
theorem C45_bool_bytes (b : Bool) : ∃ a, getBytesBool b = .ok a ∧ ByteArr 1 a ∧ getByte (some a) 0 = .ok (if b then 1 else 0) := by
  obtain ⟨a, h1, h2, _⟩ := getBytes_ok (leBytes 1 (if b then 1 else 0)) (by rw [leBytes_length]; omega) (by rw [leBytes_length]; omega)
  rw [leBytes_length] at h1 h2
  refine ⟨a, h1, h2, ?_⟩
  cases b <;> (rw [show getBytes _ _ = _ from rfl] at h1; injection h1 with h1; subst h1; rfl)

/-- `GetBytes(Char)` gives the two bytes of the code unit, low byte first; reading them gives the code unit, or 65536 less when
it is 0x8000 or above. -/
theorem C45_char_exact (c : Int) (hc : 0 ≤ c ∧ c ≤ 65535) :
    ∃ a, getBytesChar c = .ok a ∧ ByteArr 2 a ∧ getByte (some a) 0 = .ok (c % 256).toNat ∧ getByte (some a) 1 = .ok (c / 256).toNat ∧
      toChar (some a) 0 = .ok (if c < 32768 then c else c - 65536) := by
  obtain ⟨a, h1, h2, h3⟩ := getBytes_ok (leBytes 2 (wrapI16 c)) (by rw [leBytes_length]; omega) (by rw [leBytes_length]; omega)
  rw [leBytes_length] at h1 h2
  have hsz : (a.ty.size : Int) = 1 := by rw [h2.ty]; rfl
  have hB : Bytes ((2 : Nat) : Int) a := ⟨h2.shape, by rw [h2.ty]; rfl⟩
  have e0 : leBytes 2 (wrapI16 c) = [(c % 256).toNat, (c / 256).toNat] := by
    simp only [leBytes, wrapI16, List.cons.injEq, and_true]
    constructor <;> omega
  refine ⟨a, h1, h2, ?_, ?_, ?_⟩
  · obtain ⟨y, g1, g2⟩ := getByte_eq hB (i := 0) (by omega) (by rw [hsz]; omega)
    rw [h3, e0] at g2; simp at g2; rw [g1, g2]
  · obtain ⟨y, g1, g2⟩ := getByte_eq hB (i := 1) (by omega) (by rw [hsz]; omega)
    rw [h3, e0] at g2; simp at g2; rw [g1, g2]
  · unfold toChar
    rw [show (2 : Int) = ((2 : Nat) : Int) from rfl, putBytes_ok h2 (by omega) (by omega) (by omega), Res.bind_ok, h3]
    rw [show List.take 2 (List.drop (0 : Int).toNat (leBytes 2 (wrapI16 c))) = leBytes 2 (wrapI16 c) by rw [e0]; rfl, leInt2]
    congr 1; unfold wrapI16; split <;> omega

/-- **C45** is false of the code: a Char of 0x8000 or above does not survive the round trip. -/
theorem C45_char_refuted (c : Int) (hc : 32768 ≤ c ∧ c ≤ 65535) : ∃ a r, getBytesChar c = .ok a ∧ toChar (some a) 0 = .ok r ∧ r ≠ c := by
  obtain ⟨a, h1, _, _, _, h2⟩ := C45_char_exact c (by omega)
  exact ⟨a, _, h1, h2, by rw [if_neg (by omega)]; omega⟩

/-- **C45** (partial: code units below 0x8000): Chars round-trip. -/
theorem C45_char_partial (c : Int) (hc : 0 ≤ c ∧ c < 32768) : ∃ a, getBytesChar c = .ok a ∧ toChar (some a) 0 = .ok c := by
  obtain ⟨a, h1, _, _, _, h2⟩ := C45_char_exact c (by omega)
  refine ⟨a, h1, ?_⟩
  rw [h2, if_pos (by omega)]

/-- **C45**: a start index outside the array throws ArgumentOutOfRange; one with too few bytes behind it throws Argument; null
throws ArgumentNull. -/
theorem C45_throws {A : Int} {a : Arr} (h : ByteArr A a) (t : Ty) (i : Int) :
    toInt t none i = .throw .argumentNull ∧
    (i < 0 ∨ A ≤ i → toInt t (some a) i = .throw .argumentOutOfRange) ∧
    (0 ≤ i → i < A → A < i + tySize t → toInt t (some a) i = .throw .argument) ∧
    (i < 0 ∨ A ≤ i → BufModel.toBool (some a) i = .throw .argumentOutOfRange) := by
  have t1 : a.total = A := h.shape.total
  have f1 : A ≤ 2147483647 := h.shape.fits
  have f0 : 0 ≤ A := h.shape.nonneg
  have hs : 0 < tySize t ∧ tySize t ≤ 8 := by cases t <;> decide
  refine ⟨rfl, fun hi => ?_, fun h0 h1 h2 => ?_, fun hi => ?_⟩
  · unfold toInt putBytes
    simp only []
    by_cases c : i < 0
    · rw [if_pos c]; rfl
    · rw [if_neg c, t1, i32_ok (by unfold I32; omega), Res.bind_ok, if_pos (by omega)]; rfl
  · unfold toInt putBytes
    simp only []
    rw [if_neg (by omega), t1, i32_ok (by unfold I32; omega), Res.bind_ok, if_neg (by omega), i32_ok (by unfold I32; omega), Res.bind_ok, if_pos (by omega)]; rfl
  · unfold BufModel.toBool
    simp only []
    by_cases c : i < 0
    · rw [if_pos c]
    · rw [if_neg c, t1, i32_ok (by unfold I32; omega), Res.bind_ok, if_pos (by omega)]

example : toInt .int32 (some (mk1 (.int .byte) 4 [1, 2, 3, 4])) 1 = .throw .argument := by decide +kernel

/-- **C45**: no read through BitConverter ever leaves the array, whatever its element type, shape and the start index. -/
theorem C45_memory_safe {sh : Shape} {a : Arr} (h : HasShape sh a) (hs : 0 < a.ty.size) (t : Ty) (i : Int) : toInt t (some a) i ≠ .ub := by
  have t1 : a.total = sh.cells := h.total
  have f1 : sh.cells ≤ 2147483647 := h.fits
  have f0 := shape_lit h
  have hz : 0 < tySize t ∧ tySize t ≤ 8 := by cases t <;> decide
  unfold toInt putBytes
  simp only []
  by_cases c : i < 0
  · rw [if_pos c, Res.bind_throw]; simp
  rw [if_neg c, t1, i32_ok (by unfold I32; omega), Res.bind_ok]
  by_cases c2 : i > sh.cells - 1
  · rw [if_pos c2, Res.bind_throw]; simp
  rw [if_neg c2, i32_ok (by unfold I32; omega), Res.bind_ok]
  by_cases c3 : sh.cells - tySize t < i
  · rw [if_pos c3, Res.bind_throw]; simp
  rw [if_neg c3]
  cases sh with
  | one A =>
    have had := (addressOf_ok h (ix := .one i) ⟨by omega, by simp only [Shape.cells] at *; omega⟩)
    unfold addressOf at had
    simp only [Idx.args, rowMajor] at had
    have hby := h.bytes
    simp only [Shape.cells] at *
    have hm : i * a.ty.size + tySize t ≤ A * a.ty.size := by
      have e1 := Int.mul_le_mul_of_nonneg_right (show i + (tySize t : Int) ≤ A by omega) (show (0 : Int) ≤ a.ty.size by omega)
      rw [Int.add_mul] at e1
      have e2 := Int.mul_le_mul_of_nonneg_left (show (1 : Int) ≤ a.ty.size by omega) (show (0 : Int) ≤ tySize t by omega)
      omega
    rw [had.1, Res.bind_ok, peek_some (by omega) (by omega) (by omega)]
    simp
  | two A B =>
    have hd : a.dims = 2 := h.dims
    unfold address computeIndex
    rw [hd, if_neg (by omega), if_pos rfl, if_pos (by omega), Res.bind_throw, Res.bind_throw, Res.bind_throw]; simp
  | three A B C =>
    have hd : a.dims = 3 := h.dims
    unfold address computeIndex
    rw [hd, if_neg (by omega), if_neg (by omega), if_pos rfl, if_pos (by omega), Res.bind_throw, Res.bind_throw, Res.bind_throw]; simp

/-! ## Hexadecimal dump -/

theorem nibble_hex {x : Nat} (h : x < 16) : nibbleChar x = hexDigits.getD x 0 := by
  have : ∀ y : Fin 16, nibbleChar y.val = hexDigits.getD y.val 0 := by decide +kernel
  exact this ⟨x, h⟩

theorem digit_hex {x : Nat} (h : x < 16) : digitVal (hexDigits.getD x 0) = x := by
  have : ∀ y : Fin 16, digitVal (hexDigits.getD y.val 0) = y.val := by decide +kernel
  exact this ⟨x, h⟩

/-- **C46**: the dump of `n > 0` bytes has `3 n - 1` characters, and the bytes can be read back from it. -/
theorem C46_dump_faithful : ∀ (bs : List Nat), (∀ b ∈ bs, b < 256) → (bs ≠ [] → (hexDump bs).length = 3 * bs.length - 1) ∧ unDump (hexDump bs) = bs
  | [], _ => by simp [hexDump, unDump]
  | [b], h => by
    have hb := h b (by simp)
    refine ⟨fun _ => rfl, ?_⟩
    simp only [hexDump, hexByte, unDump]
    rw [digit_hex (by omega), digit_hex (by omega)]
    simp; omega
  | b :: c :: t, h => by
    have hb := h b (by simp)
    have ih := C46_dump_faithful (c :: t) (fun x hx => h x (List.mem_cons_of_mem _ hx))
    refine ⟨fun _ => ?_, ?_⟩
    · have := ih.1 (by simp)
      simp only [hexDump, hexByte, List.length_append, this, List.length_cons, w, List.length_map]
      simp; omega
    · simp only [hexDump, hexByte, w, List.cons_append, List.nil_append]
      show unDump (_ :: _ :: _ :: hexDump (c :: t)) = _
      rw [unDump, digit_hex (by omega), digit_hex (by omega), ih.2]
      simp; omega

example : hexDump [0, 171, 16] = w "00-AB-10" := by decide +kernel

theorem append1 {s : SBModel.SB} (c : Nat) (h : SBModel.Inv s) (h1 : 1 ≤ s.cap) (h2 : (s.len : Int) + 1 ≤ max (128 : Int) (s.cap : Int)) :
    ∃ s', ofOut (SBModel.appendChar s c 1) = .ok s' ∧ SBModel.Inv s' ∧ s'.len = s.len + 1 ∧ s'.cap = s.cap ∧ SBModel.content s' = SBModel.content s ++ [c] := by
  have hroom : (1 : Int) < 0 ∨ (1 : Int) > s.maxCap ∧ (1 : Int) > s.cap ∨ ((s.len : Int) + 1 ≤ max (128 : Int) (max (s.cap : Int) 1) ∧ (1 : Int) ≤ SBModel.limit) := by
    refine Or.inr (Or.inr ⟨by omega, by unfold SBModel.limit; omega⟩)
  rcases SBModel.appendChar_spec (c := c) (n := 1) h hroom with ⟨_, hh⟩ | ⟨s', e, _, l, _, cp, _, i, _, t, _⟩
  · omega
  · refine ⟨s', by rw [e]; rfl, i, l, cp (by omega), t⟩

theorem hexDump_cons (b : Nat) (t : List Nat) : hexDump (b :: t) = hexByte b ++ (if t = [] then [] else w "-" ++ hexDump t) := by
  cases t with
  | nil => simp [hexDump]
  | cons c t => simp [hexDump]

theorem dumpLoop_spec {A : Int} {a : Arr} (h : ByteArr A a) (hb : ∀ b ∈ a.data, b < 256) (start : Int) : ∀ (n : Nat) (i : Int) (s : SBModel.SB),
    0 ≤ start → start ≤ i → i + n ≤ A → SBModel.Inv s → 1 ≤ s.cap →
    (s.len : Int) + 3 * n ≤ (s.cap : Int) + (if i = start then 1 else 0) →
    ∃ s', dumpLoop a start n i s = .ok s' ∧ SBModel.Inv s' ∧
      SBModel.content s' = SBModel.content s ++ (if n = 0 then [] else (if i = start then [] else w "-") ++ hexDump ((a.data.drop i.toNat).take n)) := by
  intro n
  induction n with
  | zero => intro i s _ _ _ hi _ _; exact ⟨s, rfl, hi, by simp⟩
  | succ n ih =>
    intro i s h0 h1 h2 hi hc hr
    have hsz : (a.ty.size : Int) = 1 := by rw [h.ty]; rfl
    have hby : (a.data.length : Int) = A * a.ty.size := h.shape.bytes
    have had := (addressOf_ok h.shape (ix := .one i) ⟨by omega, by omega⟩).1
    unfold addressOf at had
    simp only [Idx.args, rowMajor] at had
    rw [hsz, Int.mul_one] at had hby
    have hlt : i.toNat < a.data.length := by omega
    have hx := hb _ (List.getElem_mem hlt)
    -- the separator
    obtain ⟨s1, e1, i1, l1, c1, t1⟩ : ∃ s1, (if i > start then ofOut (SBModel.appendChar s 45 1) else .ok s) = .ok s1 ∧ SBModel.Inv s1 ∧
        s1.len = s.len + (if i = start then 0 else 1) ∧ s1.cap = s.cap ∧ SBModel.content s1 = SBModel.content s ++ (if i = start then [] else w "-") := by
      by_cases hs : i = start
      · rw [if_neg (by omega), if_pos hs, if_pos hs]; exact ⟨s, rfl, hi, rfl, rfl, by simp⟩
      · rw [if_pos (by omega), if_neg hs, if_neg hs]
        rw [if_neg hs] at hr
        exact append1 45 hi hc (by push_cast at hr; omega)
    have hr1 : (s1.len : Int) + 2 + 3 * n ≤ (s1.cap : Int) := by
      rw [c1]; push_cast at hr; split at hr <;> split at l1 <;> omega
    obtain ⟨s2, e2, i2, l2, c2, t2⟩ := append1 (nibbleChar (a.data[i.toNat] / 16 % 16)) i1 (by omega) (by omega)
    obtain ⟨s3, e3, i3, l3, c3, t3⟩ := append1 (nibbleChar (a.data[i.toNat] % 16)) i2 (by omega) (by omega)
    obtain ⟨s4, e4, i4, t4⟩ := ih (i + 1) s3 h0 (by omega) (by push_cast at h2; omega) i3 (by omega) (by rw [if_neg (by omega)]; omega)
    refine ⟨s4, ?_, i4, ?_⟩
    · unfold dumpLoop
      rw [e1, Res.bind_ok, had, Res.bind_ok, peek_some (by omega) (by omega) (by omega)]
      have : List.take (1 : Int).toNat (List.drop i.toNat a.data) = [a.data[i.toNat]] := by
        rw [List.drop_eq_getElem_cons hlt]; rfl
      rw [this]
      simp only []
      rw [e2, Res.bind_ok, e3, Res.bind_ok, e4]
    · rw [t4, t3, t2, t1, nibble_hex (Nat.mod_lt _ (by omega)), nibble_hex (Nat.mod_lt _ (by omega)), if_neg (show ¬ i + 1 = start by omega), if_neg (show ¬ n + 1 = 0 by omega)]
      rw [List.drop_eq_getElem_cons hlt, List.take_succ_cons, hexDump_cons, show i.toNat + 1 = (i + 1).toNat by omega]
      have hd : a.data[i.toNat] / 16 % 16 = a.data[i.toNat] / 16 := Nat.mod_eq_of_lt (by omega)
      rw [hd]
      unfold hexByte
      by_cases hn : n = 0
      · subst hn; simp
      · have : ¬ List.take n (List.drop (i + 1).toNat a.data) = [] := by
          intro hh
          have := congrArg List.length hh
          rw [List.length_take, List.length_drop] at this
          simp at this; push_cast at h2; omega
        rw [if_neg hn, if_neg this]
        simp

/-- **C46** (partial: up to 715827840 bytes). `ToString(value, start, length)` of a Byte array, with the range inside it, is the
hexadecimal dump of exactly the bytes of that range; `length = -1` means up to the end. -/
theorem C46_to_string_partial {A : Int} {a : Arr} (h : ByteArr A a) (hb : ∀ b ∈ a.data, b < 256) (i n : Int) (h0 : 0 ≤ i) (h1 : 0 ≤ n) (h2 : i + n ≤ A)
    (h3 : i < A) (hsmall : n ≤ 715827840) :
    BufModel.toString (some a) i n = .ok (hexDump ((a.data.drop i.toNat).take n.toNat)) ∧
    (n = A - i → BufModel.toString (some a) i (-1) = .ok (hexDump (a.data.drop i.toNat))) := by
  have ht : a.total = A := h.shape.total
  have f1 : A ≤ 2147483647 := h.shape.fits
  have hsz : (a.ty.size : Int) = 1 := by rw [h.ty]; rfl
  have hby : (a.data.length : Int) = A * a.ty.size := h.shape.bytes
  rw [hsz, Int.mul_one] at hby
  have main : BufModel.toString (some a) i n = .ok (hexDump ((a.data.drop i.toNat).take n.toNat)) := by
    unfold BufModel.toString
    simp only []
    rw [if_neg (by omega), Res.bind_ok, ht, if_neg (by omega), if_neg (by omega), i32_ok (by unfold I32; omega), Res.bind_ok, if_neg (by omega)]
    by_cases hn : n = 0
    · rw [if_pos hn, hn]; simp [hexDump]
    rw [if_neg hn, i32_ok (by unfold I32; omega), Res.bind_ok, i32_ok (by unfold I32; omega), Res.bind_ok]
    obtain ⟨s, hs⟩ : ∃ s, SBModel.create (n * 3 - 1) SBModel.maximumCapacity = .done s := by
      unfold SBModel.create
      rw [if_neg (by unfold SBModel.maximumCapacity; omega), if_neg (by unfold SBModel.maximumCapacity; omega), if_neg (by omega)]
      simp only []
      rw [if_neg (by omega)]
      have hi := SBProps.inv_initial (m := SBModel.maximumCapacity) (by unfold SBModel.maximumCapacity; omega) (by unfold SBModel.maximumCapacity; omega)
      rcases SBModel.setCapacity_spec (c := n * 3 - 1) hi (Or.inl (by unfold SBModel.limit; omega)) with ⟨_, hh⟩ | ⟨t, he, _⟩
      · exfalso
        have e1 : ({ SBModel.initial with maxCap := SBModel.maximumCapacity } : SBModel.SB).maxCap = 2147483647 := rfl
        have e2 : ({ SBModel.initial with maxCap := SBModel.maximumCapacity } : SBModel.SB).internal = true := rfl
        rw [e1, e2] at hh
        rcases hh with hh | hh | ⟨hh, _⟩
        · omega
        · omega
        · cases hh
      · exact ⟨t, he⟩
    obtain ⟨g1, g2, g3, g4, g5, g6, g7, g8, g9⟩ := SBProps.create_good (by unfold SBModel.maximumCapacity; omega) hs
    rw [hs]
    show (Res.ok s >>= _) = _
    rw [Res.bind_ok, i32_ok (by unfold I32; omega), Res.bind_ok]
    obtain ⟨s', e1, e2, e3⟩ := dumpLoop_spec h hb i n.toNat i s h0 (by omega) (by omega) g1 (by omega) (by rw [if_pos rfl, g3]; omega)
    rw [e1, Res.bind_ok, SBModel.toStr_ok e2, e3, g2, if_neg (by omega), if_pos rfl]
    rfl
  refine ⟨main, fun hn => ?_⟩
  have e : BufModel.toString (some a) i (-1) = BufModel.toString (some a) i n := by
    unfold BufModel.toString
    simp only []
    rw [if_pos trivial, ht, i32_ok (by unfold I32; omega), Res.bind_ok, if_neg (show ¬ n = -1 by omega), Res.bind_ok, hn]
  rw [e, main, List.take_of_length_le (by rw [List.length_drop]; omega)]

example : BufModel.toString (some (mk1 (.int .byte) 4 [1, 254, 16, 7])) 1 2 = .ok (w "FE-10") ∧
    BufModel.toString (some (mk1 (.int .byte) 4 [1, 254, 16, 7])) 0 (-1) = .ok (w "01-FE-10-07") := by decide +kernel

/-- **C46** is false of the code for larger ranges: the size of the text overflows an Int32 (undefined). -/
theorem C46_large_refuted {A : Int} {a : Arr} (h : ByteArr A a) (n : Int) (h1 : 715827882 < n) (h2 : n ≤ A) : BufModel.toString (some a) 0 n = .ub := by
  have ht : a.total = A := h.shape.total
  have f1 : A ≤ 2147483647 := h.shape.fits
  have ov : i32 (n * 3) = .ub := by unfold i32; rw [if_neg (by unfold I32; omega)]
  unfold BufModel.toString
  simp only []
  rw [if_neg (by omega), Res.bind_ok, ht, if_neg (by omega), if_neg (by omega), i32_ok (by unfold I32; omega), Res.bind_ok, if_neg (by omega), if_neg (by omega), ov]
  rfl

/-- Such arrays can be constructed. -/
example : ∃ a, newArr (.int .byte) 800000000 (-1) (-1) = .ok a ∧ ByteArr 800000000 a := by
  obtain ⟨a, h1, h2, h3, _⟩ := newArr_ok (.int .byte) (.one 800000000) (by decide) (by decide) (by decide) (by intro x y z h; cases h)
  exact ⟨a, h1, h3, h2⟩

/-- **C46**: outside its range `ToString` throws: ArgumentOutOfRange for a start outside a non-empty array or a negative length
other than -1, Argument for a range leaving it, ArgumentNull for null; an empty array gives the empty text. -/
theorem C46_to_string_throws {A : Int} {a : Arr} (h : ByteArr A a) (i n : Int) (hi : -2147483648 ≤ i) (hi2 : i ≤ 2147483647) :
    BufModel.toString none i n = .throw .argumentNull ∧
    (0 < A → (A ≤ i ∨ (i < 0 ∧ n ≠ -1)) → BufModel.toString (some a) i n = .throw .argumentOutOfRange) ∧
    (0 ≤ i → i < A → n < -1 → BufModel.toString (some a) i n = .throw .argumentOutOfRange) ∧
    (0 ≤ i → i < A → A < i + n → n ≤ 2147483647 → BufModel.toString (some a) i n = .throw .argument) ∧
    (A = 0 → BufModel.toString (some a) 0 n = .ok []) := by
  have ht : a.total = A := h.shape.total
  have f1 : A ≤ 2147483647 := h.shape.fits
  have f0 : 0 ≤ A := h.shape.nonneg
  refine ⟨rfl, fun hA hh => ?_, fun h0 h1 h2 => ?_, fun h0 h1 h2 h3 => ?_, fun hA => ?_⟩
  · unfold BufModel.toString
    simp only []
    by_cases c : n = -1
    · rw [if_pos c, ht, i32_ok (by unfold I32; omega), Res.bind_ok, if_pos (by omega), if_neg (by omega)]
    · rw [if_neg c, Res.bind_ok, ht, if_pos (by omega), if_neg (by omega)]
  · unfold BufModel.toString
    simp only []
    rw [if_neg (by omega), Res.bind_ok, ht, if_neg (by omega), if_pos (by omega)]
  · unfold BufModel.toString
    simp only []
    rw [if_neg (by omega), Res.bind_ok, ht, if_neg (by omega), if_neg (by omega), i32_ok (by unfold I32; omega), Res.bind_ok, if_pos (by omega)]
  · unfold BufModel.toString
    simp only []
    by_cases c : n = -1
    · rw [if_pos c, ht, i32_ok (by unfold I32; omega), Res.bind_ok, if_pos (Or.inr (by omega)), if_pos ⟨trivial, hA⟩]
    · rw [if_neg c, Res.bind_ok, ht, if_pos (Or.inr (by omega)), if_pos ⟨trivial, hA⟩]

example : BufModel.toString (some (mk1 (.int .byte) 2 [1, 254])) 1 2 = .throw .argument := by decide +kernel

end Verif.BufProps
