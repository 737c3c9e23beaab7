import Verif.IntLemmas
/-!
# C20-C23: integer text and comparison
-/
set_option linter.unusedSimpArgs false
namespace Verif.IntVal

theorem tryParseString_some (L : Locale) (s : WStr) :
    tryParseString L (some s) = tryParseInternal L (s ++ [0]) s.length := rfl

/-- What the scanner returns on a well-formed integer text. -/
theorem scan_intText (L : Locale) {s : WStr} {v : Int} (h : IntText L s v) :
    ∃ (n : Nat) (sg : Int), tryParseString L (some s) = .ok { good := true, value := wrapU64 n, sign := sg } ∧
      v = sg * n ∧ ((sg = 1 ∧ 45 ∉ s) ∨ (sg = -1 ∧ 45 ∈ s)) := by
  obtain ⟨p, ws2, rfl, ⟨ws, sg, ds, rfl, hws, hne, hds, hv⟩, hws2⟩ := h
  have hsg : sg = [] ∨ sg = [43] ∨ sg = [45] := by
    rcases hv with h | h | h
    · left; exact h.1
    · right; left; exact h.1
    · right; right; exact h.1
  have hr : ws2 = [] ∨ ∃ c r', ws2 = c :: r' ∧ isDigit c = false := by
    cases ws2 with
    | nil => left; rfl
    | cons c r => right; exact ⟨c, r, rfl, isDigit_not_space L (hws2 c (by simp))⟩
  have key := tryParseInternal_numeral L ws sg ds ws2 [] hws hne hds hsg hr
  have hend : endOk L ws2 = true := by
    cases ws2 with
    | nil => rfl
    | cons c r => exact hws2 c (by simp)
  have n1 : 45 ∉ ws := fun h => by have := hws 45 h; rw [L.minus_not_space] at this; cases this
  have n2 : 45 ∉ ws2 := fun h => by have := hws2 45 h; rw [L.minus_not_space] at this; cases this
  have n3 : 45 ∉ ds := fun h => by have := hds 45 h; revert this; decide
  refine ⟨numeral ds, if sg = [45] then -1 else 1, ?_, ?_, ?_⟩
  · rw [tryParseString_some, key, hend]
  · rcases hv with ⟨h, h'⟩ | ⟨h, h'⟩ | ⟨h, h'⟩ <;> subst h <;> simp [h']
  · rcases hsg with h | h | h <;> subst h <;> simp [n1, n2, n3]

/-- The text printed for a value is a well-formed text that denotes it. -/
theorem toString_intText (L : Locale) (ty : Ty) {v : Int} (h : InTy ty v) : IntText L (toString ty v) v := by
  have nat : ∀ n : Nat, IntText L (dec n) n := fun n =>
    ⟨dec n, [], by simp, ⟨[], [], dec n, by simp, by simp, dec_ne_nil n, dec_digits n,
      by left; exact ⟨rfl, by rw [numeral_dec]⟩⟩, by simp⟩
  have int : ∀ x : Int, IntText L (decInt x) x := by
    intro x
    unfold decInt
    split
    · rename_i hx
      refine ⟨45 :: dec x.natAbs, [], by simp, ⟨[], [45], dec x.natAbs, by simp, by simp, dec_ne_nil _, dec_digits _,
        by right; right; exact ⟨rfl, by rw [numeral_dec]; omega⟩⟩, by simp⟩
    · rename_i hx
      have := nat x.toNat
      rwa [Int.toNat_of_nonneg (by omega)] at this
  have un : 0 ≤ v → IntText L (dec v.toNat) v := fun h0 => by
    have := nat v.toNat
    rwa [Int.toNat_of_nonneg h0] at this
  cases ty
  case sbyte => exact int v
  case int16 => exact int v
  case int32 => exact int v
  case int64 => exact int v
  case byte => exact un h.1
  case uint16 => exact un h.1
  case uint32 => exact un h.1
  case uint64 => exact un h.1

/-- A non-negative value of an unsigned type is printed without a minus sign. -/
theorem toString_no_minus (ty : Ty) {v : Int} (h : 0 ≤ v) : 45 ∉ toString ty v := by
  have nat : ∀ n : Nat, 45 ∉ dec n := fun n h => by
    have := dec_digits n 45 h; revert this; decide
  have hi : 45 ∉ decInt v := by
    unfold decInt; rw [if_neg (by omega)]; exact nat _
  cases ty
  case sbyte => exact hi
  case int16 => exact hi
  case int32 => exact hi
  case int64 => exact hi
  case byte => exact nat _
  case uint16 => exact nat _
  case uint32 => exact nat _
  case uint64 => exact nat _

/-- C21 (values in range, partial): `Parse` of `[ws][sign]digits[ws]` returns the denoted integer when it is a
value of the type. Missing, because the code is wrong there (see the refutations below): the minimum of the two
widest signed types (undefined behaviour), and "-0" for Byte. -/
theorem C21_parse_in_range_partial (L : Locale) (ty : Ty) (s : WStr) (v : Int)
    (h : IntText L s v) (hv : InTy ty v) (hmin : ¬ SignedMin ty v) (hb : ty = .byte → 45 ∉ s) :
    parse L ty (some s) = .ok v := by
  obtain ⟨n, sg, e, hn, hs⟩ := scan_intText L h
  unfold parse
  rw [e]
  simp only [Res.bind_ok]
  rw [if_neg (by simp)]
  unfold InTy at hv
  unfold SignedMin at hmin
  have hs' : sg = 1 ∨ sg = -1 := by rcases hs with h | h <;> simp [h.1]
  have hu : wrapU64 (n : Int) = n := by
    apply wrapU64_of; unfold U64
    cases ty <;> simp only [Ty.min, Ty.max] at hv <;> rcases hs' with h | h <;> subst h <;> omega
  rw [hu]
  cases ty <;> simp only [Ty.min, Ty.max, reduceCtorEq, true_and, false_and, or_false, false_or, not_false_eq_true,
      or_true, true_or] at hv hmin ⊢
  case byte =>
    have : sg = 1 := by
      rcases hs with h | h
      · exact h.1
      · exact absurd h.2 (hb rfl)
    subst this
    rw [if_neg (by omega)]; unfold wrapU8; rw [Res.ok.injEq]; omega
  case sbyte =>
    rcases hs' with h | h <;> subst h
    · rw [if_neg (by omega), if_neg (by omega), Res.ok.injEq]; unfold wrapI8; omega
    · rw [if_neg (by omega), if_neg (by unfold wrapI64; omega), Res.ok.injEq]; unfold wrapI8; omega
  case int16 =>
    rcases hs' with h | h <;> subst h
    · rw [if_neg (by omega), if_neg (by omega), Res.ok.injEq]; unfold wrapI16; omega
    · rw [if_neg (by omega), if_neg (by unfold wrapI64; omega), Res.ok.injEq]; unfold wrapI16; omega
  case uint16 =>
    rcases hs' with h | h <;> subst h
    · rw [if_neg (by omega), Res.ok.injEq]; unfold wrapU16; omega
    · rw [if_neg (by omega), Res.ok.injEq]; unfold wrapU16; omega
  case int32 =>
    rcases hs' with h | h <;> subst h
    · rw [if_neg (by omega), if_neg (by omega), wrapI32_of (by unfold I32; omega), i32_ok (by unfold I32; omega)]
      rw [Res.ok.injEq]; omega
    · rw [if_neg (by omega), if_neg (by unfold wrapI64; omega), wrapI32_of (by unfold I32; omega),
        i32_ok (by unfold I32; omega)]
      rw [Res.ok.injEq]; omega
  case uint32 =>
    rcases hs' with h | h <;> subst h
    · rw [if_neg (by omega), Res.ok.injEq]; unfold wrapU32; omega
    · rw [if_neg (by omega), Res.ok.injEq]; unfold wrapU32; omega
  case int64 =>
    rcases hs' with h | h <;> subst h
    · rw [wrapI64_of (by unfold I64; omega), i64_ok (by unfold I64; omega)]
      rw [Res.ok.injEq]; omega
    · rw [wrapI64_of (by unfold I64; omega), i64_ok (by unfold I64; omega)]
      rw [Res.ok.injEq]; omega
  case uint64 =>
    rcases hs' with h | h <;> subst h <;> rw [if_neg (by omega), Res.ok.injEq] <;> omega

/-- Non-vacuity: " -42 " is such a text for Int16. -/
example : IntText cLocale [32, 45, 52, 50, 32] (-42) ∧ InTy .int16 (-42) ∧ ¬ SignedMin .int16 (-42) ∧
    parse cLocale .int16 (some [32, 45, 52, 50, 32]) = .ok (-42) := by
  refine ⟨⟨[32, 45, 52, 50], [32], rfl, ⟨[32], [45], [52, 50], rfl, by decide, by decide, by decide, ?_⟩, by decide⟩,
    by unfold InTy; decide, by unfold SignedMin; decide, by decide +kernel⟩
  right; right; exact ⟨rfl, by decide⟩

/-- C21 (overflow, partial): a text denoting a number above the maximum of the type makes `Parse` throw
OverflowException, for every type narrower than 64 bits and every number below 2^64. Missing (see refutations):
larger numbers, Int64 and UInt64, and numbers below the minimum of a signed type. -/
theorem C21_parse_overflow_partial (L : Locale) (ty : Ty) (s : WStr) (v : Int)
    (h : IntText L s v) (hv : v > ty.max) (h64 : v < 18446744073709551616) (hty : ty ≠ .int64) :
    parse L ty (some s) = .throw .overflow := by
  obtain ⟨n, sg, e, hn, hs⟩ := scan_intText L h
  have hs' : sg = 1 := by
    rcases hs with h | h
    · exact h.1
    · exfalso
      rw [h.1] at hn
      have : 0 ≤ ty.max := by cases ty <;> decide
      omega
  subst hs'
  have hu : wrapU64 (n : Int) = n := by apply wrapU64_of; unfold U64; omega
  unfold parse
  rw [e]
  simp only [Res.bind_ok]
  rw [if_neg (by simp), hu]
  cases ty <;> simp only [Ty.max, ne_eq, not_true_eq_false] at hv hty ⊢
  · rw [if_pos (by omega)]
  · rw [if_pos (by omega)]
  · rw [if_pos (by omega)]
  · rw [if_pos (by omega)]
  · rw [if_pos (by omega)]
  · rw [if_pos (by omega)]
  · omega

example : parse cLocale .sbyte (some [49, 50, 56]) = .throw .overflow := by decide +kernel
example : IntText cLocale [49, 50, 56] 128 ∧ (128 : Int) > Ty.max .sbyte :=
  ⟨⟨[49, 50, 56], [], rfl, ⟨[], [], [49, 50, 56], rfl, by decide, by decide, by decide, Or.inl ⟨rfl, by decide⟩⟩,
    by decide⟩, by decide⟩

/-- C21 (negative numbers for Byte): Byte rejects every negative numeral with OverflowException. -/
theorem C21_byte_negative (L : Locale) (s : WStr) (v : Int) (h : IntText L s v) (hv : v < 0) :
    parse L .byte (some s) = .throw .overflow := by
  obtain ⟨n, sg, e, hn, hs⟩ := scan_intText L h
  have hs' : sg = -1 := by
    rcases hs with h | h
    · rw [h.1] at hn; omega
    · exact h.1
  subst hs'
  unfold parse
  rw [e]
  simp

example : parse cLocale .byte (some [45, 53]) = .throw .overflow := by decide +kernel

/-- C21 (format): for every type, `Parse` throws FormatException exactly for the texts that do not start with
`[ws][sign]digits` followed by the end of the text or a white-space character. -/
theorem C21_format_iff (L : Locale) (ty : Ty) (s : WStr) :
    parse L ty (some s) = .throw .format ↔ ¬ PrefixText L s := by
  rw [← good_iff]
  unfold parse
  rw [tryParseString_some, tryParseInternal_eq]
  simp only [Res.bind_ok]
  generalize (!((body L s).takeWhile isDigit).isEmpty && endOk L ((body L s).dropWhile isDigit)) = g
  cases g
  · simp
  · simp only [Bool.true_eq_false, if_false, not_true_eq_false, iff_false]
    cases ty <;> simp only [] <;> (try unfold i32) <;> (try unfold i64) <;> (repeat' split) <;> simp

example : ¬ PrefixText cLocale [120, 49] := by
  rw [← C21_format_iff cLocale .int32]; decide +kernel
example : PrefixText cLocale [49, 50, 32, 120] := by
  refine Classical.not_not.mp ?_
  rw [← C21_format_iff cLocale .int32]; decide +kernel

/-- C21 is violated: the minimum numerals of Int32/Int64 overflow a signed multiplication; numerals below the
minimum or at 2^64 and beyond are accepted with a wrong value; a minus sign is accepted for the unsigned types
other than Byte (UInt64 even drops it); "-0" is an overflow for Byte; text after white space is ignored. -/
theorem C21_refuted :
    parse cLocale .int32 (some (w "-2147483648")) = .ub ∧
    parse cLocale .int64 (some (w "-9223372036854775808")) = .ub ∧
    parse cLocale .sbyte (some (w "-200")) = .ok 56 ∧
    parse cLocale .int32 (some (w "-2147483649")) = .ok 2147483647 ∧
    parse cLocale .int64 (some (w "9223372036854775809")) = .ok (-9223372036854775807) ∧
    parse cLocale .uint64 (some (w "18446744073709551616")) = .ok 0 ∧
    parse cLocale .int32 (some (w "18446744073709551617")) = .ok 1 ∧
    parse cLocale .uint32 (some (w "-1")) = .ok 4294967295 ∧
    parse cLocale .uint64 (some (w "-5")) = .ok 5 ∧
    parse cLocale .byte (some (w "-0")) = .throw .overflow ∧
    parse cLocale .int32 (some (w "12 x")) = .ok 12 := by
  decide +kernel

/-- C20 (partial): for every type and every value except the minimum of Int32 and Int64, parsing the printed text
gives the value back, and `TryParse` returns true with it. Missing: the two minima, where the code multiplies
`(Int32)2147483648` resp. `(Int64)9223372036854775808` by -1 (signed overflow): `C20_refuted`. -/
theorem C20_round_trip_partial (L : Locale) (ty : Ty) (v : Int) (hv : InTy ty v) (hmin : ¬ SignedMin ty v) :
    parse L ty (some (toString ty v)) = .ok v ∧ tryParse L ty (some (toString ty v)) = .ok (true, v) := by
  have ht := toString_intText L ty hv
  have hp : parse L ty (some (toString ty v)) = .ok v :=
    C21_parse_in_range_partial L ty _ v ht hv hmin (by intro h; subst h; exact toString_no_minus _ hv.1)
  refine ⟨hp, ?_⟩
  obtain ⟨n, sg, e, hn, hs⟩ := scan_intText L ht
  have hs2 : 0 ≤ v → sg = 1 := by
    intro h0
    rcases hs with h | h
    · exact h.1
    · exact absurd h.2 (toString_no_minus ty h0)
  have hs' : sg = 1 ∨ sg = -1 := by rcases hs with h | h <;> simp [h.1]
  unfold parse at hp
  unfold tryParse
  rw [e] at hp ⊢
  simp only [Res.bind_ok, Bool.true_eq_false, if_false, Bool.true_and] at hp ⊢
  unfold InTy at hv
  have hu : wrapU64 (n : Int) = n := by
    apply wrapU64_of; unfold U64
    cases ty <;> simp only [Ty.min, Ty.max] at hv <;> rcases hs' with h | h <;> subst h <;> omega
  rw [hu] at hp ⊢
  cases ty <;> simp only [Ty.min, Ty.max] at hv hp ⊢
  case sbyte =>
    split at hp
    · cases hp
    split at hp
    · cases hp
    rename_i h1 h2
    rw [Res.ok.injEq] at hp
    rw [hp]
    simp only [Res.ok.injEq, Prod.mk.injEq, and_true]
    simp only [Bool.and_eq_true, Bool.not_eq_true', Bool.and_eq_false_iff, decide_eq_false_iff_not]
    omega
  case int16 =>
    split at hp
    · cases hp
    split at hp
    · cases hp
    rename_i h1 h2
    rw [Res.ok.injEq] at hp
    rw [hp]
    simp only [Res.ok.injEq, Prod.mk.injEq, and_true]
    simp only [Bool.and_eq_true, Bool.not_eq_true', Bool.and_eq_false_iff, decide_eq_false_iff_not]
    omega
  case int32 =>
    split at hp
    · cases hp
    split at hp
    · cases hp
    rename_i h1 h2
    rw [hp]
    simp only [Res.bind_ok, Res.ok.injEq, Prod.mk.injEq, and_true]
    simp only [Bool.and_eq_true, Bool.not_eq_true', Bool.and_eq_false_iff, decide_eq_false_iff_not]
    omega
  case int64 =>
    rw [hp]
    simp
  all_goals
    have h1 := hs2 hv.1
    subst h1
    first
      | rw [if_neg (by omega)] at hp
    simp only [Res.ok.injEq, Prod.mk.injEq]
    constructor
    · simp only [Bool.not_eq_true', Bool.or_eq_false_iff, decide_eq_false_iff_not]; omega
    · first | (unfold wrapU8; omega) | (unfold wrapU16; omega) | (unfold wrapU32; omega) | omega

example : InTy .uint64 18446744073709551615 ∧ ¬ SignedMin .uint64 18446744073709551615 ∧
    toString .int32 (-2147483647) = w "-2147483647" := by
  refine ⟨by unfold InTy; decide, by unfold SignedMin; decide, by decide +kernel⟩

/-- C20 is violated at the two minima: printing gives the right text, but parsing it is undefined behaviour. -/
theorem C20_refuted :
    toString .int32 (-2147483648) = w "-2147483648" ∧
    parse cLocale .int32 (some (toString .int32 (-2147483648))) = .ub ∧
    tryParse cLocale .int32 (some (toString .int32 (-2147483648))) = .ub ∧
    toString .int64 (-9223372036854775808) = w "-9223372036854775808" ∧
    parse cLocale .int64 (some (toString .int64 (-9223372036854775808))) = .ub ∧
    tryParse cLocale .int64 (some (toString .int64 (-9223372036854775808))) = .ub := by
  decide +kernel

/-- Distinct values have distinct texts (consequence of the round trip; holds for the minima too). -/
theorem C20_toString_injective (ty : Ty) (u v : Int) (hu : InTy ty u) (hv : InTy ty v)
    (h : toString ty u = toString ty v) : u = v := by
  obtain ⟨n, sg, e, hn, hs⟩ := scan_intText cLocale (toString_intText cLocale ty hu)
  obtain ⟨m, sg', e', hm, hs'⟩ := scan_intText cLocale (toString_intText cLocale ty hv)
  rw [h] at e hs
  rw [e, Res.ok.injEq, Parsed.mk.injEq] at e'
  obtain ⟨-, e1, e2⟩ := e'
  subst e2
  unfold InTy at hu hv
  have hsg : sg = 1 ∨ sg = -1 := by rcases hs with h | h <;> simp [h.1]
  have b1 : wrapU64 (n : Int) = n := by
    apply wrapU64_of; unfold U64
    cases ty <;> simp only [Ty.min, Ty.max] at hu <;> rcases hsg with h | h <;> subst h <;> omega
  have b2 : wrapU64 (m : Int) = m := by
    apply wrapU64_of; unfold U64
    cases ty <;> simp only [Ty.min, Ty.max] at hv <;> rcases hsg with h | h <;> subst h <;> omega
  rw [b1, b2] at e1
  rw [hn, hm, e1]

example : toString .sbyte (-128) ≠ toString .sbyte (127) := by decide +kernel

/-- C22 (partial): `Parse` returns `v` exactly when `TryParse` returns true with `v`. For UInt16, UInt32 and UInt64
the text must contain no minus sign (there `Parse` accepts and `TryParse` rejects: `C22_refuted`). -/
theorem C22_agree_partial (L : Locale) (ty : Ty) (s : WStr) (v : Int)
    (hsign : ty = .uint16 ∨ ty = .uint32 ∨ ty = .uint64 → 45 ∉ s) :
    parse L ty (some s) = .ok v ↔ tryParse L ty (some s) = .ok (true, v) := by
  have hsg : 45 ∉ s → signOf (s.dropWhile L.isSpace) = 1 := by
    intro hn
    unfold signOf; split
    · rename_i r h
      exfalso; apply hn
      have : 45 ∈ s.dropWhile L.isSpace := by rw [h]; simp
      exact (List.dropWhile_suffix _).subset this
    · rfl
  have hor : signOf (s.dropWhile L.isSpace) = 1 ∨ signOf (s.dropWhile L.isSpace) = -1 := by
    unfold signOf; split <;> simp
  unfold parse tryParse
  rw [tryParseString_some, tryParseInternal_eq]
  simp only [Res.bind_ok]
  generalize (!((body L s).takeWhile isDigit).isEmpty && endOk L ((body L s).dropWhile isDigit)) = g
  have hval : U64 (wrapU64 (numeral ((body L s).takeWhile isDigit))) := by unfold U64 wrapU64; omega
  generalize wrapU64 (numeral ((body L s).takeWhile isDigit)) = x at *
  generalize signOf (s.dropWhile L.isSpace) = sg at *
  unfold U64 at hval
  cases g
  · simp only [if_true, Bool.false_and]
    constructor
    · intro h; cases h
    · intro h; exfalso
      cases ty <;> simp only [] at h
      case int32 => unfold i32 at h; split at h <;> simp at h
      case int64 => unfold i64 at h; split at h <;> simp at h
      all_goals (rw [Res.ok.injEq, Prod.mk.injEq] at h; exact absurd h.1 (by simp))
  · simp only [Bool.true_eq_false, if_false, Bool.true_and]
    have comb : ∀ (P Q : Prop) [Decidable P] [Decidable Q] (y : Int), ¬ (P ∧ Q) →
        ((if P then (Res.throw Exc.overflow : Res Int) else if Q then .throw .overflow else .ok y) = .ok v ↔
          (Res.ok (!(decide P) && !(decide Q), y)) = (.ok (true, v) : Res (Bool × Int))) := by
      intro P Q _ _ y hpq
      by_cases hP : P <;> by_cases hQ : Q <;> simp [hP, hQ]
    have comb1 : ∀ (P : Prop) [Decidable P] (y : Int),
        ((if P then (Res.throw Exc.overflow : Res Int) else .ok y) = .ok v ↔
          (Res.ok (!(decide P), y)) = (.ok (true, v) : Res (Bool × Int))) := by
      intro P _ y
      by_cases hP : P <;> simp [hP]
    cases ty <;> simp only [← Bool.decide_and, ← Bool.decide_or]
    case byte => exact comb1 _ _
    case sbyte => exact comb _ _ _ (by omega)
    case int16 => exact comb _ _ _ (by omega)
    case int32 =>
      unfold i32
      by_cases hI : I32 (wrapI32 x * sg)
      · rw [if_pos hI]; exact comb _ _ _ (by omega)
      · rw [if_neg hI]; simp only [Res.bind_ub]
        repeat' split
        all_goals simp
    case int64 =>
      unfold i64
      by_cases hI : I64 (wrapI64 x * sg)
      · rw [if_pos hI]; simp
      · rw [if_neg hI]; simp
    case uint16 =>
      have h1 := hsg (hsign (by simp)); subst h1
      rw [show (!(decide ((1 : Int) < 0 ∨ x > 65535))) = !(decide (x > 65535)) by simp]
      refine Iff.trans (comb1 _ _) ?_
      by_cases hx : x > 65535
      · simp [hx]
      · simp only [hx, decide_false, Bool.not_false, Res.ok.injEq, Prod.mk.injEq, true_and]
        rw [show ∀ p q : Int, p = q → (p = v ↔ q = v) from fun p q h => by rw [h]]
        unfold wrapU16; omega
    case uint32 =>
      have h1 := hsg (hsign (by simp)); subst h1
      rw [show (!(decide ((1 : Int) < 0 ∨ x > 4294967295))) = !(decide (x > 4294967295)) by simp]
      refine Iff.trans (comb1 _ _) ?_
      by_cases hx : x > 4294967295
      · simp [hx]
      · simp only [hx, decide_false, Bool.not_false, Res.ok.injEq, Prod.mk.injEq, true_and]
        rw [show ∀ p q : Int, p = q → (p = v ↔ q = v) from fun p q h => by rw [h]]
        unfold wrapU32; omega
    case uint64 =>
      have h1 := hsg (hsign (by simp)); subst h1
      rw [show (!(decide ((1 : Int) < 0 ∨ x > 18446744073709551615))) = !(decide (x > 18446744073709551615)) by simp]
      refine Iff.trans (comb1 _ _) ?_
      by_cases hx : x > 18446744073709551615
      · simp [hx]
      · simp only [hx, decide_false, Bool.not_false, Res.ok.injEq, Prod.mk.injEq, true_and]


/-- Non-vacuity of C22: an accepted and a rejected text. -/
example : parse cLocale .uint32 (some (w " +17")) = .ok 17 ∧ tryParse cLocale .uint32 (some (w " +17")) = .ok (true, 17) ∧
    parse cLocale .uint32 (some (w "17a")) = .throw .format ∧ tryParse cLocale .uint32 (some (w "17a")) = .ok (false, 17) ∧
    45 ∉ w " +17" := by decide +kernel

/-- C22 (no exception): `TryParse` never throws for a non-null text. -/
theorem C22_tryParse_no_throw (L : Locale) (ty : Ty) (s : WStr) (e : Exc) :
    tryParse L ty (some s) ≠ .throw e := by
  unfold tryParse
  rw [tryParseString_some, tryParseInternal_eq]
  simp only [Res.bind_ok]
  cases ty <;> simp only [] <;> (try unfold i32) <;> (try unfold i64) <;> (try split) <;> simp

/-- C22 (null): both throw ArgumentNullException for a null text. -/
theorem C22_null (L : Locale) (ty : Ty) :
    parse L ty none = .throw .argumentNull ∧ tryParse L ty none = .throw .argumentNull := by
  constructor <;> rfl

/-- C22 is violated: for the wide unsigned types `Parse` accepts a minus sign that `TryParse` rejects; and
`TryParse` has undefined behaviour on a malformed text on which `Parse` throws FormatException. -/
theorem C22_refuted :
    parse cLocale .uint16 (some (w "-1")) = .ok 65535 ∧ tryParse cLocale .uint16 (some (w "-1")) = .ok (false, 1) ∧
    parse cLocale .uint32 (some (w "-1")) = .ok 4294967295 ∧ tryParse cLocale .uint32 (some (w "-1")) = .ok (false, 1) ∧
    parse cLocale .uint64 (some (w "-1")) = .ok 1 ∧ tryParse cLocale .uint64 (some (w "-1")) = .ok (false, 1) ∧
    parse cLocale .int32 (some (w "-2147483648x")) = .throw .format ∧
    tryParse cLocale .int32 (some (w "-2147483648x")) = .ub := by
  decide +kernel

/-- `r` is a comparison result for the order `<`. -/
def SignOK (r a b : Int) : Prop := (r < 0 ↔ a < b) ∧ (r = 0 ↔ a = b) ∧ (0 < r ↔ b < a)

/-- C23 (partial): `CompareTo` has the sign of the comparison for all pairs of values of the 8- and 16-bit types,
and for all pairs of the wider types that are less than 2^31 apart. Missing: pairs further apart
(`C23_refuted`). -/
theorem C23_compareTo_partial (ty : Ty) (a b : Int) (ha : InTy ty a) (hb : InTy ty b)
    (hclose : ty = .int32 ∨ ty = .uint32 ∨ ty = .int64 ∨ ty = .uint64 → -2147483648 ≤ a - b ∧ a - b ≤ 2147483647) :
    ∃ r, compareTo ty a b = .ok r ∧ SignOK r a b := by
  unfold InTy at ha hb
  have key : ∀ r, r = a - b → SignOK r a b := by intro r h; subst h; unfold SignOK; omega
  cases ty <;> simp only [Ty.min, Ty.max] at ha hb <;> simp only [compareTo]
  case int32 => exact ⟨_, i32_ok (hclose (by simp)), key _ rfl⟩
  case uint32 =>
    have := hclose (by simp)
    exact ⟨_, rfl, key _ (by unfold wrapI32 wrapU32; omega)⟩
  case int64 =>
    have := hclose (by simp)
    rw [i64_ok (by unfold I64; omega)]
    exact ⟨_, rfl, key _ (by unfold wrapI32; omega)⟩
  case uint64 =>
    have := hclose (by simp)
    exact ⟨_, rfl, key _ (by unfold wrapI32 wrapU64; omega)⟩
  all_goals exact ⟨_, i32_ok (by unfold I32; omega), key _ rfl⟩

example : InTy .int64 (-3) ∧ InTy .int64 9 ∧ compareTo .int64 (-3) 9 = .ok (-12) := by
  refine ⟨by unfold InTy; decide, by unfold InTy; decide, by decide +kernel⟩

/-- C23 is violated for the four wide types on values far apart: signed overflow, wrong sign, and equality
reported for different values. -/
theorem C23_refuted :
    compareTo .int32 2147483647 (-1) = .ub ∧
    compareTo .uint32 4294967295 0 = .ok (-1) ∧
    compareTo .int64 4294967296 0 = .ok 0 ∧
    compareTo .int64 9223372036854775807 (-1) = .ub ∧
    compareTo .uint64 4294967296 0 = .ok 0 := by
  decide +kernel

/-- **C23**, what exactly is computed: for the 32- and 64-bit types the result is the 32-bit number congruent to the difference, unless a signed difference overflows, which is undefined; so for `Int32` the answer is
right exactly when it is defined, and for `UInt32` exactly when the two are less than 2^31 apart (or exactly 2^31, the first being the smaller). -/
theorem C23_exact (ty : Ty) (a b : Int) (ha : InTy ty a) (hb : InTy ty b) (hty : ty = .int32 ∨ ty = .uint32 ∨ ty = .int64 ∨ ty = .uint64) :
    (compareTo ty a b = .ub ↔ (ty = .int32 ∧ ¬ I32 (a - b)) ∨ (ty = .int64 ∧ ¬ I64 (a - b))) ∧
    (compareTo ty a b = .ub ∨ ∃ r, compareTo ty a b = .ok r ∧ I32 r ∧ ∃ k : Int, r = a - b + k * 4294967296) ∧
    (ty = .int32 ∨ ty = .uint32 → ((∃ r, compareTo ty a b = .ok r ∧ SignOK r a b) ↔ -2147483648 ≤ a - b ∧ a - b ≤ 2147483647)) := by
  unfold InTy at ha hb
  rcases hty with rfl | rfl | rfl | rfl <;> simp only [Ty.min, Ty.max] at ha hb
  · by_cases h : I32 (a - b)
    · rw [show compareTo .int32 a b = .ok (a - b) from i32_ok h]
      refine ⟨by simp [h], .inr ⟨_, rfl, h, 0, by omega⟩, fun _ => ⟨fun _ => h, fun _ => ⟨_, rfl, by unfold SignOK; omega⟩⟩⟩
    · rw [show compareTo .int32 a b = .ub by unfold compareTo i32; simp only []; rw [if_neg h]]
      refine ⟨by simp [h], .inl rfl, fun _ => ⟨fun q => (by obtain ⟨r, e, _⟩ := q; cases e), fun k => absurd k h⟩⟩
  · have e : compareTo .uint32 a b = .ok (wrapI32 (wrapU32 (a - b))) := rfl
    rw [e]
    refine ⟨by simp, .inr ⟨_, rfl, by unfold I32 wrapI32 wrapU32; omega, -((wrapU32 (a - b) + 2147483648) / 4294967296 + (a - b) / 4294967296), by unfold wrapI32 wrapU32; omega⟩, fun _ => ?_⟩
    constructor
    · rintro ⟨r, e, h⟩
      rw [Res.ok.injEq] at e
      unfold wrapI32 wrapU32 at e
      unfold SignOK at h
      omega
    · intro h
      refine ⟨_, rfl, ?_⟩
      unfold SignOK wrapI32 wrapU32
      omega
  · by_cases h : I64 (a - b)
    · have e : compareTo .int64 a b = .ok (wrapI32 (a - b)) := by unfold compareTo; simp only [i64_ok h]; rfl
      rw [e]
      exact ⟨by simp [h], .inr ⟨_, rfl, by unfold I32 wrapI32; omega, -((a - b + 2147483648) / 4294967296), by unfold wrapI32; omega⟩, fun h => by simp at h⟩
    · have e : compareTo .int64 a b = .ub := by unfold compareTo i64; simp only []; rw [if_neg h]; rfl
      rw [e]
      exact ⟨by simp [h], .inl rfl, fun h => by simp at h⟩
  · have e : compareTo .uint64 a b = .ok (wrapI32 (wrapU64 (a - b))) := rfl
    rw [e]
    exact ⟨by simp, .inr ⟨_, rfl, by unfold I32 wrapI32 wrapU64; omega, -((wrapU64 (a - b) + 2147483648) / 4294967296 + (a - b) / 18446744073709551616 * 4294967296), by unfold wrapI32 wrapU64; omega⟩, fun h => by simp at h⟩

example : compareTo .uint32 0 2147483648 = .ok (-2147483648) ∧ compareTo .uint32 2147483648 0 = .ok (-2147483648) := by decide +kernel

end Verif.IntVal
