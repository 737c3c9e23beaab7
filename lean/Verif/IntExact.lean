import Verif.IntProps
/-!
# C162, C163: what the integer types' Parse, TryParse and CompareTo do, for every argument
-/
namespace Verif.IntVal

/-! ## Specification -/

/-- `s` is white space, an optional sign, at least one digit, and then the end or a white space character (what follows is ignored); `neg`: the sign is a minus; `n` is the number the digits denote. -/
def Scanned (L : Locale) (s : WStr) (neg : Bool) (n : Nat) : Prop :=
  ∃ ws sg ds r : WStr, s = ws ++ sg ++ ds ++ r ∧ (∀ c ∈ ws, L.isSpace c = true) ∧ ds ≠ [] ∧ (∀ c ∈ ds, isDigit c = true) ∧
    ((sg = [45] ∧ neg = true) ∨ ((sg = [] ∨ sg = [43]) ∧ neg = false)) ∧ (r = [] ∨ ∃ c r', r = c :: r' ∧ L.isSpace c = true) ∧ n = numeral ds

/-- `r` is the value of the type that is congruent to `v`. -/
def Congruent (ty : Ty) (v r : Int) : Prop := InTy ty r ∧ ∃ k : Int, r = v + k * (ty.max - ty.min + 1)

def Signed (ty : Ty) : Prop := ty = .sbyte ∨ ty = .int16 ∨ ty = .int32 ∨ ty = .int64

/-- What `Parse` does with a sign and a number (`m`: the number modulo 2^64). -/
inductive ParseDoes (ty : Ty) (neg : Bool) (m : Nat) : Res Int → Prop where
  /-- above the maximum, and a minus sign for Byte -/
  | overflow (h : (ty ≠ .int64 ∧ (neg = false ∨ ¬ Signed ty) ∧ (m : Int) > ty.max) ∨ (ty = .byte ∧ neg = true)) : ParseDoes ty neg m (.throw .overflow)
  /-- negative, narrow and signed: only numbers between 2^63 and 2^64 less the size of the minimum are noticed -/
  | below (h : ty ≠ .int64 ∧ Signed ty ∧ neg = true) (h1 : 2 ^ 63 ≤ m) (h2 : (m : Int) < 2 ^ 64 + ty.min) : ParseDoes ty neg m (.throw .overflow)
  /-- the minimum of Int32 and Int64, or a number congruent to it -/
  | undefined (h : ty = .int32 ∨ ty = .int64) (hn : neg = true) (h1 : ty = .int64 ∨ m < 2 ^ 63 ∨ 2 ^ 64 + ty.min ≤ (m : Int)) (h2 : Congruent ty (m : Int) ty.min) : ParseDoes ty neg m .ub
  /-- UInt64 ignores the minus sign -/
  | wide (h : ty = .uint64) : ParseDoes ty neg m (.ok m)
  /-- without a minus sign -/
  | positive (h : ty = .int64 ∨ (m : Int) ≤ ty.max) (hn : neg = false) (r : Int) (hr : Congruent ty m r) : ParseDoes ty neg m (.ok r)
  /-- with a minus sign: the value of the type congruent to the number denoted -/
  | negative (h : ty ≠ .byte ∧ ty ≠ .uint64) (hn : neg = true) (h1 : Signed ty → ty = .int64 ∨ m < 2 ^ 63 ∨ 2 ^ 64 + ty.min ≤ (m : Int)) (h2 : ¬ Signed ty → (m : Int) ≤ ty.max)
      (h3 : (ty = .int32 ∨ ty = .int64) → ¬ Congruent ty (m : Int) ty.min) (r : Int) (hr : Congruent ty (-(m : Int)) r) : ParseDoes ty neg m (.ok r)

/-! ## Parse -/

theorem scanned_scan (L : Locale) {s : WStr} {neg : Bool} {n : Nat} (h : Scanned L s neg n) :
    tryParseString L (some s) = .ok { good := true, value := wrapU64 n, sign := if neg then -1 else 1 } := by
  obtain ⟨ws, sg, ds, r, rfl, h1, h2, h3, h4, h5, rfl⟩ := h
  have hsg : sg = [] ∨ sg = [43] ∨ sg = [45] := by rcases h4 with ⟨h, _⟩ | ⟨h | h, _⟩ <;> simp [h]
  have hr : r = [] ∨ ∃ c r', r = c :: r' ∧ isDigit c = false := h5.imp id (fun ⟨c, r', e, hc⟩ => ⟨c, r', e, isDigit_not_space L hc⟩)
  show tryParseInternal L _ _ = _
  rw [tryParseInternal_numeral L ws sg ds r [] h1 h2 h3 hsg hr]
  have e1 : endOk L r = true := by rcases h5 with rfl | ⟨c, r', rfl, hc⟩ <;> simp [endOk, *]
  have e2 : (if sg = [45] then (-1 : Int) else 1) = if neg then -1 else 1 := by rcases h4 with ⟨h, h'⟩ | ⟨h | h, h'⟩ <;> simp [h, h']
  rw [e1, e2]

theorem prefix_scanned (L : Locale) {s : WStr} (h : PrefixText L s) : ∃ neg n, Scanned L s neg n := by
  obtain ⟨p, r, v, rfl, ⟨ws, sg, ds, rfl, h1, h2, h3, h4⟩, h5⟩ := h
  rcases h4 with ⟨rfl, _⟩ | ⟨rfl, _⟩ | ⟨rfl, _⟩
  · exact ⟨false, _, ws, [], ds, r, rfl, h1, h2, h3, .inr ⟨.inl rfl, rfl⟩, h5, rfl⟩
  · exact ⟨false, _, ws, [43], ds, r, rfl, h1, h2, h3, .inr ⟨.inr rfl, rfl⟩, h5, rfl⟩
  · exact ⟨true, _, ws, [45], ds, r, rfl, h1, h2, h3, .inl ⟨rfl, rfl⟩, h5, rfl⟩

theorem scanned_prefix (L : Locale) {s : WStr} {neg : Bool} {n : Nat} (h : Scanned L s neg n) : PrefixText L s := by
  obtain ⟨ws, sg, ds, r, rfl, h1, h2, h3, h4, h5, rfl⟩ := h
  refine ⟨ws ++ sg ++ ds, r, if sg = [45] then -(numeral ds : Int) else numeral ds, rfl, ⟨ws, sg, ds, rfl, h1, h2, h3, ?_⟩, h5⟩
  rcases h4 with ⟨rfl, _⟩ | ⟨rfl | rfl, _⟩ <;> simp

theorem wrap_congruent (ty : Ty) (v : Int) : Congruent ty v (ty.wrap v) := by
  unfold Congruent InTy
  cases ty <;> simp only [Ty.wrap, Ty.min, Ty.max, wrapI8, wrapU8, wrapI16, wrapU16, wrapI32, wrapU32, wrapI64, wrapU64]
  · exact ⟨by omega, -((v + 128) / 256), by omega⟩
  · exact ⟨by omega, -(v / 256), by omega⟩
  · exact ⟨by omega, -((v + 32768) / 65536), by omega⟩
  · exact ⟨by omega, -(v / 65536), by omega⟩
  · exact ⟨by omega, -((v + 2147483648) / 4294967296), by omega⟩
  · exact ⟨by omega, -(v / 4294967296), by omega⟩
  · exact ⟨by omega, -((v + 9223372036854775808) / 18446744073709551616), by omega⟩
  · exact ⟨by omega, -(v / 18446744073709551616), by omega⟩

theorem congruent_unique (ty : Ty) {v a b : Int} (h1 : Congruent ty v a) (h2 : Congruent ty v b) : a = b := by
  obtain ⟨h1, k, rfl⟩ := h1
  obtain ⟨h2, l, e⟩ := h2
  unfold InTy at *
  cases ty <;> simp only [Ty.min, Ty.max] at * <;> omega

example : Congruent .sbyte 200 (-56) ∧ Congruent .uint16 (-1) 65535 := ⟨⟨by unfold InTy; decide, -1, by decide⟩, ⟨by unfold InTy; decide, 1, by decide⟩⟩

theorem negated (T : Ty) (hT : T = .sbyte ∨ T = .int16) (m : Int) : Congruent T (-m) (T.wrap (T.wrap m * -1)) := by
  have h := wrap_congruent T (T.wrap m * -1)
  obtain ⟨_, k, hk⟩ := wrap_congruent T m
  obtain ⟨h1, l, hl⟩ := h
  refine ⟨h1, l - k, ?_⟩
  rcases hT with rfl | rfl <;> simp only [Ty.min, Ty.max] at * <;> omega

theorem negated32 (m : Int) : (Congruent .int32 m (-2147483648) ∧ i32 (wrapI32 m * -1) = .ub) ∨ (¬ Congruent .int32 m (-2147483648) ∧ ∃ r, i32 (wrapI32 m * -1) = .ok r ∧ Congruent .int32 (-m) r) := by
  have h := wrap_congruent .int32 m
  by_cases e : wrapI32 m = -2147483648
  · left
    exact ⟨by rw [← e]; exact h, by rw [e]; decide⟩
  · right
    refine ⟨fun c => e (congruent_unique .int32 h c), wrapI32 m * -1, ?_, ?_⟩
    · exact i32_ok (by unfold I32 wrapI32 at *; omega)
    · obtain ⟨h1, k, hk⟩ := h
      unfold Congruent InTy at *
      simp only [Ty.wrap, Ty.min, Ty.max] at *
      exact ⟨by omega, -k, by omega⟩

theorem negated64 (m : Int) : (Congruent .int64 m (-9223372036854775808) ∧ i64 (wrapI64 m * -1) = .ub) ∨ (¬ Congruent .int64 m (-9223372036854775808) ∧ ∃ r, i64 (wrapI64 m * -1) = .ok r ∧ Congruent .int64 (-m) r) := by
  have h := wrap_congruent .int64 m
  by_cases e : wrapI64 m = -9223372036854775808
  · left
    exact ⟨by rw [← e]; exact h, by rw [e]; decide⟩
  · right
    refine ⟨fun c => e (congruent_unique .int64 h c), wrapI64 m * -1, ?_, ?_⟩
    · exact i64_ok (by unfold I64 wrapI64 at *; omega)
    · obtain ⟨h1, k, hk⟩ := h
      unfold Congruent InTy at *
      simp only [Ty.wrap, Ty.min, Ty.max] at *
      exact ⟨by omega, -k, by omega⟩

/-- What `Parse` computes from the scanned sign and number. -/
theorem parse_scanned (L : Locale) (ty : Ty) {s : WStr} {neg : Bool} {n : Nat} (h : Scanned L s neg n) : ParseDoes ty neg (n % 2 ^ 64) (parse L ty (some s)) := by
  unfold parse
  rw [scanned_scan L h]
  simp only [Res.bind_ok, Bool.true_eq_false, if_false]
  have hw : wrapU64 (n : Int) = ((n % 2 ^ 64 : Nat) : Int) := by unfold wrapU64; omega
  rw [hw]
  have hm : n % 2 ^ 64 < 2 ^ 64 := Nat.mod_lt _ (by decide)
  generalize n % 2 ^ 64 = m at hm
  have h64 : wrapI64 (m : Int) = if m < 2 ^ 63 then (m : Int) else m - 2 ^ 64 := by unfold wrapI64; split <;> omega
  have dl := @ParseDoes.overflow
  cases ty with
  | byte =>
    simp only []
    cases neg
    · simp only [Bool.false_eq_true, if_false]
      by_cases hx : (m : Int) > 255
      · rw [if_pos (.inr hx)]; exact .overflow (.inl ⟨by decide, .inl rfl, hx⟩)
      · rw [if_neg (by omega)]; exact .positive (.inr (by simp only [Ty.max]; omega)) rfl _ (wrap_congruent .byte m)
    · simp only [if_true]
      rw [if_pos (.inl (by decide))]; exact .overflow (.inr ⟨rfl, rfl⟩)
  | sbyte =>
    simp only []
    cases neg
    · simp only [Bool.false_eq_true, if_false]
      by_cases hx : (m : Int) > 127
      · rw [if_pos ⟨by decide, hx⟩]; exact .overflow (.inl ⟨by decide, .inl rfl, hx⟩)
      · rw [if_neg (by omega), if_neg (by omega)]
        refine .positive (.inr (by simp only [Ty.max]; omega)) rfl _ ?_
        rw [Int.mul_one, show wrapI8 (wrapI8 m) = wrapI8 m by unfold wrapI8; omega]
        exact wrap_congruent .sbyte m
    · simp only [if_true]
      rw [if_neg (by omega), h64]
      by_cases hx : 2 ^ 63 ≤ m ∧ (m : Int) < 2 ^ 64 + -128
      · rw [if_pos ⟨by decide, by rw [if_neg (by omega)]; omega⟩]
        exact .below ⟨by decide, .inl rfl, rfl⟩ hx.1 hx.2
      · rw [if_neg (by rintro ⟨_, h⟩; split at h <;> omega)]
        exact .negative (by decide) rfl (fun _ => .inr (by simp only [Ty.min]; omega)) (fun h => absurd (.inl rfl) h) (fun h => by simp at h) _ (negated .sbyte (.inl rfl) m)
  | int16 =>
    simp only []
    cases neg
    · simp only [Bool.false_eq_true, if_false]
      by_cases hx : (m : Int) > 32767
      · rw [if_pos ⟨by decide, hx⟩]; exact .overflow (.inl ⟨by decide, .inl rfl, hx⟩)
      · rw [if_neg (by omega), if_neg (by omega)]
        refine .positive (.inr (by simp only [Ty.max]; omega)) rfl _ ?_
        rw [Int.mul_one, show wrapI16 (wrapI16 m) = wrapI16 m by unfold wrapI16; omega]
        exact wrap_congruent .int16 m
    · simp only [if_true]
      rw [if_neg (by omega), h64]
      by_cases hx : 2 ^ 63 ≤ m ∧ (m : Int) < 2 ^ 64 + -32768
      · rw [if_pos ⟨by decide, by rw [if_neg (by omega)]; omega⟩]
        exact .below ⟨by decide, .inr (.inl rfl), rfl⟩ hx.1 hx.2
      · rw [if_neg (by rintro ⟨_, h⟩; split at h <;> omega)]
        exact .negative (by decide) rfl (fun _ => .inr (by simp only [Ty.min]; omega)) (fun h => absurd (.inr (.inl rfl)) h) (fun h => by simp at h) _ (negated .int16 (.inr rfl) m)
  | int32 =>
    simp only []
    cases neg
    · simp only [Bool.false_eq_true, if_false]
      by_cases hx : (m : Int) > 2147483647
      · rw [if_pos ⟨by decide, hx⟩]; exact .overflow (.inl ⟨by decide, .inl rfl, hx⟩)
      · rw [if_neg (by omega), if_neg (by omega), Int.mul_one, i32_ok (by unfold I32 wrapI32; omega)]
        exact .positive (.inr (by simp only [Ty.max]; omega)) rfl _ (wrap_congruent .int32 m)
    · simp only [if_true]
      rw [if_neg (by omega), h64]
      by_cases hx : 2 ^ 63 ≤ m ∧ (m : Int) < 2 ^ 64 + -2147483648
      · rw [if_pos ⟨by decide, by rw [if_neg (by omega)]; omega⟩]
        exact .below ⟨by decide, .inr (.inr (.inl rfl)), rfl⟩ hx.1 hx.2
      · rw [if_neg (by rintro ⟨_, h⟩; split at h <;> omega)]
        have hr : m < 2 ^ 63 ∨ 2 ^ 64 + (Ty.min .int32) ≤ (m : Int) := by simp only [Ty.min]; omega
        rcases negated32 m with ⟨h1, h2⟩ | ⟨h1, r, h2, h3⟩
        · rw [h2]; exact .undefined (.inl rfl) rfl (.inr hr) h1
        · rw [h2]; exact .negative (by decide) rfl (fun _ => .inr hr) (fun h => absurd (.inr (.inr (.inl rfl))) h) (fun _ => h1) _ h3
  | int64 =>
    simp only []
    cases neg
    · simp only [Bool.false_eq_true, if_false]
      rw [Int.mul_one, i64_ok (by unfold I64 wrapI64; omega)]
      exact .positive (.inl rfl) rfl _ (wrap_congruent .int64 m)
    · simp only [if_true]
      rcases negated64 m with ⟨h1, h2⟩ | ⟨h1, r, h2, h3⟩
      · rw [h2]; exact .undefined (.inr rfl) rfl (.inl rfl) h1
      · rw [h2]; exact .negative (by decide) rfl (fun _ => .inl rfl) (fun h => absurd (.inr (.inr (.inr rfl))) h) (fun _ => h1) _ h3
  | uint16 =>
    simp only []
    by_cases hx : (m : Int) > 65535
    · rw [if_pos hx]; exact .overflow (.inl ⟨by decide, .inr (by simp [Signed]), hx⟩)
    · rw [if_neg hx]
      cases neg
      · simp only [Bool.false_eq_true, if_false]
        rw [Int.mul_one, show wrapU16 (wrapU16 m) = wrapU16 m by unfold wrapU16; omega]
        exact .positive (.inr (by simp only [Ty.max]; omega)) rfl _ (wrap_congruent .uint16 m)
      · simp only [if_true]
        refine .negative (by decide) rfl (fun h => by simp [Signed] at h) (fun _ => by simp only [Ty.max]; omega) (fun h => by simp at h) _ ?_
        rw [show wrapU16 (wrapU16 m * -1) = Ty.uint16.wrap (-m) by simp only [Ty.wrap, wrapU16]; omega]
        exact wrap_congruent _ _
  | uint32 =>
    simp only []
    by_cases hx : (m : Int) > 4294967295
    · rw [if_pos hx]; exact .overflow (.inl ⟨by decide, .inr (by simp [Signed]), hx⟩)
    · rw [if_neg hx]
      cases neg
      · simp only [Bool.false_eq_true, if_false]
        rw [Int.mul_one, show wrapU32 (wrapU32 m) = wrapU32 m by unfold wrapU32; omega]
        exact .positive (.inr (by simp only [Ty.max]; omega)) rfl _ (wrap_congruent .uint32 m)
      · simp only [if_true]
        refine .negative (by decide) rfl (fun h => by simp [Signed] at h) (fun _ => by simp only [Ty.max]; omega) (fun h => by simp at h) _ ?_
        rw [show wrapU32 (wrapU32 m * -1) = Ty.uint32.wrap (-m) by simp only [Ty.wrap, wrapU32]; omega]
        exact wrap_congruent _ _
  | uint64 =>
    simp only []
    rw [if_neg (by omega)]
    exact .wide rfl

theorem signed_cases (ty : Ty) : Signed ty ∨ ty = .byte ∨ ty = .uint16 ∨ ty = .uint32 ∨ ty = .uint64 := by
  cases ty <;> simp [Signed]

/-- The description allows one outcome. -/
theorem ParseDoes.unique {ty : Ty} {neg : Bool} {m : Nat} (hm : m < 2 ^ 64) {a b : Res Int} (h1 : ParseDoes ty neg m a) (h2 : ParseDoes ty neg m b) : a = b := by
  cases ty <;> cases neg <;> cases h1 <;> cases h2 <;> first
    | rfl
    | (simp [Signed, Ty.max, Ty.min] at *; done)
    | (exfalso; simp [Signed, Ty.max, Ty.min] at *; omega)
    | skip
  all_goals first
    | (rename_i x1 _ _ r2 x2; rw [congruent_unique _ x1 x2]; done)
    | (rename_i x1 _ _ _ _ _ r2 x2; rw [congruent_unique _ x1 x2]; done)
    | (rename_i x1 _ _ _ _ h3 _ _; exact absurd x1 (h3 (by decide)))
    | (rename_i h3 _ _ _ _ _ x1; exact absurd x1 (h3 (by decide)))
    | (rename_i r x1; rw [congruent_unique _ x1 (a := r) (b := m) ⟨by unfold InTy; simp only [Ty.min, Ty.max]; omega, 0, by omega⟩])
    | (rename_i r x1 _; rw [congruent_unique _ x1 (a := r) (b := m) ⟨by unfold InTy; simp only [Ty.min, Ty.max]; omega, 0, by omega⟩])

/-- **C162**. What `Parse` does with every text: null throws ArgumentNullException; a text that is not white space, an optional sign, digits and then the end or white space throws FormatException; for every other text the
outcome is the one described by `ParseDoes` for the sign and the number (modulo 2^64), which is exactly one. -/
theorem C162_parse (L : Locale) (ty : Ty) :
    parse L ty none = .throw .argumentNull ∧
    (∀ s, (¬ ∃ neg n, Scanned L s neg n) → parse L ty (some s) = .throw .format) ∧
    (∀ s neg n, Scanned L s neg n → ∀ r, parse L ty (some s) = r ↔ ParseDoes ty neg (n % 2 ^ 64) r) := by
  refine ⟨rfl, fun s h => (C21_format_iff L ty s).2 fun hp => h (prefix_scanned L hp), fun s neg n h r => ⟨fun e => e ▸ parse_scanned L ty h, fun e => ?_⟩⟩
  exact (parse_scanned L ty h).unique (Nat.mod_lt _ (by decide)) e

example : Scanned cLocale (w " -2147483649 x") true 2147483649 ∧ parse cLocale .int32 (some (w " -2147483649 x")) = .ok 2147483647 :=
  ⟨⟨[32], [45], w "2147483649", w " x", by decide, by decide, by decide, by decide, .inl ⟨rfl, rfl⟩, .inr ⟨32, [120], by decide, by decide⟩, by decide⟩, by decide +kernel⟩

/-- **C162**. What `TryParse` does with every text: it never throws except for null; it is undefined exactly for a minus sign and a number congruent to the minimum of Int32 or Int64 (whatever follows); otherwise it
returns true with `v` exactly when `Parse` returns `v` and there is no minus sign before a number of an unsigned type. -/
theorem C162_try_parse (L : Locale) (ty : Ty) :
    tryParse L ty none = .throw .argumentNull ∧
    (∀ s e, tryParse L ty (some s) ≠ .throw e) ∧
    (∀ s v, (¬ ∃ neg n, Scanned L s neg n) → tryParse L ty (some s) ≠ .ok (true, v)) ∧
    (∀ s neg n, Scanned L s neg n →
      (tryParse L ty (some s) = .ub ↔ (ty = .int32 ∨ ty = .int64) ∧ neg = true ∧ Congruent ty (n % 2 ^ 64 : Nat) ty.min) ∧
      (∀ v, tryParse L ty (some s) = .ok (true, v) ↔ parse L ty (some s) = .ok v ∧ (neg = true → Signed ty))) := by
  refine ⟨by cases ty <;> rfl, C22_tryParse_no_throw L ty, fun s v h e => ?_, fun s neg n h => ⟨?_, fun v => ?_⟩⟩
  · have hp : ¬ PrefixText L s := fun hp => h (prefix_scanned L hp)
    rw [← good_iff] at hp
    unfold tryParse at e
    rw [tryParseString_some, tryParseInternal_eq] at e
    simp only [Res.bind_ok] at e
    rw [Bool.not_eq_true] at hp
    rw [hp] at e
    cases ty <;> simp only [Bool.false_and] at e <;> first
      | (simp at e; done)
      | (unfold i32 at e; split at e <;> simp at e; done)
      | (unfold i64 at e; split at e <;> simp at e; done)
  · unfold tryParse
    rw [scanned_scan L h]
    simp only [Res.bind_ok]
    have hw : wrapU64 (n : Int) = ((n % 2 ^ 64 : Nat) : Int) := by unfold wrapU64; omega
    rw [hw]
    generalize n % 2 ^ 64 = m
    cases ty <;> simp only [reduceCtorEq, false_or, or_false, false_and, true_and, or_self]
    · cases neg
      · simp only [Bool.false_eq_true, if_false, Int.mul_one, false_and, iff_false]
        rw [i32_ok (by unfold I32 wrapI32; omega)]
        simp
      · simp only [if_true, true_and, Ty.min]
        rcases negated32 m with ⟨h1, h2⟩ | ⟨h1, r, h2, h3⟩
        · rw [h2]; simp [h1]
        · rw [h2]; simp [h1]
    · cases neg
      · simp only [Bool.false_eq_true, if_false, Int.mul_one, false_and, iff_false]
        rw [i64_ok (by unfold I64 wrapI64; omega)]
        simp
      · simp only [if_true, true_and, Ty.min]
        rcases negated64 m with ⟨h1, h2⟩ | ⟨h1, r, h2, h3⟩
        · rw [h2]; simp [h1]
        · rw [h2]; simp [h1]
  · by_cases hu : ty = .uint16 ∨ ty = .uint32 ∨ ty = .uint64
    · unfold tryParse parse
      rw [scanned_scan L h]
      simp only [Res.bind_ok, Bool.true_eq_false, if_false]
      have hw : U64 (wrapU64 (n : Int)) := by unfold U64 wrapU64; omega
      generalize wrapU64 (n : Int) = m at hw
      unfold U64 at hw
      rcases hu with rfl | rfl | rfl <;> cases neg <;> simp [Signed]
      · by_cases hx : m ≤ 65535
        · rw [if_neg (by omega)]
          simp only [hx, true_and, Res.ok.injEq]
          rw [show wrapU16 (wrapU16 m) = wrapU16 m by unfold wrapU16; omega]
        · rw [if_pos (by omega)]; simp [hx]
      · by_cases hx : m ≤ 4294967295
        · rw [if_neg (by omega)]
          simp only [hx, true_and, Res.ok.injEq]
          rw [show wrapU32 (wrapU32 m) = wrapU32 m by unfold wrapU32; omega]
        · rw [if_pos (by omega)]; simp [hx]
      · rw [if_neg (by omega)]
        simp only [Res.ok.injEq, and_iff_right_iff_imp]
        omega
    · rw [← C22_agree_partial L ty s v (fun h => absurd h hu)]
      refine ⟨fun e => ⟨e, fun hn => ?_⟩, fun e => e.1⟩
      rcases signed_cases ty with h' | h' | h' | h' | h'
      · exact h'
      · subst h' hn
        have := (parse_scanned L .byte h).unique (Nat.mod_lt _ (by decide)) (.overflow (.inr ⟨rfl, rfl⟩))
        rw [this] at e; cases e
      · exact absurd (.inl h') hu
      · exact absurd (.inr (.inl h')) hu
      · exact absurd (.inr (.inr h')) hu

example : tryParse cLocale .int64 (some (w "-9223372036854775808")) = .ub ∧ tryParse cLocale .uint32 (some (w "-5")) = .ok (false, 5) ∧ tryParse cLocale .int16 (some (w "-7 z")) = .ok (true, -7) := by decide +kernel

/-! ## CompareTo -/

/-- **C163**. What `CompareTo` does with every pair of values of the 64-bit types: its result is the residue of the difference modulo 2^32 between -2^31 and 2^31 - 1; so it has the right sign exactly when that residue has. -/
theorem C163_compare_wide (ty : Ty) (hty : ty = .int64 ∨ ty = .uint64) (a b : Int) (ha : InTy ty a) (hb : InTy ty b) :
    (compareTo ty a b = .ub ↔ ty = .int64 ∧ ¬ I64 (a - b)) ∧
    ∀ r, compareTo ty a b = .ok r ↔ (ty = .int64 → I64 (a - b)) ∧ Congruent .int32 (a - b) r := by
  have uniq : ∀ v r : Int, Congruent .int32 (a - b) v → (v = r ↔ Congruent .int32 (a - b) r) := fun v r h => ⟨fun e => e ▸ h, fun h' => congruent_unique _ h h'⟩
  rcases hty with rfl | rfl
  · by_cases h : I64 (a - b)
    · have e : compareTo .int64 a b = .ok (wrapI32 (a - b)) := by unfold compareTo; simp only [i64_ok h]; rfl
      rw [e]
      refine ⟨by simp [h], fun r => ?_⟩
      rw [Res.ok.injEq, uniq (wrapI32 (a - b)) r (wrap_congruent .int32 (a - b))]
      simp [h]
    · have e : compareTo .int64 a b = .ub := by unfold compareTo i64; simp only []; rw [if_neg h]; rfl
      rw [e]
      exact ⟨by simp [h], fun r => by simp [h]⟩
  · have e : compareTo .uint64 a b = .ok (wrapI32 (wrapU64 (a - b))) := rfl
    rw [e]
    refine ⟨by simp, fun r => ?_⟩
    rw [Res.ok.injEq, uniq _ r ?_]
    · simp
    · obtain ⟨h1, k, hk⟩ := wrap_congruent .int32 (wrapU64 (a - b))
      refine ⟨h1, k - (a - b) / 18446744073709551616 * 4294967296, ?_⟩
      simp only [Ty.wrap, Ty.min, Ty.max] at hk ⊢
      unfold wrapU64 at hk ⊢
      omega

example : InTy .uint64 4294967297 ∧ compareTo .uint64 4294967297 0 = .ok 1 ∧ compareTo .uint64 2147483648 0 = .ok (-2147483648) := ⟨by unfold InTy; decide, by decide, by decide⟩

/-- **C163**. The narrower types: exact for the 8- and 16-bit types; for Int32 exact or undefined; for UInt32 right exactly when the two are less than 2^31 apart, or 2^31 with the first the smaller. -/
theorem C163_compare_narrow (a b : Int) :
    (∀ ty, ty = .sbyte ∨ ty = .byte ∨ ty = .int16 ∨ ty = .uint16 → InTy ty a → InTy ty b → compareTo ty a b = .ok (a - b)) ∧
    (InTy .int32 a → InTy .int32 b → compareTo .int32 a b = if I32 (a - b) then .ok (a - b) else .ub) ∧
    (InTy .uint32 a → InTy .uint32 b → ∃ r, compareTo .uint32 a b = .ok r ∧ Congruent .int32 (a - b) r ∧ (SignOK r a b ↔ -2147483648 ≤ a - b ∧ a - b ≤ 2147483647)) := by
  refine ⟨fun ty h ha hb => ?_, fun _ _ => rfl, fun ha hb => ?_⟩
  · unfold InTy at ha hb
    rcases h with rfl | rfl | rfl | rfl <;> simp only [Ty.min, Ty.max] at ha hb <;> exact i32_ok (by unfold I32; omega)
  · refine ⟨_, rfl, ?_, ?_⟩
    · obtain ⟨h1, k, hk⟩ := wrap_congruent .int32 (wrapU32 (a - b))
      refine ⟨h1, k - (a - b) / 4294967296, ?_⟩
      simp only [Ty.wrap, Ty.min, Ty.max] at hk ⊢
      unfold wrapU32 at hk ⊢
      omega
    · unfold InTy at ha hb
      simp only [Ty.min, Ty.max] at ha hb
      unfold SignOK wrapI32 wrapU32
      omega

example : compareTo .uint32 0 2147483648 = .ok (-2147483648) ∧ compareTo .int32 (-2147483648) 1 = .ub := by decide +kernel

/-- **C163**. `CompareTo(Object)` and `Equals(Object)`: null sorts before everything but is dereferenced by `Equals`; another type is an ArgumentException for the first and unequal for the second. -/
theorem C163_objects (ty : Ty) (a b : Int) :
    compareToObj ty a .null = .ok 1 ∧ compareToObj ty a .other = .throw .argument ∧ compareToObj ty a (.same b) = compareTo ty a b ∧
    equalsObj a .null = .ub ∧ equalsObj a .other = .ok false ∧ (equalsObj a (.same b) = .ok true ↔ a = b) := by
  refine ⟨rfl, rfl, rfl, rfl, rfl, ?_⟩
  show Res.ok (a == b) = _ ↔ _
  simp

example : equalsObj 5 (.same 5) = .ok true ∧ equalsObj 5 (.same 6) = .ok false := by decide

end Verif.IntVal
