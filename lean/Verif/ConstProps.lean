import Verif.ConstModel
import Verif.ConstSpec
import Verif.FloatProps
/-!
# C59 and C86: constants keep their value
-/
namespace Verif.Const
open ConstSpec IntVal

theorem decInt_eq_iff (x y : Int) : decInt x = decInt y ↔ x = y := by
  constructor
  · intro h
    unfold decInt at h
    have hd : ∀ (n : Nat) (l : WStr), dec n ≠ 45 :: l := by
      intro n l e
      have := dec_digits n 45 (by rw [e]; exact List.mem_cons_self)
      revert this; decide
    by_cases hx : x < 0 <;> by_cases hy : y < 0
    · rw [if_pos hx, if_pos hy] at h
      have := dec_inj (List.cons.inj h).2; omega
    · rw [if_pos hx, if_neg hy] at h; exact absurd h.symm (hd _ _)
    · rw [if_neg hx, if_pos hy] at h; exact absurd h (hd _ _)
    · rw [if_neg hx, if_neg hy] at h
      have := dec_inj h; omega
  · rintro rfl; rfl

theorem decInt_chars (x : Int) : ∀ c ∈ decInt x, c = 45 ∨ isDigit c = true := by
  intro c hc
  unfold decInt at hc
  split at hc
  · rcases List.mem_cons.mp hc with h | h
    · exact .inl h
    · exact .inr (dec_digits _ c h)
  · exact .inr (dec_digits _ c hc)

theorem decInt_ne (x : Int) (t : WStr) (c : Nat) (hc : c ∈ t) (h : c ≠ 45 ∧ isDigit c = false) : decInt x ≠ t := by
  intro e
  rcases decInt_chars x c (e ▸ hc) with h1 | h1
  · exact h.1 h1
  · rw [h.2] at h1; cases h1

theorem dec_head (n : Nat) : (dec n).head? = some 48 → n = 0 := by
  induction n using Nat.strongRecOn with
  | ind n ih =>
    intro h
    rw [dec_rec] at h
    by_cases hn : n < 10
    · rw [if_pos hn] at h; simp at h; exact h
    · rw [if_neg hn] at h
      have e : (dec (n / 10) ++ [48 + n % 10]).head? = (dec (n / 10)).head? := by
        cases hd : dec (n / 10) with
        | nil => exact absurd hd (dec_ne_nil _)
        | cons a l => rfl
      rw [e] at h
      have := ih (n / 10) (by omega) h
      omega

theorem intLiteral_dec (n : Nat) (h : n ≤ 9223372036854775807) :
    intLiteral (dec n) = some ⟨if n ≤ 2147483647 then .int32 else .int64, n⟩ := by
  unfold intLiteral
  rw [if_neg, if_neg, numeral_dec]
  · by_cases hn : n ≤ 2147483647
    · rw [if_pos hn, if_pos hn]
    · rw [if_neg hn, if_neg hn, if_pos h]
  · rintro ⟨h1, h2⟩
    have := dec_head n h1
    subst this
    exact h2 (by decide)
  · rintro (h1 | h1)
    · exact dec_ne_nil n h1
    · rw [List.any_eq_true] at h1
      obtain ⟨c, hc, h2⟩ := h1
      rw [dec_digits n c hc] at h2
      cases h2

theorem intConstant_dec (x : Int) (h : I64 x) (hm : x ≠ -9223372036854775808) :
    intConstant (decInt x) = some ⟨if -2147483647 ≤ x ∧ x ≤ 2147483647 then .int32 else .int64, x⟩ := by
  unfold I64 at h
  unfold decInt
  by_cases hx : x < 0
  · rw [if_pos hx]
    unfold intConstant
    simp only []
    rw [if_pos trivial, intLiteral_dec _ (by omega)]
    have e : -((x.natAbs : Nat) : Int) = x := by omega
    simp only [Option.map_some, e]
    by_cases hb : x.natAbs ≤ 2147483647
    · rw [if_pos hb, if_pos (by omega)]
    · rw [if_neg hb, if_neg (by omega)]
  · rw [if_neg hx]
    cases hd : dec x.toNat with
    | nil => exact absurd hd (dec_ne_nil _)
    | cons c cs =>
      have hc : isDigit c = true := dec_digits x.toNat c (by rw [hd]; exact List.mem_cons_self)
      unfold intConstant
      simp only []
      have h45 : c ≠ 45 := by rintro rfl; revert hc; decide
      rw [if_neg h45, if_pos hc, ← hd, intLiteral_dec _ (by omega)]
      have e : ((x.toNat : Nat) : Int) = x := by omega
      rw [e]
      by_cases hb : x.toNat ≤ 2147483647
      · rw [if_pos hb, if_pos (by omega)]
      · rw [if_neg hb, if_neg (by omega)]

theorem find_dec (x : Int) : find conversions (decInt x) =
    if x = 255 then some (w "ByteValue::MaxValue")
    else if x = 127 then some (w "SByteValue::MaxValue")
    else if x = 32767 then some (w "Int16Value::MaxValue")
    else if x = 2147483647 then some (w "Int32Value::MaxValue")
    else if x = 9223372036854775807 then some (w "Int64Value::MaxValue")
    else if x = 65535 then some (w "UInt16Value::MaxValue")
    else if x = 4294967295 then some (w "UInt32Value::MaxValue")
    else if x = 18446744073709551615 then some (w "UInt64Value::MaxValue")
    else if x = -128 then some (w "SByteValue::MinValue")
    else if x = -32768 then some (w "Int16Value::MinValue")
    else if x = -2147483648 then some (w "Int32Value::MinValue")
    else if x = -9223372036854775808 then some (w "Int64Value::MinValue")
    else none := by
  have f1 := decInt_ne x singleMax 46 (by decide +kernel) (by decide)
  have f2 := decInt_ne x doubleMax 46 (by decide +kernel) (by decide)
  have f3 := decInt_ne x (45 :: singleMax) 46 (by decide +kernel) (by decide)
  have f4 := decInt_ne x (45 :: doubleMax) 46 (by decide +kernel) (by decide)
  have f5 := decInt_ne x (w "NaN") 78 (by decide +kernel) (by decide)
  have f6 := decInt_ne x [8734] 8734 (by decide +kernel) (by decide)
  have f7 := decInt_ne x [45, 8734] 8734 (by decide +kernel) (by decide)
  have f8 := decInt_ne x doubleEps 69 (by decide +kernel) (by decide)
  have f9 := decInt_ne x singleEps 69 (by decide +kernel) (by decide)
  unfold conversions
  simp only [find, decInt_eq_iff, if_neg f1, if_neg f2, if_neg f3, if_neg f4, if_neg f5, if_neg f6, if_neg f7, if_neg f8, if_neg f9]

/-- The declared type of the C++ constant emitted for an integer. -/
def emittedType (x : Int) : Ty :=
  if x = 255 then .byte else if x = 127 then .sbyte else if x = 32767 then .int16 else if x = 65535 then .uint16
  else if x = 4294967295 then .uint32 else if x = -128 then .sbyte else if x = -32768 then .int16
  else if -2147483648 ≤ x ∧ x ≤ 2147483647 then .int32 else .int64

/-- What the emitted text denotes, value and type, for every 64-bit constant. -/
theorem emitted (x : Int) (h : I64 x) : intConstant (ldcI8 x) = some ⟨emittedType x, x⟩ := by
  unfold ldcI8 convert
  rw [find_dec]
  unfold emittedType
  by_cases h1 : x = 255
  · subst h1; decide +kernel
  rw [if_neg h1, if_neg h1]
  by_cases h2 : x = 127
  · subst h2; decide +kernel
  rw [if_neg h2, if_neg h2]
  by_cases h3 : x = 32767
  · subst h3; decide +kernel
  rw [if_neg h3, if_neg h3]
  by_cases h4 : x = 2147483647
  · subst h4; decide +kernel
  rw [if_neg h4]
  by_cases h5 : x = 9223372036854775807
  · subst h5; decide +kernel
  rw [if_neg h5]
  by_cases h6 : x = 65535
  · subst h6; decide +kernel
  rw [if_neg h6, if_neg h6]
  by_cases h7 : x = 4294967295
  · subst h7; decide +kernel
  rw [if_neg h7, if_neg h7]
  by_cases h8 : x = 18446744073709551615
  · unfold I64 at h; omega
  rw [if_neg h8]
  by_cases h9 : x = -128
  · subst h9; decide +kernel
  rw [if_neg h9, if_neg h9]
  by_cases h10 : x = -32768
  · subst h10; decide +kernel
  rw [if_neg h10, if_neg h10]
  by_cases h11 : x = -2147483648
  · subst h11; decide +kernel
  rw [if_neg h11]
  by_cases h12 : x = -9223372036854775808
  · subst h12; decide +kernel
  rw [if_neg h12]
  simp only []
  rw [intConstant_dec x h h12]
  by_cases hb : -2147483647 ≤ x ∧ x ≤ 2147483647
  · rw [if_pos hb, if_pos (by omega)]
  · rw [if_neg hb, if_neg (by omega)]

/-- C59: the C++ text emitted for an Int32 constant denotes the same value, and takes part in arithmetic as an `int`. -/
theorem C59_int32 (x : Int) (h : I32 x) : ∃ v, intConstant (ldcI4 x) = some v ∧ v.value = x ∧ promote v.ty = .int32 := by
  have h64 : I64 x := by unfold I32 at h; unfold I64; omega
  refine ⟨_, emitted x h64, rfl, ?_⟩
  unfold I32 at h
  show promote (emittedType x) = .int32
  unfold emittedType
  repeat' split
  all_goals first | rfl | omega

/-- C59: the C++ text emitted for an Int64 constant denotes the same value. -/
theorem C59_int64_value (x : Int) (h : I64 x) : ∃ v, intConstant (ldcI8 x) = some v ∧ v.value = x :=
  ⟨_, emitted x h, rfl⟩

/-- C59: an Int64 constant takes part in arithmetic as a 64-bit integer exactly when it does not fit 32 bits, signed or unsigned maximum. -/
theorem C59_int64_type_partial (x : Int) (h : I64 x) :
    ∃ v, intConstant (ldcI8 x) = some v ∧ (promote v.ty = .int64 ↔ ¬ I32 x ∧ x ≠ 4294967295) := by
  refine ⟨_, emitted x h, ?_⟩
  show promote (emittedType x) = .int64 ↔ _
  unfold emittedType I32
  by_cases h1 : x = 255
  · subst h1; decide
  rw [if_neg h1]
  by_cases h2 : x = 127
  · subst h2; decide
  rw [if_neg h2]
  by_cases h3 : x = 32767
  · subst h3; decide
  rw [if_neg h3]
  by_cases h4 : x = 65535
  · subst h4; decide
  rw [if_neg h4]
  by_cases h5 : x = 4294967295
  · subst h5; decide
  rw [if_neg h5]
  by_cases h6 : x = -128
  · subst h6; decide
  rw [if_neg h6]
  by_cases h7 : x = -32768
  · subst h7; decide
  rw [if_neg h7]
  by_cases h8 : -2147483648 ≤ x ∧ x ≤ 2147483647
  · rw [if_pos h8]; constructor
    · intro e; cases e
    · intro e; exact absurd h8 e.1
  · rw [if_neg h8]; exact ⟨fun _ => ⟨h8, h5⟩, fun _ => rfl⟩

/-- C59 for the type of Int64 constants is false: `4294967295L` becomes a UInt32 constant. Adding `1L` (emitted as an `int`) to it is done in
`unsigned int` and gives 0 in C++, where C# gives 4294967296. -/
theorem C59_int64_type_refuted :
    ∃ a b, intConstant (ldcI8 4294967295) = some a ∧ intConstant (ldcI8 1) = some b ∧
      common a.ty b.ty = .uint32 ∧ (common a.ty b.ty).wrap (a.value + b.value) = 0 ∧ Ty.int64.wrap (4294967295 + 1) = 4294967296 := by
  refine ⟨⟨.uint32, 4294967295⟩, ⟨.int32, 1⟩, ?_⟩
  decide +kernel

/-- C59: and `2147483647L` becomes an Int32, so adding `1L` overflows an `int` (undefined behaviour). -/
theorem C59_int64_overflow_refuted :
    ∃ a b, intConstant (ldcI8 2147483647) = some a ∧ intConstant (ldcI8 1) = some b ∧
      common a.ty b.ty = .int32 ∧ i32 (a.value + b.value) = .ub ∧ Ty.int64.wrap (2147483647 + 1) = 2147483648 := by
  refine ⟨⟨.int32, 2147483647⟩, ⟨.int32, 1⟩, ?_⟩
  decide +kernel

-- the hypotheses cover all 2^32 and 2^64 values; some texts
example : ldcI4 (-128) = w "SByteValue::MinValue" ∧ ldcI4 (-129) = w "-129" ∧ ldcI8 4294967296 = w "4294967296" ∧
  intConstant (w "-129") = some ⟨.int32, -129⟩ := by decide +kernel

/-! ## C86: floating constants -/

/-- The text a parse came from. -/
def FParts.text (p : FParts) : WStr :=
  (if p.neg then [45] else []) ++ p.whole ++ (match p.frac with | none => [] | some f => 46 :: f) ++
  (match p.exp with | none => [] | some (n, e) => 69 :: (if n then 45 else 43) :: e) ++ (if p.single then [70] else [])

/-- The parts are lists of digits, none of them empty. -/
def FParts.WF (p : FParts) : Prop :=
  (p.whole ≠ [] ∧ ∀ c ∈ p.whole, isDigit c = true) ∧ (∀ f, p.frac = some f → f ≠ [] ∧ ∀ c ∈ f, isDigit c = true) ∧
  (∀ n e, p.exp = some (n, e) → e ≠ [] ∧ ∀ c ∈ e, isDigit c = true)

/-- The text does not start with a digit. -/
def stops (r : WStr) : Prop := ∀ c, r.head? = some c → isDigit c = false

theorem digits_spec (t : WStr) : t = (digits t).1 ++ (digits t).2 ∧ (∀ c ∈ (digits t).1, isDigit c = true) ∧ stops (digits t).2 := by
  induction t with
  | nil => exact ⟨rfl, by simp [digits], by intro c hc; cases hc⟩
  | cons c cs ih =>
    unfold digits
    by_cases h : isDigit c = true
    · rw [if_pos h]
      refine ⟨by rw [List.cons_append, ← ih.1], ?_, ih.2.2⟩
      intro x hx
      rcases List.mem_cons.mp hx with rfl | hx
      · exact h
      · exact ih.2.1 x hx
    · rw [if_neg h]
      refine ⟨rfl, by simp, ?_⟩
      intro x hx
      cases hx
      exact Bool.not_eq_true _ ▸ h

theorem digits_append (ds r : WStr) (hd : ∀ c ∈ ds, isDigit c = true) (hr : stops r) : digits (ds ++ r) = (ds, r) := by
  induction ds with
  | nil =>
    cases r with
    | nil => rfl
    | cons c cs => rw [List.nil_append, digits, if_neg]; rw [hr c rfl]; decide
  | cons c cs ih =>
    rw [List.cons_append, digits, if_pos (hd c List.mem_cons_self), ih (fun x hx => hd x (List.mem_cons_of_mem _ hx))]

theorem exponent_some (n : Bool) (e r : WStr) (he : e ≠ []) (hd : ∀ c ∈ e, isDigit c = true) (hr : stops r) :
    exponent (69 :: (if n then 45 else 43) :: (e ++ r)) = some (some (n, e), r) := by
  cases n
  · show (if (digits (e ++ r)).1 = [] then none else some (some (false, (digits (e ++ r)).1), (digits (e ++ r)).2)) = _
    rw [digits_append e r hd hr, if_neg he]
  · show (if (digits (e ++ r)).1 = [] then none else some (some (true, (digits (e ++ r)).1), (digits (e ++ r)).2)) = _
    rw [digits_append e r hd hr, if_neg he]

theorem exponent_inv (r : WStr) (x : Option (Bool × WStr)) (r' : WStr) (h : exponent r = some (x, r')) :
    (∃ n e, x = some (n, e) ∧ e ≠ [] ∧ (∀ c ∈ e, isDigit c = true) ∧ r = 69 :: (if n then 45 else 43) :: (e ++ r') ∧ stops r') ∨
    (x = none ∧ r = r' ∧ r.head? ≠ some 69) := by
  unfold exponent at h
  split at h
  · next r =>
    split at h
    · cases h
    · next hne =>
      cases h
      have hs := digits_spec r
      refine .inl ⟨false, _, rfl, hne, hs.2.1, ?_, hs.2.2⟩
      rw [← hs.1]; rfl
  · next r =>
    split at h
    · cases h
    · next hne =>
      cases h
      have hs := digits_spec r
      refine .inl ⟨true, _, rfl, hne, hs.2.1, ?_, hs.2.2⟩
      rw [← hs.1]; rfl
  · cases h
  · next h1 h2 h3 =>
    cases h
    refine .inr ⟨rfl, rfl, ?_⟩
    intro hh
    cases r with
    | nil => cases hh
    | cons a l => cases hh; exact h3 l rfl

theorem exponent_none (r : WStr) (h : r.head? ≠ some 69) : exponent r = some (none, r) := by
  unfold exponent
  split
  · simp at h
  · simp at h
  · simp at h
  · rfl

theorem suffix_inv (r : WStr) (b : Bool) (h : suffix r = some b) : r = if b then [70] else [] := by
  unfold suffix at h
  split at h
  · cases h; rfl
  · cases h; rfl
  · cases h

/-- The end of a number: exponent and suffix. -/
def endText (x : Option (Bool × WStr)) (s : Bool) : WStr :=
  (match x with | none => [] | some (n, e) => 69 :: (if n then 45 else 43) :: e) ++ (if s then [70] else [])

theorem endText_stops (x : Option (Bool × WStr)) (s : Bool) : stops (endText x s) := by
  unfold endText stops
  intro c hc
  cases x with
  | none => cases s <;> simp at hc; subst hc; decide
  | some ne => obtain ⟨n, e⟩ := ne; simp at hc; subst hc; decide

theorem endText_head (x : Option (Bool × WStr)) (s : Bool) : (endText x s).head? ≠ some 46 := by
  unfold endText
  cases x with
  | none => cases s <;> simp
  | some ne => obtain ⟨n, e⟩ := ne; simp

theorem finish_inv (neg : Bool) (ds : WStr) (fs : Option WStr) (r : WStr) (p : FParts) (h : finish neg ds fs r = some p) :
    p.neg = neg ∧ p.whole = ds ∧ p.frac = fs ∧ r = endText p.exp p.single ∧
    (∀ n e, p.exp = some (n, e) → e ≠ [] ∧ ∀ c ∈ e, isDigit c = true) := by
  unfold finish at h
  cases hx : exponent r with
  | none => rw [hx] at h; cases h
  | some xr =>
    obtain ⟨x, r'⟩ := xr
    rw [hx, Option.bind_some] at h
    cases hs : suffix r' with
    | none => simp only [hs] at h; cases h
    | some b =>
      simp only [hs] at h
      cases h
      refine ⟨rfl, rfl, rfl, ?_, ?_⟩
      · have := suffix_inv _ _ hs
        rcases exponent_inv _ _ _ hx with ⟨n, e, rfl, he, hd, hr, _⟩ | ⟨rfl, hr, _⟩
        · rw [hr, this]; rfl
        · rw [hr, this]; rfl
      · intro n e hxe
        simp only at hxe
        rcases exponent_inv _ _ _ hx with ⟨n', e', rfl, he, hd, hr, _⟩ | ⟨rfl, hr, _⟩
        · cases hxe; exact ⟨he, hd⟩
        · cases hxe

theorem finish_end (neg : Bool) (ds : WStr) (fs : Option WStr) (x : Option (Bool × WStr)) (s : Bool)
    (hx : ∀ n e, x = some (n, e) → e ≠ [] ∧ ∀ c ∈ e, isDigit c = true) :
    finish neg ds fs (endText x s) = some ⟨neg, ds, fs, x, s⟩ := by
  unfold finish
  have hs : suffix (if s then [70] else []) = some s := by cases s <;> rfl
  have hst : stops (if s = true then [70] else []) := by
    cases s
    · intro c hc; cases hc
    · intro c hc; cases hc; decide
  have he : exponent (endText x s) = some (x, if s then [70] else []) := by
    cases x with
    | none =>
      unfold endText
      rw [List.nil_append]
      exact exponent_none _ (by cases s <;> simp)
    | some ne =>
      obtain ⟨n, e⟩ := ne
      exact exponent_some n e _ (hx n e rfl).1 (hx n e rfl).2 hst
  rw [he, Option.bind_some]
  simp only [hs]
  rfl

theorem parts_inv (t : WStr) (p : FParts) (h : parts t = some p) : FParts.WF p ∧ t = FParts.text p := by
  unfold parts at h
  simp only [] at h
  generalize hneg : decide (t.head? = some 45) = neg at h
  generalize hu : (if neg = true then t.drop 1 else t) = u at h
  have ht : t = (if neg then [45] else []) ++ u := by
    cases neg with
    | false => simpa using hu
    | true =>
      have hh := of_decide_eq_true hneg
      cases t with
      | nil => cases hh
      | cons a l => simp at hh; subst hh; simp at hu; rw [hu]; rfl
  have hs := digits_spec u
  split at h
  · cases h
  · next hds =>
    unfold afterWhole at h
    split at h
    · next r hr =>
      have hs' := digits_spec r
      split at h
      · cases h
      · next hfs =>
        obtain ⟨a1, a2, a3, a4, a5⟩ := finish_inv _ _ _ _ _ h
        refine ⟨⟨⟨a2 ▸ hds, a2 ▸ hs.2.1⟩, ?_, a5⟩, ?_⟩
        · intro f hf; rw [a3] at hf; cases hf; exact ⟨hfs, hs'.2.1⟩
        · unfold FParts.text
          have hu1 := hs.1
          have hr1 := hs'.1
          rw [a4] at hr1
          rw [hr] at hu1
          rw [a1, a2, a3, ht]
          generalize (digits u).1 = D at hu1
          generalize (digits r).1 = D' at hr1
          rw [hu1, hr1]
          simp [endText]
    · next hr =>
      obtain ⟨a1, a2, a3, a4, a5⟩ := finish_inv _ _ _ _ _ h
      refine ⟨⟨⟨a2 ▸ hds, a2 ▸ hs.2.1⟩, ?_, a5⟩, ?_⟩
      · intro f hf; rw [a3] at hf; cases hf
      · unfold FParts.text
        have hu1 := hs.1
        rw [a4] at hu1
        rw [a1, a2, a3, ht]
        generalize (digits u).1 = D at hu1
        rw [hu1]
        simp [endText]

theorem parts_text (p : FParts) (h : FParts.WF p) : parts (FParts.text p) = some p := by
  obtain ⟨neg, ds, fs, x, s⟩ := p
  obtain ⟨⟨h1, h2⟩, h3, h4⟩ := h
  simp only at h1 h2 h3 h4
  obtain ⟨d, ds', rfl⟩ : ∃ d ds', ds = d :: ds' := by
    cases ds with
    | nil => exact absurd rfl h1
    | cons d l => exact ⟨d, l, rfl⟩
  have hd45 : d ≠ 45 := by
    rintro rfl
    have := h2 45 List.mem_cons_self
    revert this; decide
  generalize hu : (d :: ds') ++ (match fs with | none => [] | some f => 46 :: f) ++ endText x s = u
  have ht : FParts.text ⟨neg, d :: ds', fs, x, s⟩ = (if neg then [45] else []) ++ u := by
    rw [← hu]
    unfold FParts.text endText
    cases neg <;> cases fs <;> cases x <;> simp
  have huh : u.head? = some d := by rw [← hu]; rfl
  rw [ht]
  unfold parts
  simp only []
  have e1 : decide (((if neg then [45] else []) ++ u).head? = some 45) = neg := by
    cases neg with
    | false =>
      rw [decide_eq_false_iff_not]
      rw [if_neg (by decide), List.nil_append, huh]
      intro e; exact hd45 (Option.some.inj e)
    | true => rfl
  rw [e1]
  have e2 : (if neg = true then ((if neg = true then [45] else []) ++ u).drop 1 else (if neg = true then [45] else []) ++ u) = u := by
    cases neg <;> rfl
  rw [e2]
  cases fs with
  | none =>
    simp only [List.append_nil] at hu
    have := digits_append (d :: ds') (endText x s) h2 (endText_stops x s)
    rw [← hu, this]
    simp only []
    rw [if_neg (by simp)]
    unfold afterWhole
    split
    · next r hr => exact absurd (by rw [hr]; rfl) (endText_head x s)
    · exact finish_end _ _ _ _ _ h4
  | some f =>
    rw [List.append_assoc] at hu
    have := digits_append (d :: ds') ((46 :: f) ++ endText x s) h2 (by intro c hc; cases hc; decide)
    rw [← hu, this]
    simp only []
    rw [if_neg (by simp)]
    have h3' := h3 f rfl
    rw [List.cons_append]
    unfold afterWhole
    simp only []
    rw [digits_append f (endText x s) h3'.2 (endText_stops x s)]
    simp only []
    rw [if_neg h3'.1]
    exact finish_end _ _ _ _ _ h4

theorem digit_ne (c d : Nat) (h : isDigit c = true) (hd : isDigit d = false) : c ≠ d := by rintro rfl; rw [h] at hd; cases hd

theorem text_dot (p : FParts) (h : FParts.WF p) : 46 ∈ FParts.text p ↔ p.frac.isSome := by
  obtain ⟨neg, ds, fs, x, s⟩ := p
  obtain ⟨⟨h1, h2⟩, h3, h4⟩ := h
  simp only at h1 h2 h3 h4
  cases fs with
  | some f => simp [FParts.text]
  | none =>
    simp only [Option.isSome_none, Bool.false_eq_true, iff_false]
    unfold FParts.text
    intro hm
    simp only [List.mem_append] at hm
    rcases hm with (((hm | hm) | hm) | hm) | hm
    · cases neg <;> simp at hm
    · exact digit_ne _ _ (h2 46 hm) (by decide) rfl
    · cases hm
    · cases x with
      | none => cases hm
      | some ne =>
        obtain ⟨n, e⟩ := ne
        simp only [List.mem_cons] at hm
        rcases hm with hm | hm | hm
        · cases hm
        · cases n <;> cases hm
        · exact digit_ne _ _ ((h4 n e rfl).2 46 hm) (by decide) rfl
    · cases s <;> simp at hm

theorem text_exp (p : FParts) (h : FParts.WF p) : 69 ∈ FParts.text p ↔ p.exp.isSome := by
  obtain ⟨neg, ds, fs, x, s⟩ := p
  obtain ⟨⟨h1, h2⟩, h3, h4⟩ := h
  simp only at h1 h2 h3 h4
  cases x with
  | some ne => obtain ⟨n, e⟩ := ne; simp [FParts.text]
  | none =>
    simp only [Option.isSome_none, Bool.false_eq_true, iff_false]
    unfold FParts.text
    intro hm
    simp only [List.mem_append] at hm
    rcases hm with (((hm | hm) | hm) | hm) | hm
    · cases neg <;> simp at hm
    · exact digit_ne _ _ (h2 69 hm) (by decide) rfl
    · cases fs with
      | none => cases hm
      | some f =>
        rcases List.mem_cons.mp hm with hm | hm
        · cases hm
        · exact digit_ne _ _ ((h3 f rfl).2 69 hm) (by decide) rfl
    · cases hm
    · cases s <;> simp at hm

/-- The six texts that the translator replaces by the name of a floating limit. -/
def limits : List WStr := [w "1.7976931348623157E+308", w "-1.7976931348623157E+308", w "5E-324", w "3.4028235E+38", w "-3.4028235E+38", w "1E-45"]

theorem find_floating (t : WStr) (p : FParts) (hp : parts t = some p) (hf : p.isFloating = true) (hl : t ∉ limits) : find conversions t = none := by
  obtain ⟨hw, ht⟩ := parts_inv t p hp
  have hne : ∀ x : Int, t ≠ decInt x := by
    intro x e
    unfold FParts.isFloating at hf
    rcases Bool.or_eq_true _ _ ▸ hf with h | h
    · exact decInt_ne x t 46 (by rw [ht]; exact (text_dot p hw).mpr h) (by decide) e.symm
    · exact decInt_ne x t 69 (by rw [ht]; exact (text_exp p hw).mpr h) (by decide) e.symm
  have hnp : ∀ u, parts u = none → t ≠ u := by rintro u hu rfl; rw [hu] at hp; cases hp
  have n1 := hnp (w "NaN") (by decide +kernel)
  have n2 := hnp [8734] (by decide +kernel)
  have n3 := hnp [45, 8734] (by decide +kernel)
  have hl : t ∉ [doubleMax, 45 :: doubleMax, doubleEps, singleMax, 45 :: singleMax, singleEps] := by
    rw [show [doubleMax, 45 :: doubleMax, doubleEps, singleMax, 45 :: singleMax, singleEps] = limits by decide +kernel]; exact hl
  simp only [List.mem_cons, List.not_mem_nil, or_false, not_or] at hl
  unfold conversions
  simp only [find, if_neg (hne _), if_neg n1, if_neg n2, if_neg n3, if_neg hl.1, if_neg hl.2.1, if_neg hl.2.2.1, if_neg hl.2.2.2.1,
    if_neg hl.2.2.2.2.1, if_neg hl.2.2.2.2.2]

theorem last_digit (p : FParts) (h : FParts.WF p) (h1 : p.frac = none) (h2 : p.exp = none) (h3 : p.single = false) :
    ((FParts.text p).getLast?.map isDigit).getD false = true := by
  obtain ⟨neg, ds, fs, x, s⟩ := p
  simp only at h1 h2 h3
  subst h1; subst h2; subst h3
  have e : FParts.text ⟨neg, ds, none, none, false⟩ = (if neg then [45] else []) ++ ds := by simp [FParts.text]
  rw [e, List.getLast?_append]
  obtain ⟨⟨hd, ha⟩, _⟩ := h
  simp only at hd ha
  rw [List.getLast?_eq_some_getLast hd]
  exact ha _ (List.getLast_mem hd)

/-- C86: the text emitted for a double constant other than the six limits is a C++ floating literal of type `double` (never an integer
literal), and it denotes the same decimal number as the text .NET gives for the constant. -/
theorem C86_double_partial (t : WStr) (p : FParts) (hp : parts t = some p) (hs : p.single = false) (hl : t ∉ limits) :
    ∃ q, parts (ldcF8 t) = some q ∧ q.isFloating = true ∧ q.single = false ∧ SameNumber q.num p.num := by
  obtain ⟨hw, ht⟩ := parts_inv t p hp
  by_cases hf : p.isFloating = true
  · refine ⟨p, ?_, hf, hs, ?_⟩
    · unfold ldcF8
      have hc : (!t.contains 46 && !t.contains 69) = false := by
        unfold FParts.isFloating at hf
        rcases Bool.or_eq_true _ _ ▸ hf with h | h
        · have : t.contains 46 = true := by rw [List.contains_iff_mem, ht]; exact (text_dot p hw).mpr h
          rw [this]; rfl
        · have : t.contains 69 = true := by rw [List.contains_iff_mem, ht]; exact (text_exp p hw).mpr h
          rw [this]; exact Bool.and_false _
      simp only [Bool.and_assoc, hc, Bool.and_false, Bool.false_eq_true, if_false]
      unfold convert
      rw [find_floating t p hp hf hl]
      exact hp
    · unfold SameNumber; rfl
  · have hfr : p.frac = none := by
      cases h : p.frac with
      | none => rfl
      | some f => exfalso; apply hf; unfold FParts.isFloating; rw [h]; rfl
    have hex : p.exp = none := by
      cases h : p.exp with
      | none => rfl
      | some f => exfalso; apply hf; unfold FParts.isFloating; rw [h]; exact Bool.or_true _
    have c1 : t.contains 46 = false := by
      rw [← Bool.not_eq_true, List.contains_iff_mem, ht, text_dot p hw, hfr]; decide
    have c2 : t.contains 69 = false := by
      rw [← Bool.not_eq_true, List.contains_iff_mem, ht, text_exp p hw, hex]; decide
    have c3 : (t.getLast?.map isDigit).getD false = true := by rw [ht]; exact last_digit p hw hfr hex hs
    let q : FParts := { p with frac := some [48] }
    have hq : FParts.WF q := by
      refine ⟨hw.1, ?_, hw.2.2⟩
      intro f hf; cases hf; exact ⟨by decide, by decide⟩
    have hqt : FParts.text q = t ++ w ".0" := by
      have e : w ".0" = [46, 48] := by decide +kernel
      rw [ht, e]
      show _ = FParts.text p ++ [46, 48]
      unfold FParts.text
      rw [hfr, hex, hs]
      simp [q, hex, hs]
    have hqp : parts (t ++ w ".0") = some q := by rw [← hqt]; exact parts_text q hq
    refine ⟨q, ?_, rfl, hs, ?_⟩
    · unfold ldcF8
      simp only [c1, c2, c3, Bool.not_false, Bool.and_true, if_true]
      unfold convert
      have hlim : t ++ w ".0" ∉ limits := by
        have hall : ∀ u ∈ limits, 69 ∈ u := by decide +kernel
        intro hm
        have := hall _ hm
        rcases List.mem_append.mp this with h | h
        · rw [← List.contains_iff_mem, c2] at h; cases h
        · revert h; decide +kernel
      rw [find_floating _ q hqp rfl hlim]
      exact hqp
    · unfold SameNumber FParts.num
      have eq1 : q.exp = none := hex
      have eq2 : q.frac = some [48] := rfl
      have eq3 : q.whole = p.whole := rfl
      have eq4 : q.neg = p.neg := rfl
      rw [eq1, eq2, eq3, eq4, hfr]
      simp only [Option.getD_some, Option.getD_none, List.append_nil, expValue, numeral_append_one, List.length_singleton, List.length_nil]
      have : (10 * numeral p.whole + (48 - 48) : Nat) = 10 * numeral p.whole := by omega
      rw [this]
      have e1 : ((0 : Int) - ((1 : Nat) : Int) - min (0 - ((1 : Nat) : Int)) (0 - ((0 : Nat) : Int))).toNat = 0 := by decide
      have e2 : ((0 : Int) - ((0 : Nat) : Int) - min (0 - ((1 : Nat) : Int)) (0 - ((0 : Nat) : Int))).toNat = 1 := by decide
      rw [e1, e2]
      cases p.neg
      · simp; omega
      · simp; omega

-- `2` becomes `2.0`, `-0.5` and `1E+20` stay
example : ldcF8 (w "2") = w "2.0" ∧ ldcF8 (w "-0.5") = w "-0.5" ∧ ldcF8 (w "1E+20") = w "1E+20" ∧ (parts (w "2")).isSome ∧ w "2" ∉ limits := by decide +kernel

/-- C86 is false for `Double.MaxValue`: it becomes `DoubleValue::MaxValue`, which the runtime defines four representable numbers lower. -/
theorem C86_double_max_refuted : ldcF8 (w "1.7976931348623157E+308") = w "DoubleValue::MaxValue" ∧
    FltModel.dMaxValue + 4 = 0x7FEFFFFFFFFFFFFF ∧ FltModel.val FltModel.dbl FltModel.dMaxValue < FltModel.val FltModel.dbl 0x7FEFFFFFFFFFFFFF := by
  decide +kernel

/-- C86 is false for the double constant `1E-45`: its text is that of `float.Epsilon`, so it becomes `SingleValue::Epsilon` (2^-149), which is
more than 1.4E-45. -/
theorem C86_double_epsilon_refuted : ldcF8 (w "1E-45") = w "SingleValue::Epsilon" ∧ 14 * 2 ^ 149 < 10 * 10 ^ 45 := by
  decide +kernel

/-- C86: the text emitted for a float constant that .NET prints with a decimal point (and that is not a limit) is a literal of type `float` with the
same digits. -/
theorem C86_single_partial (own t : WStr) (p : FParts) (hp : parts t = some p) (hs : p.single = false) (hl : t ∉ limits) (hf : p.frac.isSome) :
    parts (ldcF4 false own t) = some { p with single := true } := by
  obtain ⟨hw, ht⟩ := parts_inv t p hp
  have hfl : p.isFloating = true := by unfold FParts.isFloating; rw [hf]; rfl
  unfold ldcF4 convert
  simp only [Bool.false_eq_true, if_false]
  rw [find_floating t p hp hfl hl]
  have c1 : t.contains 46 = true := by rw [List.contains_iff_mem, ht]; exact (text_dot p hw).mpr hf
  simp only [c1, Bool.not_false, Bool.and_true, if_true]
  have e : t ++ w "F" = FParts.text { p with single := true } := by
    have e : w "F" = [70] := by decide +kernel
    rw [e, ht]
    show FParts.text p ++ [70] = _
    unfold FParts.text
    rw [hs]
    simp
  rw [e]
  exact parts_text _ ⟨hw.1, hw.2.1, hw.2.2⟩

example : ldcF4 false (w "0.1") (w "0.10000000149011612") = w "0.10000000149011612F" := by decide +kernel

/-- C86: the texts of the limits become the names of the runtime's constants (for floats without a suffix, whatever the text of the value as a
double is). -/
theorem C86_limits_partial (asDouble : WStr) :
    ldcF8 (w "-1.7976931348623157E+308") = w "DoubleValue::MinValue" ∧ ldcF8 (w "5E-324") = w "DoubleValue::Epsilon" ∧
    ldcF8 (w "NaN") = w "DoubleValue::NaN" ∧ ldcF8 [8734] = w "DoubleValue::PositiveInfinity" ∧ ldcF8 [45, 8734] = w "DoubleValue::NegativeInfinity" ∧
    ldcF4 true (w "3.4028235E+38") asDouble = w "SingleValue::MaxValue" ∧ ldcF4 true (w "-3.4028235E+38") asDouble = w "SingleValue::MinValue" ∧
    ldcF4 true (w "1E-45") asDouble = w "SingleValue::Epsilon" := by
  refine ⟨by decide +kernel, by decide +kernel, by decide +kernel, by decide +kernel, by decide +kernel, ?_, ?_, ?_⟩ <;>
  · unfold ldcF4
    rw [if_pos rfl]
    decide +kernel

/-- C86 is false for the type of whole-number float constants: `2f` becomes the `int` literal `2`, and `255f` the Byte constant. -/
theorem C86_single_type_refuted : intConstant (ldcF4 false (w "2") (w "2")) = some ⟨.int32, 2⟩ ∧
    intConstant (ldcF4 false (w "255") (w "255")) = some ⟨.byte, 255⟩ := by decide +kernel

end Verif.Const
