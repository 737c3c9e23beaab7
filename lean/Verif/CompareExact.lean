import Verif.StringRangeProps
/-!
# C180: what comparing strings does with every argument
-/
namespace Verif.StrModel
open SBModel StrSpec

/-! ## Specification -/

/-- The three ways of comparing: `CompareOrdinal`; `Compare` ignoring case; `Compare` and `CompareTo`. -/
inductive Way where
  | ordinal
  | ignoreCase
  | cased
  deriving DecidableEq

/-- What is compared of a character. -/
def Way.key (L : Locale) : Way → Nat → Nat
  | .ignoreCase, c => L.toLower c
  | _, c => c

/-- The comparison of two characters: when case counts, a capital comes after a small letter; otherwise the codes. -/
def Way.order (L : Locale) (m : Way) (x y : Nat) : Int :=
  if m = .cased ∧ L.isUpper x = true ∧ L.isLower y = true then 1
  else if m = .cased ∧ L.isUpper y = true ∧ L.isLower x = true then -1
  else if m.key L x > m.key L y then 1 else if m.key L x < m.key L y then -1 else 0

/-- A pair of characters ends the comparison: they differ, or the first is NUL. -/
def Way.Ends (L : Locale) (m : Way) (x y : Nat) : Prop := m.order L x y ≠ 0 ∨ m.key L x = 0

/-- The character at a position; NUL behind the end. -/
def charAt (v : WStr) (k : Nat) : Nat := v[k]?.getD 0

/-- `r` is decided by the first of `n` pairs of characters, from position `i` and from position `j` on, that ends the comparison; 0 if none does. -/
def Decided (L : Locale) (m : Way) (a : WStr) (i : Nat) (b : WStr) (j n : Nat) (r : Int) : Prop :=
  (∃ k, k < n ∧ (∀ k', k' < k → ¬ m.Ends L (charAt a (i + k')) (charAt b (j + k'))) ∧ m.Ends L (charAt a (i + k)) (charAt b (j + k)) ∧
    r = m.order L (charAt a (i + k)) (charAt b (j + k))) ∨
  (r = 0 ∧ ∀ k, k < n → ¬ m.Ends L (charAt a (i + k)) (charAt b (j + k)))

/-! ## Proof -/

/-- The arguments `ignoreCase` and `doOrdinal` of each way. -/
def Way.flags : Way → Bool × Bool
  | .ordinal => (false, true)
  | .ignoreCase => (true, false)
  | .cased => (false, false)

theorem loop_step (L : Locale) (m : Way) (x y : Nat) (s t : List Nat) (n : Nat) :
    (m.Ends L x y → cmpLoop L m.flags.1 m.flags.2 (x :: s) (y :: t) (n + 1) = .ok (m.order L x y)) ∧
    (¬ m.Ends L x y → cmpLoop L m.flags.1 m.flags.2 (x :: s) (y :: t) (n + 1) = cmpLoop L m.flags.1 m.flags.2 s t n) := by
  have hk : (if m.flags.1 then L.toLower x else x) = m.key L x ∧ (if m.flags.1 then L.toLower y else y) = m.key L y := by cases m <;> exact ⟨rfl, rfl⟩
  have hc : ∀ p q : Nat, (m.flags.1 = false ∧ m.flags.2 = false ∧ L.isUpper (m.key L p) = true ∧ L.isLower (m.key L q) = true) ↔ (m = .cased ∧ L.isUpper p = true ∧ L.isLower q = true) := by
    intro p q; cases m <;> simp [Way.flags, Way.key]
  have e : cmpLoop L m.flags.1 m.flags.2 (x :: s) (y :: t) (n + 1) =
      if m = .cased ∧ L.isUpper x = true ∧ L.isLower y = true then .ok 1 else if m = .cased ∧ L.isUpper y = true ∧ L.isLower x = true then .ok (-1) else
      if m.key L x = 0 ∨ m.key L x ≠ m.key L y then .ok (if m.key L x > m.key L y then 1 else if m.key L x < m.key L y then -1 else 0) else cmpLoop L m.flags.1 m.flags.2 s t n := by
    rw [cmpLoop]
    simp only [hk.1, hk.2, hc x y, hc y x]
  rw [e]
  unfold Way.Ends Way.order
  by_cases h1 : m = .cased ∧ L.isUpper x = true ∧ L.isLower y = true
  · rw [if_pos h1, if_pos h1]; simp
  · rw [if_neg h1, if_neg h1]
    by_cases h2 : m = .cased ∧ L.isUpper y = true ∧ L.isLower x = true
    · rw [if_pos h2, if_pos h2]; simp
    · rw [if_neg h2, if_neg h2]
      by_cases h3 : m.key L x = 0 ∨ m.key L x ≠ m.key L y
      · rw [if_pos h3]
        refine ⟨fun _ => rfl, fun h => absurd ?_ h⟩
        rcases h3 with h3 | h3
        · exact .inr h3
        · left; split
          · decide
          · rw [if_pos (by omega)]; decide
      · rw [if_neg h3]
        refine ⟨fun h => absurd h ?_, fun _ => rfl⟩
        rw [if_neg (by omega), if_neg (by omega)]
        simp; intro h; exact h3 (.inl h)

theorem key_zero (L : Locale) (h0 : L.toLower 0 = 0) (m : Way) : m.key L 0 = 0 := by cases m <;> simp [Way.key, h0]

theorem ends_nul (L : Locale) (h0 : L.toLower 0 = 0) (m : Way) (x : Nat) : m.Ends L x 0 := by
  by_cases h : m.key L x = 0
  · exact .inr h
  · left
    unfold Way.order
    split
    · decide
    · split
      · decide
      · rw [if_pos (by rw [key_zero L h0]; omega)]; decide

theorem loop_decided (L : Locale) (h0 : L.toLower 0 = 0) (m : Way) : ∀ (n : Nat) (a b : WStr),
    ∃ r, cmpLoop L m.flags.1 m.flags.2 (a ++ [0]) (b ++ [0]) n = .ok r ∧ Decided L m a 0 b 0 n r := by
  intro n
  induction n with
  | zero => intro a b; exact ⟨0, by simp [cmpLoop], .inr ⟨rfl, fun k h => absurd h (by omega)⟩⟩
  | succ n ih =>
    intro a b
    have stop : ∀ x y s t, a ++ [0] = x :: s → b ++ [0] = y :: t → charAt a 0 = x → charAt b 0 = y → m.Ends L x y →
        ∃ r, cmpLoop L m.flags.1 m.flags.2 (a ++ [0]) (b ++ [0]) (n + 1) = .ok r ∧ Decided L m a 0 b 0 (n + 1) r := by
      intro x y s t e1 e2 c1 c2 h
      refine ⟨_, by rw [e1, e2]; exact (loop_step L m x y s t n).1 h, .inl ⟨0, by omega, fun k h => absurd h (by omega), ?_, ?_⟩⟩
      · rw [c1, c2]; exact h
      · rw [c1, c2]
    cases a with
    | nil =>
      have he : ∀ y, m.Ends L 0 y := fun y => .inr (key_zero L h0 m)
      cases b with
      | nil => exact stop 0 0 [] [] rfl rfl rfl rfl (he 0)
      | cons y b => exact stop 0 y [] (b ++ [0]) rfl rfl rfl rfl (he y)
    | cons x a =>
      cases b with
      | nil => exact stop x 0 (a ++ [0]) [] rfl rfl rfl rfl (ends_nul L h0 m x)
      | cons y b =>
        by_cases h : m.Ends L x y
        · exact stop x y (a ++ [0]) (b ++ [0]) rfl rfl rfl rfl h
        · obtain ⟨r, h1, h2⟩ := ih a b
          refine ⟨r, by rw [List.cons_append, List.cons_append, (loop_step L m x y _ _ n).2 h]; exact h1, ?_⟩
          have sh : ∀ (z : Nat) (v : WStr) (k : Nat), charAt (z :: v) (0 + (k + 1)) = charAt v (0 + k) := by
            intro z v k; unfold charAt; simp
          rcases h2 with ⟨k, hk, h3, h4, h5⟩ | ⟨hr, h3⟩
          · refine .inl ⟨k + 1, by omega, ?_, ?_, ?_⟩
            · intro k' hk'
              cases k' with
              | zero => exact h
              | succ k' => rw [sh, sh]; exact h3 k' (by omega)
            · rw [sh, sh]; exact h4
            · rw [sh, sh]; exact h5
          · refine .inr ⟨hr, fun k hk => ?_⟩
            cases k with
            | zero => exact h
            | succ k => rw [sh, sh]; exact h3 k (by omega)

theorem charAt_drop (v : WStr) (i k : Nat) : charAt (v.drop i) (0 + k) = charAt v (i + k) := by
  unfold charAt; rw [List.getElem?_drop, Nat.zero_add]

theorem at_decided (L : Locale) (h0 : L.toLower 0 = 0) (m : Way) (a b : WStr) (i j n : Int) (hi : 0 ≤ i ∧ i ≤ a.length) (hj : 0 ≤ j ∧ j ≤ b.length) :
    ∃ r, compareAt L a i b j n m.flags.1 m.flags.2 = .ok r ∧ Decided L m a i.toNat b j.toNat n.toNat r := by
  obtain ⟨r, h1, h2⟩ := loop_decided L h0 m n.toNat (a.drop i.toNat) (b.drop j.toNat)
  refine ⟨r, ?_, ?_⟩
  · unfold compareAt compareAt.v1 compareAt.v2
    simp only [cells_length]
    rw [if_neg (by omega), drop_cells a i hi.1 hi.2, drop_cells b j hj.1 hj.2, h1]
  · unfold Decided at h2 ⊢
    simp only [charAt_drop] at h2
    exact h2

/-- The comparison as the program calls it: with positions and a length. -/
def compareParts (L : Locale) : Way → Option WStr → Int → Option WStr → Int → Int → Res Int
  | .ordinal, a, i, b, j, n => compareOrdinalRange L a i b j n
  | .ignoreCase, a, i, b, j, n => compareRange L a i b j n true
  | .cased, a, i, b, j, n => compareRange L a i b j n false

theorem parts_at (L : Locale) (m : Way) (a b : WStr) (i j n : Int) : compareParts L m (some a) i (some b) j n = compareAt L a i b j n m.flags.1 m.flags.2 := by
  cases m <;> rfl

/-- **C180**, `Compare(a, i, b, j, n, ignoreCase)` and `CompareOrdinal(a, i, b, j, n)`, for all arguments, in every locale whose lower case of NUL is NUL: undefined for a null string, a position before
the start or beyond the position after the end, and, unless the length is 0 or negative, the position after the end plus one; everywhere else the result of the first pair of characters that ends the comparison. -/
theorem C180_parts (L : Locale) (h0 : L.toLower 0 = 0) (m : Way) (i j n : Int) :
    (∀ s, compareParts L m none i s j n = .ub ∧ compareParts L m s i none j n = .ub) ∧
    (∀ a b : WStr,
      (i < 0 ∨ a.length + 1 < i ∨ j < 0 ∨ b.length + 1 < j → compareParts L m (some a) i (some b) j n = .ub) ∧
      ((0 ≤ i ∧ i ≤ a.length + 1) ∧ (0 ≤ j ∧ j ≤ b.length + 1) → i = a.length + 1 ∨ j = b.length + 1 → compareParts L m (some a) i (some b) j n = if n ≤ 0 then .ok 0 else .ub) ∧
      ((0 ≤ i ∧ i ≤ a.length) ∧ (0 ≤ j ∧ j ≤ b.length) → ∃ r, compareParts L m (some a) i (some b) j n = .ok r ∧ Decided L m a i.toNat b j.toNat n.toNat r)) := by
  refine ⟨fun s => ⟨by cases m <;> rfl, by cases s <;> cases m <;> rfl⟩, fun a b => ⟨fun h => ?_, fun h e => ?_, fun h => ?_⟩⟩
  · rw [parts_at]
    unfold compareAt compareAt.v1 compareAt.v2
    simp only [cells_length]
    rw [if_pos (by omega)]
  · rw [parts_at]
    unfold compareAt compareAt.v1 compareAt.v2
    simp only [cells_length]
    rw [if_neg (by omega)]
    by_cases hn : n ≤ 0
    · rw [if_pos hn, show n.toNat = 0 by omega]; simp [cmpLoop]
    · rw [if_neg hn]
      obtain ⟨k, hk⟩ : ∃ k, n.toNat = k + 1 := ⟨n.toNat - 1, by omega⟩
      rw [hk]
      rcases e with e | e
      · rw [List.drop_eq_nil_of_le (by rw [cells_length]; omega)]; rw [cmpLoop] <;> simp
      · rw [List.drop_eq_nil_of_le (as := cells b) (by rw [cells_length]; omega)]; rw [cmpLoop] <;> simp
  · rw [parts_at]; exact at_decided L h0 m a b i j n h.1 h.2

/-- **C180**, `Compare(a, b, ignoreCase)`, `CompareOrdinal(a, b)` and both `CompareTo`, for all strings: as many pairs as the first string has characters are looked at, whatever the second one has. -/
theorem C180_whole (L : Locale) (h0 : L.toLower 0 = 0) (a b : WStr) :
    (∃ r, compare L (some a) (some b) true = .ok r ∧ Decided L .ignoreCase a 0 b 0 a.length r) ∧
    (∃ r, compare L (some a) (some b) false = .ok r ∧ compareTo L a (some b) = .ok r ∧ Decided L .cased a 0 b 0 a.length r) ∧
    (∃ r, compareOrdinal L (some a) (some b) = .ok r ∧ Decided L .ordinal a 0 b 0 a.length r) ∧
    compareTo L a none = .ok 1 ∧ compareToObj L a .null = .ok 1 ∧ compareToObj L a .other = .throw .argument ∧ compareToObj L a (.str b) = .ok 0 ∧
    (∀ s ic, compare L none s ic = .ub ∧ compare L s none ic = .ub ∧ compareOrdinal L none s = .ub ∧ compareOrdinal L s none = .ub) := by
  have key := fun m => at_decided L h0 m a b 0 0 a.length ⟨by omega, by omega⟩ ⟨by omega, by omega⟩
  obtain ⟨r, h1, h2⟩ := key .cased
  refine ⟨key .ignoreCase, ⟨r, h1, h1, h2⟩, key .ordinal, rfl, rfl, rfl, ?_, fun s ic => ⟨rfl, by cases s <;> rfl, rfl, by cases s <;> rfl⟩⟩
  have h1 : compareTo L a (some b) = .ok r := h1
  show (compareTo L a (some b) >>= fun _ => .ok 0) = _
  rw [h1, Res.bind_ok]

/-- What is decided is decided once: the two theorems give the result. -/
theorem C180_unique (L : Locale) (m : Way) (a : WStr) (i : Nat) (b : WStr) (j n : Nat) (r r' : Int) (h : Decided L m a i b j n r) (h' : Decided L m a i b j n r') : r = r' := by
  rcases h with ⟨k, hk, h1, h2, h3⟩ | ⟨h3, h1⟩ <;> rcases h' with ⟨q, hq, g1, g2, g3⟩ | ⟨g3, g1⟩
  · rcases Nat.lt_trichotomy k q with c | c | c
    · exact absurd h2 (g1 k c)
    · rw [h3, g3, c]
    · exact absurd g2 (h1 q c)
  · exact absurd h2 (g1 k hk)
  · exact absurd g2 (h1 q hq)
  · rw [h3, g3]

/-- Two strings that differ after a NUL, parts beyond the end, and case. -/
example : cLocale.toLower 0 = 0 ∧ compareParts cLocale .ordinal (some [97, 0, 98]) 0 (some [97, 0, 99]) 0 3 = .ok 0 ∧ Decided cLocale .ordinal [97, 0, 98] 0 [97, 0, 99] 0 3 0 ∧
    compareParts cLocale .cased (some (w "xA")) 1 (some (w "a")) 0 5 = .ok 1 ∧ compareParts cLocale .ignoreCase (some (w "xA")) 1 (some (w "a")) 0 5 = .ok 0 ∧
    compareParts cLocale .ordinal (some (w "ab")) 3 (some (w "ab")) 0 1 = .ub ∧ compareParts cLocale .ordinal (some (w "ab")) 3 (some (w "ab")) 0 0 = .ok 0 := by
  refine ⟨by decide +kernel, by decide +kernel, .inl ⟨1, by decide, ?_, .inr rfl, by decide +kernel⟩, by decide +kernel, by decide +kernel, by decide +kernel, by decide +kernel⟩
  intro k hk
  rw [show k = 0 by omega]
  unfold Way.Ends
  decide +kernel

end Verif.StrModel
