import Verif.StringProps
/-!
# C153: comparing parts of strings
-/
namespace Verif.StrModel
open SBModel StrSpec

/-! ## Model -/

/-- StringDotNet.cpp lines 137-140: `Compare(s1, index1, s2, index2, length, ignoreCase)`; null pointers are dereferenced. -/
def compareRange (L : Locale) (s1 : Option WStr) (i1 : Int) (s2 : Option WStr) (i2 length : Int) (ignoreCase : Bool) : Res Int :=
  match s1, s2 with
  | some a, some b => compareAt L a i1 b i2 length ignoreCase false
  | _, _ => .ub

/-- StringDotNet.cpp lines 144-146: `CompareOrdinal(s1, index1, s2, index2, length)`. -/
def compareOrdinalRange (L : Locale) (s1 : Option WStr) (i1 : Int) (s2 : Option WStr) (i2 length : Int) : Res Int :=
  match s1, s2 with
  | some a, some b => compareAt L a i1 b i2 length false true
  | _, _ => .ub

/-! ## Specification -/

/-- `r` tells how `a` and `b` compare in the dictionary. -/
def Tells (r : Int) (a b : WStr) : Prop :=
  (r = -1 ∧ lexLt a b) ∨ (r = 0 ∧ a = b) ∨ (r = 1 ∧ lexLt b a)

theorem Tells.cons {r : Int} {a b : WStr} (h : Tells r a b) (c : Nat) : Tells r (c :: a) (c :: b) := by
  rcases h with ⟨h, k⟩ | ⟨h, k⟩ | ⟨h, k⟩
  · exact .inl ⟨h, .inr ⟨rfl, k⟩⟩
  · exact .inr (.inl ⟨h, by rw [k]⟩)
  · exact .inr (.inr ⟨h, .inr ⟨rfl, k⟩⟩)

/-- The loop on two blocks, each ending with NUL. `f` is what is compared. -/
theorem cmpLoop_range (L : Locale) (ic ord : Bool) (hio : ic = true ∨ ord = true) (f : Nat → Nat) (hf : f = if ic then L.toLower else id) (f0 : f 0 = 0) :
    ∀ (a b : WStr) (n : Nat), (∀ c ∈ a, f c ≠ 0) → (∀ c ∈ b, f c ≠ 0) →
      ∃ r, cmpLoop L ic ord (a ++ [0]) (b ++ [0]) n = .ok r ∧ Tells r ((a.map f).take n) ((b.map f).take n) := by
  have e1 : ∀ x, (if ic then L.toLower x else x) = f x := by intro x; rw [hf]; cases ic <;> rfl
  have step : ∀ x y s t n, cmpLoop L ic ord (x :: s) (y :: t) (n + 1) = if f x = 0 ∨ f x ≠ f y then .ok (if f x > f y then 1 else if f x < f y then -1 else 0) else cmpLoop L ic ord s t n := by
    intro x y s t n
    rw [cmpLoop]
    simp only [e1]
    rw [if_neg (by rcases hio with h | h <;> simp [h]), if_neg (by rcases hio with h | h <;> simp [h])]
  intro a
  induction a with
  | nil =>
    intro b n _ hb
    cases n with
    | zero => exact ⟨0, by simp [cmpLoop], .inr (.inl ⟨rfl, by simp⟩)⟩
    | succ n =>
      cases b with
      | nil => exact ⟨0, by simp [step, f0], .inr (.inl ⟨rfl, rfl⟩)⟩
      | cons y b =>
        have := hb y (by simp)
        exact ⟨-1, by simp [step, f0]; omega, .inl ⟨rfl, by simp [lexLt]⟩⟩
  | cons x a ih =>
    intro b n ha hb
    cases n with
    | zero => exact ⟨0, by simp [cmpLoop], .inr (.inl ⟨rfl, by simp⟩)⟩
    | succ n =>
      have hx := ha x (by simp)
      cases b with
      | nil => exact ⟨1, by simp [step, f0, hx, Nat.pos_of_ne_zero hx], .inr (.inr ⟨rfl, by simp [lexLt]⟩)⟩
      | cons y b =>
        rw [List.cons_append, List.cons_append, step]
        by_cases hxy : f x = f y
        · rw [if_neg (by rintro (h | h); exact hx h; exact h hxy)]
          obtain ⟨r, h1, h2⟩ := ih b n (fun c h => ha c (by simp [h])) (fun c h => hb c (by simp [h]))
          refine ⟨r, h1, ?_⟩
          simp only [List.map_cons, List.take_succ_cons, hxy]
          exact h2.cons _
        · rw [if_pos (.inr hxy)]
          refine ⟨_, rfl, ?_⟩
          simp only [List.map_cons, List.take_succ_cons]
          by_cases hgt : f x > f y
          · rw [if_pos hgt]; exact .inr (.inr ⟨rfl, .inl hgt⟩)
          · rw [if_neg hgt, if_pos (by omega)]; exact .inl ⟨rfl, .inl (by omega)⟩

theorem drop_cells (v : WStr) (i : Int) (h0 : 0 ≤ i) (h1 : i ≤ v.length) : (cells v).drop i.toNat = v.drop i.toNat ++ [0] := by
  unfold cells
  rw [List.drop_append_of_le_length (by omega)]

/-- **C153**, `CompareOrdinal(a, i, b, j, n)` (partial: no NUL in the strings, positions inside them): the order of the at most `n` characters from `i` and from `j`. Missing: `C153_refuted`. -/
theorem C153_ordinal_partial (L : Locale) (a b : WStr) (ha : 0 ∉ a) (hb : 0 ∉ b) (i j n : Int) (hi : 0 ≤ i ∧ i ≤ a.length) (hj : 0 ≤ j ∧ j ≤ b.length) :
    ∃ r, compareOrdinalRange L (some a) i (some b) j n = .ok r ∧ Tells r (slice a i.toNat n.toNat) (slice b j.toNat n.toNat) := by
  obtain ⟨r, h1, h2⟩ := cmpLoop_range L false true (.inr rfl) id rfl rfl (a.drop i.toNat) (b.drop j.toNat) n.toNat
    (fun c h e => ha (by rw [← show c = 0 from e]; exact List.mem_of_mem_drop h)) (fun c h e => hb (by rw [← show c = 0 from e]; exact List.mem_of_mem_drop h))
  refine ⟨r, ?_, by simpa [slice] using h2⟩
  unfold compareOrdinalRange compareAt compareAt.v1 compareAt.v2
  simp only [cells_length]
  rw [if_neg (by omega), drop_cells a i hi.1 hi.2, drop_cells b j hj.1 hj.2, h1]

/-- **C153**, `Compare(a, i, b, j, n, true)` (partial as above; a locale whose lower case of a character is not NUL): the order of the characters in lower case. -/
theorem C153_ignore_case_partial (L : Locale) (h0 : ∀ c, L.toLower c = 0 ↔ c = 0) (a b : WStr) (ha : 0 ∉ a) (hb : 0 ∉ b) (i j n : Int) (hi : 0 ≤ i ∧ i ≤ a.length) (hj : 0 ≤ j ∧ j ≤ b.length) :
    ∃ r, compareRange L (some a) i (some b) j n true = .ok r ∧ Tells r ((slice a i.toNat n.toNat).map L.toLower) ((slice b j.toNat n.toNat).map L.toLower) := by
  obtain ⟨r, h1, h2⟩ := cmpLoop_range L true false (.inl rfl) L.toLower rfl ((h0 0).2 rfl) (a.drop i.toNat) (b.drop j.toNat) n.toNat
    (fun c h e => ha (by rw [← (h0 c).1 e]; exact List.mem_of_mem_drop h)) (fun c h e => hb (by rw [← (h0 c).1 e]; exact List.mem_of_mem_drop h))
  refine ⟨r, ?_, by simpa [slice, List.map_take] using h2⟩
  unfold compareRange compareAt compareAt.v1 compareAt.v2
  simp only [cells_length]
  rw [if_neg (by omega), drop_cells a i hi.1 hi.2, drop_cells b j hj.1 hj.2, h1]

/-- What one step of the loop that looks at case decides. -/
def caseStep (L : Locale) (x y : Nat) : Option Int :=
  if L.isUpper x = true ∧ L.isLower y = true then some 1 else if L.isUpper y = true ∧ L.isLower x = true then some (-1) else
    if x = 0 ∨ x ≠ y then some (if x > y then 1 else if x < y then -1 else 0) else none

theorem caseStep_ne (L : Locale) (hd : ∀ c, ¬ (L.isUpper c = true ∧ L.isLower c = true)) (x y : Nat) (h : x ≠ y) : ∃ r : Int, caseStep L x y = some r ∧ caseStep L y x = some (-r) ∧ (r = 1 ∨ r = -1) := by
  unfold caseStep
  by_cases u1 : L.isUpper x = true ∧ L.isLower y = true
  · have u2 : ¬ (L.isUpper y = true ∧ L.isLower x = true) := fun h => hd x ⟨u1.1, h.2⟩
    rw [if_pos u1, if_neg u2, if_pos u1]
    exact ⟨1, rfl, rfl, .inl rfl⟩
  · by_cases u2 : L.isUpper y = true ∧ L.isLower x = true
    · rw [if_neg u1, if_pos u2, if_pos u2]
      exact ⟨-1, rfl, rfl, .inr rfl⟩
    · rw [if_neg u1, if_neg u2, if_neg u2, if_neg u1, if_pos (Or.inr h), if_pos (Or.inr (fun e => h e.symm))]
      by_cases hgt : x > y
      · rw [if_pos hgt, if_neg (show ¬ y > x by omega), if_pos (show y < x by omega)]
        exact ⟨1, rfl, rfl, .inl rfl⟩
      · rw [if_neg hgt, if_pos (show x < y by omega), if_pos (show y > x by omega)]
        exact ⟨-1, rfl, rfl, .inr rfl⟩

/-- The loop that looks at case: equality and antisymmetry. -/
theorem cmpLoop_case (L : Locale) (hd : ∀ c, ¬ (L.isUpper c = true ∧ L.isLower c = true)) :
    ∀ (a b : WStr) (n : Nat), 0 ∉ a → 0 ∉ b →
      ∃ r, cmpLoop L false false (a ++ [0]) (b ++ [0]) n = .ok r ∧ cmpLoop L false false (b ++ [0]) (a ++ [0]) n = .ok (-r) ∧ (r = 0 ∨ r = 1 ∨ r = -1) ∧ (r = 0 ↔ a.take n = b.take n) := by
  have step : ∀ x y s t n, cmpLoop L false false (x :: s) (y :: t) (n + 1) = match caseStep L x y with | some r => .ok r | none => cmpLoop L false false s t n := by
    intro x y s t n
    rw [cmpLoop]
    unfold caseStep
    simp only [Bool.false_eq_true, if_false, true_and]
    split
    · rfl
    · split
      · rfl
      · split <;> rfl
  intro a
  induction a with
  | nil =>
    intro b n _ hb
    cases n with
    | zero => exact ⟨0, by simp [cmpLoop], by simp [cmpLoop], by simp, by simp⟩
    | succ n =>
      cases b with
      | nil =>
        have : caseStep L 0 0 = some 0 := by unfold caseStep; rw [if_neg (hd 0), if_neg (hd 0)]; rfl
        exact ⟨0, by simp [step, this], by simp [step, this], by simp, by simp⟩
      | cons y b =>
        obtain ⟨r, h1, h2, h3⟩ := caseStep_ne L hd 0 y (fun h => hb (by simp [h]))
        exact ⟨r, by simp [step, h1], by simp [step, h2], by omega, by simp; omega⟩
  | cons x a ih =>
    intro b n ha hb
    cases n with
    | zero => exact ⟨0, by simp [cmpLoop], by simp [cmpLoop], by simp, by simp⟩
    | succ n =>
      have hx : x ≠ 0 := fun h => ha (by simp [h])
      cases b with
      | nil =>
        obtain ⟨r, h1, h2, h3⟩ := caseStep_ne L hd x 0 hx
        exact ⟨r, by simp [step, h1], by simp [step, h2], by omega, by simp; omega⟩
      | cons y b =>
        rw [List.cons_append, List.cons_append, step, step]
        by_cases hxy : x = y
        · subst hxy
          have : caseStep L x x = none := by unfold caseStep; rw [if_neg (hd x), if_neg (hd x), if_neg (by simp [hx])]
          obtain ⟨r, h1, h2, h3, h4⟩ := ih b n (fun h => ha (by simp [h])) (fun h => hb (by simp [h]))
          refine ⟨r, by rw [this]; exact h1, by rw [this]; exact h2, h3, by simp [h4]⟩
        · obtain ⟨r, h1, h2, h3⟩ := caseStep_ne L hd x y hxy
          refine ⟨r, by rw [h1], by rw [h2], by omega, ?_⟩
          simp [hxy]; omega

/-- **C153**, `Compare(a, i, b, j, n, false)` (partial as above; a locale in which no character is both upper and lower case): 0 exactly when the characters are the same, and swapping the operands flips the sign. -/
theorem C153_compare_partial (L : Locale) (hd : ∀ c, ¬ (L.isUpper c = true ∧ L.isLower c = true)) (a b : WStr) (ha : 0 ∉ a) (hb : 0 ∉ b)
    (i j n : Int) (hi : 0 ≤ i ∧ i ≤ a.length) (hj : 0 ≤ j ∧ j ≤ b.length) :
    ∃ r, compareRange L (some a) i (some b) j n false = .ok r ∧ compareRange L (some b) j (some a) i n false = .ok (-r) ∧ (r = 0 ∨ r = 1 ∨ r = -1) ∧
      (r = 0 ↔ slice a i.toNat n.toNat = slice b j.toNat n.toNat) := by
  obtain ⟨r, h1, h2, h3⟩ := cmpLoop_case L hd (a.drop i.toNat) (b.drop j.toNat) n.toNat (fun h => ha (List.mem_of_mem_drop h)) (fun h => hb (List.mem_of_mem_drop h))
  refine ⟨r, ?_, ?_, h3⟩ <;>
  · unfold compareRange compareAt compareAt.v1 compareAt.v2
    simp only [cells_length]
    rw [if_neg (by omega), drop_cells a i hi.1 hi.2, drop_cells b j hj.1 hj.2]
    assumption

example : compareOrdinalRange cLocale (some (w "xabc")) 1 (some (w "abd")) 0 2 = .ok 0 ∧ compareOrdinalRange cLocale (some (w "xabc")) 1 (some (w "abd")) 0 3 = .ok (-1) ∧
    compareOrdinalRange cLocale (some (w "xab")) 1 (some (w "abd")) 0 3 = .ok (-1) ∧ compareRange cLocale (some (w "xABC")) 1 (some (w "abc")) 0 9 true = .ok 0 ∧
    compareRange cLocale (some (w "xABC")) 1 (some (w "abc")) 0 9 false = .ok 1 ∧ (∀ c, ¬ (cLocale.isUpper c = true ∧ cLocale.isLower c = true)) ∧ (∀ c, cLocale.toLower c = 0 ↔ c = 0) := by
  refine ⟨by decide +kernel, by decide +kernel, by decide +kernel, by decide +kernel, by decide +kernel, ?_, ?_⟩
  · intro c; simp [cLocale]; omega
  · intro c; simp [cLocale]; split <;> omega

/-- **C153**, the rest refuted: a position outside its string, or a null string, is undefined behaviour instead of an exception or an ordering; a negative length compares equal instead of being rejected; and two
parts that differ after a NUL character compare equal. -/
theorem C153_refuted (L : Locale) :
    (∀ a b : WStr, ∀ i j n : Int, i < 0 ∨ i > a.length + 1 ∨ j < 0 ∨ j > b.length + 1 → compareOrdinalRange L (some a) i (some b) j n = .ub ∧ ∀ ic, compareRange L (some a) i (some b) j n ic = .ub) ∧
    (∀ (b : Option WStr) (i j n : Int), compareOrdinalRange L none i b j n = .ub ∧ ∀ ic, compareRange L none i b j n ic = .ub) ∧
    (∀ a b : WStr, ∀ n : Int, n < 0 → compareOrdinalRange L (some a) 0 (some b) 0 n = .ok 0) ∧
    compareOrdinalRange L (some [0, 1]) 0 (some [0, 2]) 0 2 = .ok 0 := by
  refine ⟨?_, fun b i j n => ⟨rfl, fun ic => rfl⟩, ?_, ?_⟩
  · intro a b i j n h
    have : i < 0 ∨ i > ((cells a).length : Int) ∨ j < 0 ∨ j > ((cells b).length : Int) := by simp only [cells_length]; omega
    exact ⟨by unfold compareOrdinalRange compareAt compareAt.v1 compareAt.v2; simp only []; rw [if_pos this], fun ic => by unfold compareRange compareAt compareAt.v1 compareAt.v2; simp only []; rw [if_pos this]⟩
  · intro a b n h
    unfold compareOrdinalRange compareAt compareAt.v1 compareAt.v2
    simp only [cells_length]
    rw [if_neg (by omega), show n.toNat = 0 by omega]
    simp [cmpLoop]
  · unfold compareOrdinalRange compareAt compareAt.v1 compareAt.v2
    simp [cells, cmpLoop]

end Verif.StrModel
