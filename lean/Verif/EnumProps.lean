import Verif.EnumModel
import Verif.ConstProps
import Mathlib.Data.Nat.Bitwise
/-!
# C147, C148: enums
-/
namespace Verif.Enum
open Verif.ConstSpec

/-! ## Reading the C++ -/

/-- Split at a separator. -/
def splitAt (c : Nat) : WStr → List WStr
  | [] => [[]]
  | x :: xs => if x = c then [] :: splitAt c xs else match splitAt c xs with
    | [] => [[x]]
    | h :: t => (x :: h) :: t

/-- White space. -/
def isWhite (c : Nat) : Bool := c == 32 || c == 9 || c == 10 || c == 13

/-- An enumerator definition: the name, and the text after `=`. -/
def readItem (t : WStr) : Option (WStr × Option WStr) :=
  match splitAt 61 (t.filter (fun c => !isWhite c)) with
  | [n] => some (n, none)
  | [n, i] => some (n, some i)
  | _ => none

def readItems : List WStr → Option (List (WStr × Option WStr))
  | [] => some []
  | t :: r => match readItem t, readItems r with
    | some a, some b => some (a :: b)
    | _, _ => none

/-- The enumerator list between the braces. -/
def readBody (t : WStr) : Option (List (WStr × Option WStr)) :=
  if t.all isWhite then some [] else readItems (splitAt 44 t)

/-- C++ ([dcl.enum]): an enumerator has the value of its constant expression, or one more than the enumerator before, or 0. -/
def cppValues (prev : Int) : List (WStr × Option WStr) → Option (List (WStr × Int))
  | [] => some []
  | (n, none) :: r => (cppValues (prev + 1) r).map ((n, prev + 1) :: ·)
  | (n, some t) :: r => match intConstant t with
    | none => none
    | some v => (cppValues v.value r).map ((n, v.value) :: ·)

/-- C#: likewise. -/
def csharpValues (prev : Int) : List Member → List (WStr × Int)
  | [] => []
  | ⟨n, none⟩ :: r => (n, prev + 1) :: csharpValues (prev + 1) r
  | ⟨n, some v⟩ :: r => (n, v) :: csharpValues v r

/-- A name: not empty, no white space, comma or `=`. -/
def Name (n : WStr) : Prop := n ≠ [] ∧ ∀ c ∈ n, isWhite c = false ∧ c ≠ 44 ∧ c ≠ 61

/-! ## C147 -/

theorem splitAt_none (c : Nat) (t : WStr) (h : c ∉ t) : splitAt c t = [t] := by
  induction t with
  | nil => rfl
  | cons x t ih =>
    unfold splitAt
    rw [if_neg (fun e => h (by rw [e]; exact List.mem_cons_self ..)), ih (fun m => h (List.mem_cons_of_mem _ m))]

theorem splitAt_cons (c : Nat) (a b : WStr) (h : c ∉ a) : splitAt c (a ++ c :: b) = a :: splitAt c b := by
  induction a with
  | nil => show splitAt c (c :: b) = _; rw [splitAt]; exact if_pos rfl
  | cons x a ih =>
    show splitAt c (x :: (a ++ c :: b)) = _
    rw [splitAt, if_neg (fun e => h (by rw [e]; exact List.mem_cons_self ..)), ih (fun m => h (List.mem_cons_of_mem _ m))]

theorem filter_white (t : WStr) (h : ∀ c ∈ t, isWhite c = true) : t.filter (fun c => !isWhite c) = [] := by
  rw [List.filter_eq_nil_iff]; intro c hc; rw [h c hc]; simp

theorem filter_dark (t : WStr) (h : ∀ c ∈ t, isWhite c = false) : t.filter (fun c => !isWhite c) = t := by
  rw [List.filter_eq_self]; intro c hc; rw [h c hc]; rfl

theorem dec_plain (v : Int) : ∀ c ∈ decInt v, isWhite c = false ∧ c ≠ 44 ∧ c ≠ 61 := by
  intro c hc
  rcases Const.decInt_chars v c hc with rfl | h
  · decide
  · rw [isDigit_iff] at h
    unfold isWhite
    refine ⟨?_, by omega, by omega⟩
    simp only [Bool.or_eq_false_iff, beq_eq_false_iff_ne]
    omega

theorem readItem_text (pre : WStr) (hp : ∀ c ∈ pre, isWhite c = true) (m : Member) (hm : Name m.name) :
    readItem (pre ++ memberText m) = some (m.name, m.init.map decInt) := by
  obtain ⟨n, i⟩ := m
  unfold readItem memberText
  rw [List.filter_append, filter_white pre hp, List.nil_append, List.filter_append, filter_dark n (fun c hc => (hm.2 c hc).1)]
  cases i with
  | none =>
    simp only [List.filter_nil, List.append_nil]
    rw [splitAt_none 61 n (fun h => (hm.2 61 h).2.2 rfl)]
    rfl
  | some v =>
    simp only []
    rw [List.filter_append, filter_dark (decInt v) (fun c hc => (dec_plain v c hc).1)]
    rw [show (w " = ").filter (fun c => !isWhite c) = [61] by decide +kernel, List.singleton_append]
    rw [splitAt_cons 61 n _ (fun h => (hm.2 61 h).2.2 rfl), splitAt_none 61 _ (fun h => (dec_plain v 61 h).2.2 rfl)]
    rfl

theorem member_no_comma (pre : WStr) (hp : ∀ c ∈ pre, isWhite c = true) (m : Member) (hm : Name m.name) : 44 ∉ pre ++ memberText m := by
  intro h
  rcases List.mem_append.1 h with h | h
  · have := hp 44 h; revert this; decide
  · unfold memberText at h
    rcases List.mem_append.1 h with h | h
    · exact (hm.2 44 h).2.1 rfl
    · cases hi : m.init with
      | none => rw [hi] at h; simp at h
      | some v =>
        rw [hi] at h
        simp only [] at h
        rcases List.mem_append.1 h with h | h
        · revert h; decide +kernel
        · exact (dec_plain v 44 h).2.1 rfl

theorem readItems_text (nl indent : WStr) (hn : ∀ c ∈ nl, isWhite c = true) (hi : ∀ c ∈ indent, isWhite c = true) (ms : List Member) (hm : ∀ m ∈ ms, Name m.name) (hne : ms ≠ []) :
    ∀ pre, (∀ c ∈ pre, isWhite c = true) → readItems (splitAt 44 (pre ++ bodyText nl indent ms)) = some (ms.map (fun m => (m.name, m.init.map decInt))) := by
  induction ms with
  | nil => exact absurd rfl hne
  | cons m ms ih =>
    intro pre hp
    have hpi : ∀ c ∈ pre ++ indent, isWhite c = true := by
      intro c hc; rcases List.mem_append.1 hc with hc | hc
      · exact hp c hc
      · exact hi c hc
    have h1 := hm m (List.mem_cons_self ..)
    cases ms with
    | nil =>
      show readItems (splitAt 44 (pre ++ (indent ++ memberText m))) = _
      rw [← List.append_assoc, splitAt_none 44 _ (member_no_comma _ hpi m h1)]
      unfold readItems
      rw [readItem_text _ hpi m h1]
      rfl
    | cons m2 ms =>
      show readItems (splitAt 44 (pre ++ (indent ++ memberText m ++ [44] ++ nl ++ bodyText nl indent (m2 :: ms)))) = _
      rw [show pre ++ (indent ++ memberText m ++ [44] ++ nl ++ bodyText nl indent (m2 :: ms)) = (pre ++ indent ++ memberText m) ++ 44 :: (nl ++ bodyText nl indent (m2 :: ms)) by simp]
      rw [splitAt_cons 44 _ _ (member_no_comma _ hpi m h1)]
      unfold readItems
      rw [readItem_text _ hpi m h1, ih (fun x hx => hm x (List.mem_cons_of_mem _ hx)) (by simp) nl hn]
      rfl

theorem body_not_white (nl indent : WStr) (ms : List Member) (hm : ∀ m ∈ ms, Name m.name) (hne : ms ≠ []) : (bodyText nl indent ms).all isWhite = false := by
  cases ms with
  | nil => exact absurd rfl hne
  | cons m ms =>
    obtain ⟨h1, h2⟩ := hm m (List.mem_cons_self ..)
    cases hn : m.name with
    | nil => exact absurd hn h1
    | cons c cs =>
      have hc := (h2 c (by rw [hn]; exact List.mem_cons_self ..)).1
      rw [List.all_eq_false]
      refine ⟨c, ?_, by rw [hc]; simp⟩
      cases ms with
      | nil => simp [bodyText, memberText, hn]
      | cons m2 ms => simp [bodyText, memberText, hn]

theorem values_same (ms : List Member) (hv : ∀ m ∈ ms, ∀ v, m.init = some v → I64 v ∧ v ≠ -9223372036854775808) : ∀ prev,
    cppValues prev (ms.map (fun m => (m.name, m.init.map decInt))) = some (csharpValues prev ms) := by
  induction ms with
  | nil => intro prev; rfl
  | cons m ms ih =>
    intro prev
    obtain ⟨n, i⟩ := m
    have ih' := ih (fun m hm => hv m (List.mem_cons_of_mem _ hm))
    cases i with
    | none =>
      show (cppValues (prev + 1) _).map _ = _
      rw [ih']; rfl
    | some v =>
      obtain ⟨h1, h2⟩ := hv _ (List.mem_cons_self ..) v rfl
      have := Const.intConstant_dec v h1 h2
      show cppValues prev ((n, some (decInt v)) :: _) = _
      unfold cppValues
      rw [this]
      simp only [ih', Option.map_some]
      rfl

/-- **C147** (partial: initialisers other than the least `long`): the C++ enum defines the members of the source, in order, with their values: explicit ones and those counted up from the member before. -/
theorem C147_values_partial (nl indent : WStr) (hn : ∀ c ∈ nl, isWhite c = true) (hi : ∀ c ∈ indent, isWhite c = true) (ms : List Member) (hm : ∀ m ∈ ms, Name m.name)
    (hv : ∀ m ∈ ms, ∀ v, m.init = some v → I64 v ∧ v ≠ -9223372036854775808) :
    (readBody (bodyText nl indent ms)).bind (cppValues (-1)) = some (csharpValues (-1) ms) := by
  by_cases hne : ms = []
  · subst hne; rfl
  · unfold readBody
    rw [if_neg (by rw [body_not_white nl indent ms hm hne]; simp)]
    have := readItems_text nl indent hn hi ms hm hne [] (by simp)
    rw [List.nil_append] at this
    rw [this, Option.bind_some, values_same ms hv]

/-- `enum E { A, B = 5, C, D = -2, F }`. -/
def exMembers : List Member := [⟨w "A_E", none⟩, ⟨w "B_E", some 5⟩, ⟨w "C_E", none⟩, ⟨w "D_E", some (-2)⟩, ⟨w "F_E", none⟩]
example : (readBody (bodyText [13, 10] [9] exMembers)).bind (cppValues (-1)) = some [(w "A_E", 0), (w "B_E", 5), (w "C_E", 6), (w "D_E", -2), (w "F_E", -1)] ∧
    (∀ m ∈ exMembers, Name m.name) := by
  refine ⟨by decide +kernel, ?_⟩
  intro m hm
  have : exMembers.all (fun m => m.name ≠ [] ∧ m.name.all (fun c => !isWhite c && c != 44 && c != 61)) = true := by decide +kernel
  have h := List.all_eq_true.1 this m hm
  simp only [decide_eq_true_eq] at h
  refine ⟨h.1, fun c hc => ?_⟩
  have := List.all_eq_true.1 h.2 c hc
  simp only [Bool.and_eq_true, Bool.not_eq_true', bne_iff_ne, ne_eq] at this
  exact ⟨this.1.1, this.1.2, this.2⟩

/-- **C147**, the rest refuted: a member with the least `long` is no C++ constant; a `ulong` member from 2^63 on, which the decompiler gives as a negative `long`, gets a negative value and is less than the others. -/
theorem C147_refuted : (readBody (bodyText [10] [9] [⟨w "A_E", some (-9223372036854775808)⟩])).bind (cppValues (-1)) = none ∧
    (∀ u : Int, 9223372036854775808 < u → u ≤ 18446744073709551615 →
      ∃ v, (readBody (bodyText [10] [9] [⟨w "A_E", some (wrapI64 u)⟩])).bind (cppValues (-1)) = some [(w "A_E", v)] ∧ v < 0) := by
  refine ⟨by decide +kernel, ?_⟩
  intro u h1 h2
  have hw : wrapI64 u = u - 18446744073709551616 := by unfold wrapI64; omega
  have := C147_values_partial [10] [9] (by decide) (by decide) [⟨w "A_E", some (wrapI64 u)⟩] ?_ ?_
  · exact ⟨_, this, by rw [hw]; omega⟩
  · intro m hm
    rw [List.mem_singleton.1 hm]
    refine ⟨(by decide +kernel : w "A_E" ≠ []), ?_⟩
    have : (w "A_E").all (fun c => !isWhite c && c != 44 && c != 61) = true := by decide +kernel
    intro c hc
    have := List.all_eq_true.1 this c hc
    simp only [Bool.and_eq_true, Bool.not_eq_true', bne_iff_ne, ne_eq] at this
    exact ⟨this.1.1, this.1.2, this.2⟩
  · intro m hm v hv
    rw [List.mem_singleton.1 hm] at hv
    cases hv
    rw [hw]; unfold I64; omega

/-! ## C148 -/

/-- The value fits in `M` bits and a sign. -/
def Fits (M : Nat) (v : Int) : Prop := -2 ^ M ≤ v ∧ v < 2 ^ M

theorem width_lt (n M : Nat) : width n ≤ M ↔ n < 2 ^ M := by
  unfold width
  by_cases h : n = 0
  · rw [if_pos h, h]; simp [Nat.two_pow_pos]
  · rw [if_neg h, Nat.succ_le_iff, Nat.log2_lt h]

theorem max_fold (l : List Nat) (a M : Nat) : l.foldl Nat.max a ≤ M ↔ a ≤ M ∧ ∀ x ∈ l, x ≤ M := by
  induction l generalizing a with
  | nil => simp
  | cons x l ih =>
    rw [List.foldl_cons, ih]
    have : Nat.max a x ≤ M ↔ a ≤ M ∧ x ≤ M := Nat.max_le
    rw [this]
    simp only [List.mem_cons, forall_eq_or_imp]
    exact and_assoc

/-- The width of an enumeration. -/
def bits (vals : List Int) : Nat := (vals.map (fun v => width (if v < 0 then (-v - 1).toNat else v.toNat))).foldl Nat.max 0

theorem bits_le (vals : List Int) (M : Nat) : bits vals ≤ M ↔ ∀ v ∈ vals, Fits M v := by
  unfold bits
  rw [max_fold]
  simp only [Nat.zero_le, true_and, List.mem_map, forall_exists_index, and_imp, forall_apply_eq_imp_iff₂]
  have key : ∀ v : Int, width (if v < 0 then (-v - 1).toNat else v.toNat) ≤ M ↔ Fits M v := by
    intro v
    rw [width_lt]
    unfold Fits
    have e : ((2 ^ M : Nat) : Int) = 2 ^ M := by push_cast; rfl
    generalize (2 : Int) ^ M = P at *
    generalize 2 ^ M = Q at *
    split <;> omega
  constructor
  · intro h v hv; exact (key v).1 (h v hv)
  · intro h v hv; exact (key v).2 (h v hv)

theorem castTo_range (vals : List Int) (v : Int) : castTo vals v = .ok v ↔ (if ∃ e ∈ vals, e < 0 then -2 ^ bits vals ≤ v else 0 ≤ v) ∧ v < 2 ^ bits vals := by
  have hb : bmax vals = 2 ^ bits vals - 1 := rfl
  have hm : bmin vals = if ∃ e ∈ vals, e < 0 then -2 ^ bits vals else 0 := by
    unfold bmin
    rw [hb]
    by_cases h : ∃ e ∈ vals, e < 0
    · rw [if_pos (by simpa [List.any_eq_true] using h), if_pos h]; omega
    · rw [if_neg (by simpa [List.any_eq_true] using h), if_neg h]
  have h2 : castTo vals v = .ok v ↔ bmin vals ≤ v ∧ v ≤ bmax vals := by
    unfold castTo
    by_cases c : bmin vals ≤ v ∧ v ≤ bmax vals
    · rw [if_pos c]; simp [c]
    · rw [if_neg c]; simp [c]
  rw [h2, hm, hb]
  by_cases h : ∃ e ∈ vals, e < 0
  · simp only [if_pos h]; omega
  · simp only [if_neg h]; omega

/-- **C148** (exact condition): a value stored in a variable of an enum type, or passed as one, is kept exactly when it needs no more bits than the widest member (and a sign only if some member is negative);
otherwise the C++ has undefined behaviour. In C# every value of the underlying type is kept. -/
theorem C148_cast_partial (vals : List Int) (v : Int) :
    (castTo vals v = .ok v ↔ (v < 0 → ∃ e ∈ vals, e < 0) ∧ ∀ M, (∀ e ∈ vals, Fits M e) → Fits M v) ∧ (castTo vals v = .ok v ∨ castTo vals v = .ub) := by
  refine ⟨?_, ?_⟩
  · rw [castTo_range]
    have pw : ∀ M, bits vals ≤ M → (2 : Int) ^ bits vals ≤ 2 ^ M := fun M h => by
      have : (2 : Nat) ^ bits vals ≤ 2 ^ M := Nat.pow_le_pow_right (by decide) h
      exact_mod_cast this
    have pos : (0 : Int) < 2 ^ bits vals := Int.pow_pos (by decide)
    constructor
    · rintro ⟨h1, h2⟩
      by_cases h : ∃ e ∈ vals, e < 0
      · rw [if_pos h] at h1
        refine ⟨fun _ => h, fun M hM => ?_⟩
        have := pw M ((bits_le vals M).2 hM)
        unfold Fits; omega
      · rw [if_neg h] at h1
        refine ⟨fun hv => absurd hv (by omega), fun M hM => ?_⟩
        have := pw M ((bits_le vals M).2 hM)
        unfold Fits; omega
    · rintro ⟨h1, h2⟩
      obtain ⟨h3, h4⟩ := h2 (bits vals) ((bits_le vals _).1 (Nat.le_refl _))
      refine ⟨?_, h4⟩
      by_cases h : ∃ e ∈ vals, e < 0
      · rw [if_pos h]; exact h3
      · rw [if_neg h]
        by_contra c
        exact h (h1 (by omega))
  · unfold castTo
    split
    · left; rfl
    · right; rfl

/-- Values made of members with `|`, `&` and `^`. -/
inductive Combination (vals : List Int) : Int → Prop
  | member {e : Int} (h : e ∈ vals) : Combination vals e
  | none : Combination vals 0
  | or {a b : Nat} : Combination vals a → Combination vals b → Combination vals ((a ||| b : Nat) : Int)
  | and {a b : Nat} : Combination vals a → Combination vals b → Combination vals ((a &&& b : Nat) : Int)
  | xor {a b : Nat} : Combination vals a → Combination vals b → Combination vals ((a ^^^ b : Nat) : Int)

/-- **C148**, flags: in an enum without negative members every combination of members with `|`, `&` and `^` is kept. -/
theorem C148_flags (vals : List Int) (h0 : ∀ e ∈ vals, 0 ≤ e) (v : Int) (h : Combination vals v) : castTo vals v = .ok v := by
  have key : 0 ≤ v ∧ v < 2 ^ bits vals := by
    have up : ∀ n : Nat, ((n : Int) < 2 ^ bits vals ↔ n < 2 ^ bits vals) := fun n => by
      constructor <;> intro h <;> exact_mod_cast h
    induction h with
    | member h => exact ⟨h0 _ h, ((bits_le vals _).1 (Nat.le_refl _) _ h).2⟩
    | none => exact ⟨Int.le_refl _, Int.pow_pos (by decide)⟩
    | or _ _ i1 i2 => exact ⟨Int.natCast_nonneg _, (up _).2 (Nat.or_lt_two_pow ((up _).1 i1.2) ((up _).1 i2.2))⟩
    | and _ _ i1 i2 => exact ⟨Int.natCast_nonneg _, (up _).2 (Nat.and_lt_two_pow _ ((up _).1 i2.2))⟩
    | xor _ _ i1 i2 => exact ⟨Int.natCast_nonneg _, (up _).2 (Nat.xor_lt_two_pow ((up _).1 i1.2) ((up _).1 i2.2))⟩
  rw [castTo_range, if_neg (by rintro ⟨e, he, h1⟩; have := h0 e he; omega)]
  exact key

/-- `[Flags] enum F { A = 1, B = 2, C = 4 }`. -/
def exFlags : List Int := [1, 2, 4]
example : (∀ e ∈ exFlags, 0 ≤ e) ∧ Combination exFlags ((4 ||| 3 : Nat) : Int) ∧ castTo exFlags 7 = .ok 7 := by
  refine ⟨by decide, ?_, by decide +kernel⟩
  exact .or (.member (by decide)) (.or (a := 1) (b := 2) (.member (by decide)) (.member (by decide)))

/-- **C148**, the rest refuted: the complement of a flag, and a value with a bit beyond the members, are undefined. -/
theorem C148_refuted : castTo exFlags (-2) = .ub ∧ castTo exFlags 8 = .ub ∧ castTo [0, 1, 2] 100 = .ub := by decide +kernel

end Verif.Enum
