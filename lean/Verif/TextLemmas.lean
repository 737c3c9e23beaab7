import Verif.TextModel
namespace Verif

/-- Value denoted by a list of digit characters (specification of decimal notation). -/
def numeral (cs : WStr) : Nat := cs.foldl (fun acc c => 10 * acc + (c - 48)) 0

theorem numeral_append_one (cs : WStr) (c : Nat) : numeral (cs ++ [c]) = 10 * numeral cs + (c - 48) := by
  simp [numeral, List.foldl_append]

theorem decAux_spec : ∀ (fuel n : Nat), n ≤ fuel →
    numeral (decAux fuel n) = n ∧ (∀ c ∈ decAux fuel n, isDigit c = true) ∧ decAux fuel n ≠ [] := by
  intro fuel
  induction fuel with
  | zero =>
    intro n hn
    have : n = 0 := by omega
    subst this
    refine ⟨by decide, by decide, by decide⟩
  | succ f ih =>
    intro n hn
    unfold decAux
    by_cases h : n < 10
    · rw [if_pos h]
      refine ⟨?_, ?_, by simp⟩
      · simp [numeral]
      · intro c hc
        simp only [List.mem_singleton] at hc
        subst hc
        simp only [isDigit, Bool.and_eq_true, decide_eq_true_eq]; omega
    · rw [if_neg h]
      obtain ⟨i1, i2, i3⟩ := ih (n / 10) (by omega)
      refine ⟨?_, ?_, by simp⟩
      · rw [numeral_append_one, i1]; omega
      · intro c hc
        rw [List.mem_append] at hc
        rcases hc with hc | hc
        · exact i2 c hc
        · simp only [List.mem_singleton] at hc
          subst hc
          simp only [isDigit, Bool.and_eq_true, decide_eq_true_eq]; omega

theorem numeral_dec (n : Nat) : numeral (dec n) = n := (decAux_spec n n (Nat.le_refl n)).1
theorem dec_digits (n : Nat) : ∀ c ∈ dec n, isDigit c = true := (decAux_spec n n (Nat.le_refl n)).2.1
theorem dec_ne_nil (n : Nat) : dec n ≠ [] := (decAux_spec n n (Nat.le_refl n)).2.2

theorem dec_inj {a b : Nat} (h : dec a = dec b) : a = b := by
  rw [← numeral_dec a, h, numeral_dec]

/-- The fuel does not matter once it is at least the number. -/
theorem decAux_fuel : ∀ (f g n : Nat), n ≤ f → n ≤ g → decAux f n = decAux g n := by
  intro f
  induction f with
  | zero =>
    intro g n h1 h2
    have : n = 0 := by omega
    subst this
    cases g <;> simp [decAux]
  | succ f ih =>
    intro g n h1 h2
    cases g with
    | zero =>
      have : n = 0 := by omega
      subst this
      simp [decAux]
    | succ g =>
      unfold decAux
      by_cases h : n < 10
      · rw [if_pos h, if_pos h]
      · rw [if_neg h, if_neg h, ih g (n/10) (by omega) (by omega)]

/-- Recursive equation of decimal printing. -/
theorem dec_rec (n : Nat) : dec n = if n < 10 then [48 + n] else dec (n / 10) ++ [48 + n % 10] := by
  unfold dec
  cases n with
  | zero => simp [decAux]
  | succ n =>
    rw [decAux.eq_2]
    by_cases h : n + 1 < 10
    · rw [if_pos h, if_pos h]
    · rw [if_neg h, if_neg h, decAux_fuel n ((n+1)/10) ((n+1)/10) (by omega) (by omega)]

theorem isDigit_iff (c : Nat) : isDigit c = true ↔ 48 ≤ c ∧ c ≤ 57 := by
  simp [isDigit]

end Verif
