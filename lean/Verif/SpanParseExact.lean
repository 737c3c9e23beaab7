import Verif.TimeSpanTextProps
/-!
# C181: what TimeSpan.Parse does with every text
-/
namespace Verif.TimeSpan

/-! ## Specification -/

/-- A digit, and a separator: `:` or `.`. -/
def Digit (c : Nat) : Prop := 48 ≤ c ∧ c ≤ 57
def Separator (c : Nat) : Prop := c = 58 ∨ c = 46
instance (c : Nat) : Decidable (Digit c) := by unfold Digit; infer_instance
instance (c : Nat) : Decidable (Separator c) := by unfold Separator; infer_instance

/-- The numbers at the start of a text, of one or two digits, and what is left. A number is read if the text ends within two characters or one of the next two characters is a separator; the character behind the
digits is skipped, whatever it is. -/
def numbers : WStr → List Nat × WStr
  | [] => ([], [])
  | [c0] => if Digit c0 then ([c0 - 48], []) else ([], [c0])
  | [c0, c1] => if ¬ Digit c0 then ([], [c0, c1]) else if Digit c1 then ([10 * (c0 - 48) + (c1 - 48)], []) else ([c0 - 48], [])
  | c0 :: c1 :: c2 :: r =>
    if ¬ Digit c0 ∨ ¬ (Separator c1 ∨ Separator c2) then ([], c0 :: c1 :: c2 :: r)
    else if Digit c1 then ((10 * (c0 - 48) + (c1 - 48)) :: (numbers r).1, (numbers r).2)
    else ((c0 - 48) :: (numbers (c2 :: r)).1, (numbers (c2 :: r)).2)

/-- The digits at the start of a text as decimals of a second, in units of 10^-k seconds; at most k of them. -/
def decimals : Nat → WStr → Nat
  | k + 1, c :: r => if Digit c then (c - 48) * 10 ^ k + decimals k r else 0
  | _, _ => 0

/-- What up to four numbers mean in seconds: one number is days; two are hours and minutes; three have seconds; four have days. -/
def secondsOf : List Nat → Nat
  | [] => 0
  | [d] => d * 86400
  | [h, m] => h * 3600 + m * 60
  | [h, m, s] => h * 3600 + m * 60 + s
  | d :: h :: m :: s :: _ => d * 86400 + h * 3600 + m * 60 + s

/-- A text without its minus sign. -/
def unsigned (t : WStr) : WStr := if t.head? = some 45 then t.tail else t

/-- The ticks a text is read as. -/
def ticksOf (t : WStr) : Int :=
  (if t.head? = some 45 then -1 else 1) * ((secondsOf (numbers (unsigned t)).1 * 10000000 + decimals 7 (numbers (unsigned t)).2 : Nat) : Int)

/-! ## Proof -/

theorem digit_iff (c : Nat) : isDigit c = true ↔ Digit c := isDigit_iff c
theorem sep_iff (c : Nat) : isSep c = true ↔ Separator c := isSep_iff c
theorem sep_false (c : Nat) : isSep c = false ↔ ¬ Separator c := by rw [← sep_iff]; simp

theorem numeral1 (c : Nat) : numeral [c] = c - 48 := by simp [numeral]
theorem numeral2 (c d : Nat) : numeral [c, d] = 10 * (c - 48) + (d - 48) := by simp [numeral]

/-- The group loop with a full array. -/
theorem groups_full (L : Locale) (fuel : Nat) (c0 : Nat) (t : WStr) (nums : List Int) (h0 : isDigit c0 = true) (hn : nums.length = 4) :
    groups L (fuel + 1) ((c0 :: t) ++ [0]) ((c0 :: t).length : Nat) nums =
      match t with
      | [] => .ub
      | [_] => .ub
      | c1 :: c2 :: _ => if isSep c1 = false ∧ isSep c2 = false then .ok ((c0 :: t) ++ [0], (((c0 :: t).length : Nat) : Int), nums) else .ub := by
  have dz : isDigit 0 = false := by decide
  rw [groups, if_pos (by simp)]
  match t with
  | [] =>
    obtain ⟨p, e, hp⟩ := scan1 L c0 0 [] h0
    simp at e
    simp [peek, notSeparated, h0, dz, hn, e]
  | [c1] =>
    obtain ⟨p, e, hp⟩ := scan1 L c0 c1 [0] h0
    by_cases h1 : isDigit c1 = true
    · obtain ⟨p, e, hp⟩ := scan2 L c0 c1 0 [] h0 h1
      simp at e
      simp [peek, notSeparated, h0, h1, hn, e]
    · simp at e
      simp [peek, notSeparated, h0, h1, hn, e]
  | c1 :: c2 :: r =>
    have hns := notSeparated_eq c0 c1 c2 r
    rw [hns]
    by_cases hb : isSep c1 = false ∧ isSep c2 = false
    · simp [peek, h0, hb]
    · have hb' : decide (isSep c1 = false ∧ isSep c2 = false) = false := by simp [hb]
      rw [hb']
      simp only [if_neg hb]
      by_cases h1 : isDigit c1 = true
      · obtain ⟨p, e, hp⟩ := scan2 L c0 c1 c2 (r ++ [0]) h0 h1
        simp at e
        simp [peek, h0, h1, hn, e]
      · obtain ⟨p, e, hp⟩ := scan1 L c0 c1 (c2 :: r ++ [0]) h0
        simp at e
        simp [peek, h0, h1, hn, e]

/-- Where the loop ends: at the rest of the text, or past its end. -/
def At (mem : List Nat) (len : Int) (rest : WStr) : Prop := (len ≤ 0 ∧ rest = []) ∨ (mem = rest ++ [0] ∧ len = (rest.length : Nat))

theorem groups_exact (L : Locale) : ∀ (fuel : Nat) (t : WStr) (nums : List Int), t.length < fuel → nums.length ≤ 4 →
    if 4 < nums.length + (numbers t).1.length then groups L fuel (t ++ [0]) (t.length : Nat) nums = .ub
    else ∃ mem len, groups L fuel (t ++ [0]) (t.length : Nat) nums = .ok (mem, len, nums ++ (numbers t).1.map Int.ofNat) ∧ At mem len (numbers t).2 := by
  intro fuel
  induction fuel with
  | zero => intro t nums h; omega
  | succ fuel ih =>
    intro t nums hlen hn
    have halt : ∀ c0 s, t = c0 :: s → ¬ Digit c0 → numbers t = ([], t) → if 4 < nums.length + (numbers t).1.length then groups L (fuel + 1) (t ++ [0]) (t.length : Nat) nums = .ub
        else ∃ mem len, groups L (fuel + 1) (t ++ [0]) (t.length : Nat) nums = .ok (mem, len, nums ++ (numbers t).1.map Int.ofNat) ∧ At mem len (numbers t).2 := by
      intro c0 s e h0 hN
      rw [hN, if_neg (by simp; omega)]
      have h0 : isDigit c0 = false := by rw [← digit_iff] at h0; simpa using h0
      refine ⟨t ++ [0], (t.length : Nat), ?_, .inr ⟨rfl, rfl⟩⟩
      rw [e, groups, if_pos (by simp only [List.length_cons]; omega)]
      simp [peek, h0]
    have last : ∀ (mem : List Nat) (len : Int) (x : Nat), len ≤ 0 → groups L (fuel + 1) (t ++ [0]) (t.length : Nat) nums = (if nums.length = 4 then .ub else groups L fuel mem len (nums ++ [(x : Int)])) → numbers t = ([x], []) →
        0 < fuel → if 4 < nums.length + (numbers t).1.length then groups L (fuel + 1) (t ++ [0]) (t.length : Nat) nums = .ub
        else ∃ mem len, groups L (fuel + 1) (t ++ [0]) (t.length : Nat) nums = .ok (mem, len, nums ++ (numbers t).1.map Int.ofNat) ∧ At mem len (numbers t).2 := by
      intro mem len x hl e hN hf
      obtain ⟨f, rfl⟩ : ∃ k, fuel = k + 1 := ⟨fuel - 1, by omega⟩
      rw [hN, e]
      by_cases h4 : nums.length = 4
      · rw [if_pos (by simp; omega), if_pos h4]
      · rw [if_neg (by simp; omega), if_neg h4, groups_done L f _ _ _ hl]
        exact ⟨_, _, rfl, .inl ⟨hl, rfl⟩⟩
    have more : ∀ (u : WStr) (x : Nat), groups L (fuel + 1) (t ++ [0]) (t.length : Nat) nums = (if nums.length = 4 then .ub else groups L fuel (u ++ [0]) (u.length : Nat) (nums ++ [(x : Int)])) →
        numbers t = (x :: (numbers u).1, (numbers u).2) → u.length < fuel →
        if 4 < nums.length + (numbers t).1.length then groups L (fuel + 1) (t ++ [0]) (t.length : Nat) nums = .ub
        else ∃ mem len, groups L (fuel + 1) (t ++ [0]) (t.length : Nat) nums = .ok (mem, len, nums ++ (numbers t).1.map Int.ofNat) ∧ At mem len (numbers t).2 := by
      intro u x e hN hu
      rw [hN, e]
      by_cases h4 : nums.length = 4
      · rw [if_pos (by simp; omega), if_pos h4]
      · rw [if_neg h4]
        have := ih u (nums ++ [(x : Int)]) hu (by simp; omega)
        simp only [List.length_append, List.length_cons, List.length_nil, List.map_cons, List.append_assoc, List.singleton_append] at this ⊢
        rw [show nums.length + ((numbers u).1.length + 1) = nums.length + (0 + 1) + (numbers u).1.length by omega]
        exact this
    match t, hlen with
    | [], _ => 
      rw [show numbers [] = ([], []) from rfl, if_neg (by simp; omega)]
      exact ⟨[] ++ [0], (([] : WStr).length : Nat), by rw [groups_done L fuel _ _ _ (by simp)]; rw [List.map_nil, List.append_nil], .inl ⟨by simp, rfl⟩⟩
    | [c0], hlen =>
      by_cases h0 : Digit c0
      · have hN : numbers [c0] = ([c0 - 48], []) := by rw [numbers, if_pos h0]
        refine last [] (-1) (c0 - 48) (by decide) ?_ hN (by simp at hlen; omega)
        by_cases h4 : nums.length = 4
        · rw [if_pos h4]; exact groups_full L fuel c0 [] nums ((digit_iff _).2 h0) h4
        · rw [if_neg h4, ← numeral1]; exact groups_step L fuel c0 [] nums ((digit_iff _).2 h0) (by omega)
      · exact halt c0 [] rfl h0 (by rw [numbers, if_neg h0])
    | [c0, c1], hlen =>
      by_cases h0 : Digit c0
      · by_cases h1 : Digit c1
        · have hN : numbers [c0, c1] = ([10 * (c0 - 48) + (c1 - 48)], []) := by rw [numbers, if_neg (not_not_intro h0), if_pos h1]
          refine last [] (-1) _ (by decide) ?_ hN (by simp at hlen; omega)
          by_cases h4 : nums.length = 4
          · rw [if_pos h4]; exact groups_full L fuel c0 [c1] nums ((digit_iff _).2 h0) h4
          · rw [if_neg h4, ← numeral2, groups_step L fuel c0 [c1] nums ((digit_iff _).2 h0) (by omega)]
            simp only [(digit_iff _).2 h1, if_true]
        · have hN : numbers [c0, c1] = ([c0 - 48], []) := by rw [numbers, if_neg (not_not_intro h0), if_neg h1]
          refine last [0] 0 _ (by decide) ?_ hN (by simp at hlen; omega)
          by_cases h4 : nums.length = 4
          · rw [if_pos h4]; exact groups_full L fuel c0 [c1] nums ((digit_iff _).2 h0) h4
          · rw [if_neg h4, ← numeral1, groups_step L fuel c0 [c1] nums ((digit_iff _).2 h0) (by omega)]
            simp only []
            rw [if_neg (fun h => h1 ((digit_iff _).1 h))]
      · exact halt c0 [c1] rfl h0 (by rw [numbers, if_pos h0])
    | c0 :: c1 :: c2 :: r, hlen =>
      simp only [List.length_cons] at hlen
      by_cases h0 : Digit c0
      · by_cases hs : Separator c1 ∨ Separator c2
        · have hns : ¬ (isSep c1 = false ∧ isSep c2 = false) := by
            rw [sep_false, sep_false]; exact fun h => hs.elim h.1 h.2
          have hg : ¬ (¬ Digit c0 ∨ ¬ (Separator c1 ∨ Separator c2)) := by simp [h0, hs]
          have full : nums.length = 4 → groups L (fuel + 1) ((c0 :: c1 :: c2 :: r) ++ [0]) ((c0 :: c1 :: c2 :: r).length : Nat) nums = .ub := by
            intro h4
            rw [groups_full L fuel c0 (c1 :: c2 :: r) nums ((digit_iff _).2 h0) h4]
            simp only []
            rw [if_neg hns]
          by_cases h1 : Digit c1
          · refine more r (10 * (c0 - 48) + (c1 - 48)) ?_ (by rw [numbers, if_neg hg, if_pos h1]) (by omega)
            by_cases h4 : nums.length = 4
            · rw [if_pos h4]; exact full h4
            · rw [if_neg h4, ← numeral2, groups_step L fuel c0 (c1 :: c2 :: r) nums ((digit_iff _).2 h0) (by omega)]
              simp only []
              rw [if_neg hns, if_pos ((digit_iff _).2 h1)]
          · refine more (c2 :: r) (c0 - 48) ?_ (by rw [numbers, if_neg hg, if_neg h1]) (by simp only [List.length_cons]; omega)
            by_cases h4 : nums.length = 4
            · rw [if_pos h4]; exact full h4
            · rw [if_neg h4, ← numeral1, groups_step L fuel c0 (c1 :: c2 :: r) nums ((digit_iff _).2 h0) (by omega)]
              simp only []
              rw [if_neg hns, if_neg (fun h => h1 ((digit_iff _).1 h))]
        · have hns : isSep c1 = false ∧ isSep c2 = false := by
            rw [sep_false, sep_false]; exact ⟨fun h => hs (.inl h), fun h => hs (.inr h)⟩
          have hN : numbers (c0 :: c1 :: c2 :: r) = ([], c0 :: c1 :: c2 :: r) := by rw [numbers, if_pos (.inr hs)]
          rw [hN, if_neg (by simp; omega)]
          refine ⟨_, _, ?_, .inr ⟨rfl, rfl⟩⟩
          by_cases h4 : nums.length = 4
          · rw [groups_full L fuel c0 (c1 :: c2 :: r) nums ((digit_iff _).2 h0) h4]
            simp only []
            rw [if_pos hns]; simp
          · rw [groups_step L fuel c0 (c1 :: c2 :: r) nums ((digit_iff _).2 h0) (by omega)]
            simp only []
            rw [if_pos hns]; simp
      · exact halt c0 (c1 :: c2 :: r) rfl h0 (by rw [numbers, if_pos (.inl h0)])

theorem numbers_le : ∀ (t : WStr), ∀ n ∈ (numbers t).1, n ≤ 99
  | [] => by simp [numbers]
  | [c0] => by rw [numbers]; split <;> simp; rename_i h; unfold Digit at h; omega
  | [c0, c1] => by
    rw [numbers]
    split
    · simp
    · split <;> (rename_i h h'; unfold Digit at h; simp)
      · unfold Digit at h'; omega
      · omega
  | c0 :: c1 :: c2 :: r => by
    rw [numbers]
    split
    · simp
    · rename_i h
      have h0 : Digit c0 := by
        by_cases h0 : Digit c0
        · exact h0
        · exact absurd (Or.inl h0) h
      unfold Digit at h0
      split
      · rename_i h'
        unfold Digit at h'
        intro n hn
        rcases List.mem_cons.1 hn with e | e
        · omega
        · exact numbers_le r n e
      · intro n hn
        rcases List.mem_cons.1 hn with e | e
        · omega
        · exact numbers_le (c2 :: r) n e

theorem fraction_exact : ∀ (j fuel : Nat) (mem : List Nat) (len acc : Int) (rest : WStr), At mem len rest → j < fuel →
    fraction fuel mem len ((10 ^ j : Nat) : Int) acc = .ok (acc + (decimals j rest : Nat)) := by
  intro j
  induction j with
  | zero =>
    intro fuel mem len acc rest _ hj
    obtain ⟨fuel, rfl⟩ : ∃ k, fuel = k + 1 := ⟨fuel - 1, by omega⟩
    rw [fraction, if_neg (by simp)]
    cases rest <;> simp [decimals]
  | succ j ih =>
    intro fuel mem len acc rest ha hj
    obtain ⟨fuel, rfl⟩ : ∃ k, fuel = k + 1 := ⟨fuel - 1, by omega⟩
    have hp : 0 < 10 ^ j := Nat.pos_of_ne_zero (by simp)
    have e10 : 10 ^ (j + 1) = 10 ^ j * 10 := Nat.pow_succ ..
    cases rest with
    | nil =>
      have : len ≤ 0 := by
        rcases ha with ⟨h, _⟩ | ⟨_, h⟩
        · exact h
        · rw [h]; simp
      rw [fraction_none _ _ _ _ _ this]; simp [decimals]
    | cons c t =>
      rcases ha with ⟨_, h⟩ | ⟨rfl, rfl⟩
      · exact nomatch h
      · rw [fraction, if_pos (by constructor <;> (try simp only [List.length_cons]) <;> omega)]
        simp only [peek, List.cons_append, List.getElem?_cons_zero, Res.bind_ok]
        rw [decimals]
        by_cases hc : isDigit c = true
        · have hcd := digit_facts hc
          rw [if_pos ((digit_iff _).1 hc)]
          simp only [hc, if_true, advance, List.length_cons]
          rw [if_pos (by omega)]
          simp only [Res.bind_ok, List.drop_succ_cons, List.drop_zero]
          rw [show ((t.length + 1 : Nat) : Int) - 1 = ((t.length : Nat) : Int) by omega, pow10_tdiv]
          rw [ih fuel _ _ _ t (.inr ⟨rfl, rfl⟩) (by omega)]
          have e3 : ((c : Int) - 48) = ((c - 48 : Nat) : Int) := by omega
          rw [e3]
          have e4 : ((c - 48 : Nat) : Int) * ((10 ^ j : Nat) : Int) = (((c - 48) * 10 ^ j : Nat) : Int) := by push_cast; rfl
          rw [e4, Int.add_assoc, ← Int.natCast_add]
        · rw [if_neg (fun h => hc ((digit_iff _).2 h))]
          have hc' : isDigit c = false := by simpa using hc
          rw [hc']; simp

theorem decimals_lt : ∀ (j : Nat) (t : WStr), decimals j t < 10 ^ j := by
  intro j
  induction j with
  | zero => intro t; cases t <;> simp [decimals]
  | succ j ih =>
    intro t
    have hp : 0 < 10 ^ j := Nat.pos_of_ne_zero (by simp)
    have e10 : 10 ^ (j + 1) = 10 ^ j * 10 := Nat.pow_succ ..
    cases t with
    | nil => rw [decimals]; omega; simp
    | cons c t =>
      rw [decimals]
      split
      · rename_i h
        unfold Digit at h
        have := ih t
        have hm : (c - 48) * 10 ^ j ≤ 9 * 10 ^ j := Nat.mul_le_mul_right _ (by omega)
        omega
      · omega

theorem finish_exact (neg : Bool) (ns : List Nat) (fr : Nat) (hl : ns.length ≤ 4) (hns : ∀ n ∈ ns, n ≤ 99) (hf : fr < 10000000) :
    finish neg (ns.map Int.ofNat) fr = .ok ((if neg = true then -1 else 1) * ((secondsOf ns * 10000000 + fr : Nat) : Int)) := by
  have e : ∀ x : Int, -9000000000000000000 ≤ x → x ≤ 9000000000000000000 → i64 x = .ok x := by
    intro x h1 h2; exact i64_ok (by unfold I64; omega)
  unfold finish TicksPerDay TicksPerHour TicksPerMinute TicksPerSecond
  match ns, hl, hns with
  | [], _, _ =>
    simp [number, secondsOf]
    repeat (rw [e _ (by omega) (by omega)]; simp only [Res.bind_ok])
    cases neg <;> simp
    rw [e _ (by omega) (by omega)]
  | [a], _, h =>
    have := h a (by simp)
    simp [number, secondsOf]
    repeat (rw [e _ (by omega) (by omega)]; simp only [Res.bind_ok])
    cases neg <;> simp
    · omega
    · rw [e _ (by omega) (by omega)]; congr 1; omega
  | [a, b], _, h =>
    have := h a (by simp)
    have := h b (by simp)
    simp [number, secondsOf]
    repeat (rw [e _ (by omega) (by omega)]; simp only [Res.bind_ok])
    cases neg <;> simp
    · omega
    · rw [e _ (by omega) (by omega)]; congr 1; omega
  | [a, b, c], _, h =>
    have := h a (by simp)
    have := h b (by simp)
    have := h c (by simp)
    simp [number, secondsOf]
    repeat (rw [e _ (by omega) (by omega)]; simp only [Res.bind_ok])
    cases neg <;> simp
    · omega
    · rw [e _ (by omega) (by omega)]; congr 1; omega
  | [a, b, c, d], _, h =>
    have := h a (by simp)
    have := h b (by simp)
    have := h c (by simp)
    have := h d (by simp)
    simp [number, secondsOf]
    repeat (rw [e _ (by omega) (by omega)]; simp only [Res.bind_ok])
    cases neg <;> simp
    · omega
    · rw [e _ (by omega) (by omega)]; congr 1; omega

theorem tryParse_exact (L : Locale) (t : WStr) :
    tryParse L t = if 4 < (numbers (unsigned t)).1.length then .ub else .ok (true, ticksOf t) := by
  have hT : TicksPerSecond = ((10 ^ 7 : Nat) : Int) := by decide
  have rest : ∀ (neg : Bool) (fuel : Nat) (u : WStr), u.length < fuel →
      ((do
        let (mem, len, nums) ← groups L fuel (u ++ [0]) (u.length : Nat) []
        let fr ← fraction 8 mem len TicksPerSecond 0
        let ticks ← finish neg nums fr
        .ok (true, ticks)) : Res (Bool × Int)) =
      if 4 < (numbers u).1.length then .ub else .ok (true, (if neg = true then -1 else 1) * ((secondsOf (numbers u).1 * 10000000 + decimals 7 (numbers u).2 : Nat) : Int)) := by
    intro neg fuel u hl
    have := groups_exact L fuel u [] hl (by simp)
    simp only [List.length_nil, Nat.zero_add, List.nil_append] at this
    by_cases h4 : 4 < (numbers u).1.length
    · rw [if_pos h4] at this ⊢
      rw [this]; rfl
    · rw [if_neg h4] at this ⊢
      obtain ⟨mem, len, e, ha⟩ := this
      rw [e]; simp only [Res.bind_ok]
      rw [hT, fraction_exact 7 8 mem len 0 _ ha (by omega), Int.zero_add]; simp only [Res.bind_ok]
      rw [finish_exact neg _ _ (by omega) (numbers_le u) (decimals_lt 7 _)]; simp only [Res.bind_ok]
  unfold tryParse ticksOf unsigned
  cases t with
  | nil =>
    simp only [List.nil_append, peek, List.getElem?_cons_zero, Res.bind_ok]
    exact rest false 1 [] (by simp)
  | cons c t =>
    simp only [List.cons_append, peek, List.getElem?_cons_zero, Res.bind_ok]
    by_cases hc : c = 45
    · subst hc
      simp only [BEq.rfl, if_true, List.drop_succ_cons, List.drop_zero]
      rw [show (((45 :: t).length : Nat) : Int) - 1 = ((t.length : Nat) : Int) by simp]
      simp only [List.head?_cons, if_true, List.tail_cons]
      exact rest true _ t (by simp; omega)
    · have hb : (c == 45) = false := by simpa using hc
      simp only [hb, Bool.false_eq_true, if_false]
      have hh : ¬ ((c :: t).head? = some 45) := by simpa using hc
      rw [if_neg hh, if_neg hh]
      exact rest false _ (c :: t) (by simp)

/-- **C181**: `TimeSpan.Parse` and `TryParse`, for every text: undefined exactly when more than four numbers are read; otherwise the ticks of the text as the specification reads it. No text is rejected. -/
theorem C181_parse (L : Locale) :
    parse L none = .throw .argumentNull ∧
    ∀ t : WStr, (4 < (numbers (unsigned t)).1.length → parse L (some t) = .ub ∧ tryParse L t = .ub) ∧
      ((numbers (unsigned t)).1.length ≤ 4 → parse L (some t) = .ok (ticksOf t) ∧ tryParse L t = .ok (true, ticksOf t)) := by
  refine ⟨rfl, fun t => ?_⟩
  have h := tryParse_exact L t
  have hp : parse L (some t) = (tryParse L t >>= fun x => if x.1 = false then .throw .format else .ok x.2) := rfl
  refine ⟨fun h4 => ?_, fun h4 => ?_⟩
  · rw [if_pos h4] at h
    exact ⟨by rw [hp, h]; rfl, h⟩
  · rw [if_neg (by omega)] at h
    exact ⟨by rw [hp, h]; simp, h⟩

/-- Texts of each kind. -/
example : (numbers (w "1.2:3:4.5678")) = ([1, 2, 3, 4], w "5678") ∧ ticksOf (w "-1.2:3:4.5678") = -(((1 * 24 + 2) * 60 + 3) * 60 + 4) * 10000000 - 5678000 ∧ (numbers (w "1:2:3:4:5")).1.length = 5 ∧
    ticksOf (w "hello") = 0 ∧ ticksOf (w "123.00:00:00") = 1230000 ∧ numbers (w "5x:7") = ([5], w ":7") := by decide +kernel

end Verif.TimeSpan
