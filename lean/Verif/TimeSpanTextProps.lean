import Verif.TimeSpanProps
import Verif.TextLemmas
/-!
# C18, C19: TimeSpan text
-/
set_option linter.unusedSimpArgs false
namespace Verif.TimeSpan

/-! ## Specification of the text of a time span -/

/-- One or two decimal digits. -/
def Group (g : WStr) : Prop := (g.length = 1 ∨ g.length = 2) ∧ ∀ c ∈ g, isDigit c = true

/-- `h:m:s`, denoting a number of seconds. -/
def ClockText (t : WStr) (secs : Nat) : Prop :=
  ∃ h m s, t = h ++ 58 :: m ++ 58 :: s ∧ Group h ∧ Group m ∧ Group s ∧
    secs = (numeral h * 60 + numeral m) * 60 + numeral s

/-- `[d.]`, denoting a number of days. -/
def DayText (t : WStr) (days : Nat) : Prop := (t = [] ∧ days = 0) ∨ ∃ g, t = g ++ [46] ∧ Group g ∧ days = numeral g

/-- `[.fff]`, a decimal fraction of a second with 3 to 7 digits, denoting a number of ticks. -/
def FractionText (t : WStr) (ticks : Nat) : Prop :=
  (t = [] ∧ ticks = 0) ∨
  ∃ f, t = 46 :: f ∧ 3 ≤ f.length ∧ f.length ≤ 7 ∧ (∀ c ∈ f, isDigit c = true) ∧
    ticks = numeral f * 10 ^ (7 - f.length)

/-- `[-][d.]h:m:s[.fff]`, denoting a number of ticks. -/
def SpanText (t : WStr) (v : Int) : Prop :=
  ∃ sg d c f days secs ticks, t = sg ++ d ++ c ++ f ∧ (sg = [] ∨ sg = [45]) ∧ DayText d days ∧ ClockText c secs ∧
    FractionText f ticks ∧
    v = (if sg = [45] then -1 else 1) * (((days * 86400 + secs) * 10000000 + ticks : Nat) : Int)

/-! ## Single steps of the parser -/

theorem digit_facts {c : Nat} (h : isDigit c = true) : 48 ≤ c ∧ c ≤ 57 := (isDigit_iff c).mp h

theorem scan1 (L : Locale) (a x : Nat) (r : List Nat) (ha : isDigit a = true) :
    ∃ p, IntVal.tryParseInternal L (a :: x :: r) ((1 : Nat) : Int) = .ok p ∧ wrapI64 p.value = numeral [a] := by
  have h := digit_facts ha
  have hs : L.isSpace a = false := L.digit_not_space a h.1 h.2
  have h0 : a ≠ 0 := by omega
  have h1 : a ≠ 45 := by omega
  have h2 : a ≠ 43 := by omega
  refine ⟨_, by simp [IntVal.tryParseInternal, IntVal.skipSpace, IntVal.readSign, IntVal.readDigits, *]; rfl, ?_⟩
  simp only [numeral, List.foldl]
  unfold wrapU64 wrapI64
  omega

theorem scan2 (L : Locale) (a b x : Nat) (r : List Nat) (ha : isDigit a = true) (hb : isDigit b = true) :
    ∃ p, IntVal.tryParseInternal L (a :: b :: x :: r) ((2 : Nat) : Int) = .ok p ∧ wrapI64 p.value = numeral [a, b] := by
  have h := digit_facts ha
  have h' := digit_facts hb
  have hs : L.isSpace a = false := L.digit_not_space a h.1 h.2
  have h0 : a ≠ 0 := by omega
  have h1 : a ≠ 45 := by omega
  have h2 : a ≠ 43 := by omega
  have h3 : b ≠ 0 := by omega
  refine ⟨_, by simp [IntVal.tryParseInternal, IntVal.skipSpace, IntVal.readSign, IntVal.readDigits, *]; rfl, ?_⟩
  simp only [numeral, List.foldl]
  unfold wrapU64 wrapI64
  omega

/-- Separators of the text. -/
def isSep (c : Nat) : Bool := c == 58 || c == 46

theorem isSep_iff (c : Nat) : isSep c = true ↔ c = 58 ∨ c = 46 := by simp [isSep]

theorem notSeparated_eq (c0 c1 c2 : Nat) (r : WStr) :
    notSeparated ((c0 :: c1 :: c2 :: r) ++ [0]) (((c0 :: c1 :: c2 :: r).length : Nat) : Int)
        = .ok (decide (isSep c1 = false ∧ isSep c2 = false)) := by
  unfold notSeparated
  rw [if_pos (by simp; omega)]
  simp only [peek, List.cons_append, List.getElem?_cons_succ, List.getElem?_cons_zero, Res.bind_ok]
  by_cases a1 : c1 = 58 <;> by_cases a2 : c1 = 46 <;> by_cases a3 : c2 = 58 <;> by_cases a4 : c2 = 46 <;>
    simp [isSep, a1, a2, a3, a4]

/-- One round of the group loop on a text `t` followed by its NUL. -/
theorem groups_step (L : Locale) (fuel : Nat) (c0 : Nat) (t : WStr) (nums : List Int)
    (h0 : isDigit c0 = true) (hn : nums.length < 4) :
    groups L (fuel + 1) ((c0 :: t) ++ [0]) ((c0 :: t).length : Nat) nums =
      match t with
      | [] => groups L fuel [] (-1) (nums ++ [(numeral [c0] : Int)])
      | [c1] => if isDigit c1 then groups L fuel [] (-1) (nums ++ [(numeral [c0, c1] : Int)])
                else groups L fuel [0] 0 (nums ++ [(numeral [c0] : Int)])
      | c1 :: c2 :: r =>
        if isSep c1 = false ∧ isSep c2 = false then .ok ((c0 :: t) ++ [0], (((c0 :: t).length : Nat) : Int), nums)
        else if isDigit c1 then groups L fuel (r ++ [0]) (r.length : Nat) (nums ++ [(numeral [c0, c1] : Int)])
        else groups L fuel ((c2 :: r) ++ [0]) ((c2 :: r).length : Nat) (nums ++ [(numeral [c0] : Int)]) := by
  have hn' : ¬ nums.length ≥ 4 := by omega
  have dz : isDigit 0 = false := by decide
  rw [groups, if_pos (by simp)]
  match t with
  | [] =>
    obtain ⟨p, e, hp⟩ := scan1 L c0 0 [] h0
    simp [peek, notSeparated, h0, dz, advance, hn']
    simp at e
    rw [e]; simp [hp]
  | [c1] =>
    obtain ⟨p, e, hp⟩ := scan1 L c0 c1 [0] h0
    by_cases h1 : isDigit c1 = true
    · obtain ⟨p, e, hp⟩ := scan2 L c0 c1 0 [] h0 h1
      simp [peek, notSeparated, h0, h1, advance, hn']
      simp at e
      rw [e]; simp [hp]
    · simp [peek, notSeparated, h0, h1, advance, hn']
      simp at e
      rw [e]; simp [hp]
  | c1 :: c2 :: r =>
    have hns := notSeparated_eq c0 c1 c2 r
    rw [hns]
    by_cases hb : isSep c1 = false ∧ isSep c2 = false
    · simp [peek, h0, hb]
    · have hb' : decide (isSep c1 = false ∧ isSep c2 = false) = false := by simp [hb]
      rw [hb']
      simp only [if_neg hb]
      by_cases h1 : isDigit c1 = true
      · obtain ⟨p, e, hp⟩ := scan2 L c0 c1 c2 (r ++ [0]) h0 h1
        simp [peek, h0, h1, advance, hn']
        simp at e
        rw [e]; simp [hp]
        rw [show ((r.length : Int) + 1 + 1 + 1 - 3) = r.length by omega]
      · obtain ⟨p, e, hp⟩ := scan1 L c0 c1 (c2 :: r ++ [0]) h0
        simp [peek, h0, h1, advance, hn']
        simp at e
        rw [e]; simp [hp]
        rw [show ((r.length : Int) + 1 + 1 + 1 - 2) = r.length + 1 by omega]

theorem groups_done (L : Locale) (fuel : Nat) (mem : List Nat) (len : Int) (nums : List Int) (h : len ≤ 0) :
    groups L (fuel + 1) mem len nums = .ok (mem, len, nums) := by
  rw [groups, if_neg (by omega)]

/-- A digit group followed by a separator. -/
theorem groups_group (L : Locale) (fuel : Nat) (g : WStr) (sep : Nat) (t : WStr) (nums : List Int)
    (hg : Group g) (hs : isSep sep = true) (hn : nums.length < 4) (hlen : t ≠ [] ) :
    groups L (fuel + 1) ((g ++ sep :: t) ++ [0]) ((g ++ sep :: t).length : Nat) nums
      = groups L fuel (t ++ [0]) (t.length : Nat) (nums ++ [(numeral g : Int)]) := by
  have hnd : isDigit sep = false := by
    rcases (isSep_iff sep).mp hs with h | h <;> subst h <;> decide
  obtain ⟨hl, hd⟩ := hg
  match g, hl with
  | [a], _ =>
    have h := groups_step L fuel a (sep :: t) nums (hd a (by simp)) hn
    obtain ⟨x, r, rfl⟩ : ∃ x r, t = x :: r := by
      cases t with
      | nil => exact absurd rfl hlen
      | cons x r => exact ⟨x, r, rfl⟩
    rw [show [a] ++ sep :: x :: r = a :: sep :: x :: r from rfl, h]
    simp [hs, hnd]
  | [a, b], _ =>
    have hb := hd b (by simp)
    have h := groups_step L fuel a (b :: sep :: t) nums (hd a (by simp)) hn
    rw [show [a, b] ++ sep :: t = a :: b :: sep :: t from rfl, h]
    simp [hs, hnd, hb]
  | [], h => simp at h
  | _ :: _ :: _ :: _, h => simp at h

/-- The last digit group of the text. -/
theorem groups_last (L : Locale) (fuel : Nat) (g : WStr) (nums : List Int) (hg : Group g) (hn : nums.length < 4) :
    groups L (fuel + 2) (g ++ [0]) (g.length : Nat) nums = .ok ([], -1, nums ++ [(numeral g : Int)]) := by
  obtain ⟨hl, hd⟩ := hg
  match g, hl with
  | [a], _ => rw [groups_step L (fuel + 1) a [] nums (hd a (by simp)) hn]; exact groups_done _ _ _ _ _ (by decide)
  | [a, b], _ =>
    rw [groups_step L (fuel + 1) a [b] nums (hd a (by simp)) hn]
    simp only [hd b (by simp), if_true]
    exact groups_done _ _ _ _ _ (by decide)
  | [], h => simp at h
  | _ :: _ :: _ :: _, h => simp at h

/-- At a run of three or more digits the loop stops. -/
theorem groups_stop (L : Locale) (fuel : Nat) (f : WStr) (nums : List Int) (h3 : 3 ≤ f.length)
    (hd : ∀ c ∈ f, isDigit c = true) :
    groups L (fuel + 1) (f ++ [0]) (f.length : Nat) nums = .ok (f ++ [0], ((f.length : Nat) : Int), nums) := by
  match f, h3 with
  | a :: b :: c :: r, _ =>
    have ha := hd a (by simp)
    have hb := digit_facts (hd b (by simp))
    have hc := digit_facts (hd c (by simp))
    have sb1 : b ≠ 58 := by omega
    have sb2 : b ≠ 46 := by omega
    have sc1 : c ≠ 58 := by omega
    have sc2 : c ≠ 46 := by omega
    have hsb : isSep b = false := by simp [isSep, sb1, sb2]
    have hsc : isSep c = false := by simp [isSep, sc1, sc2]
    rw [groups, if_pos (by simp only [List.length_cons]; omega), notSeparated_eq]
    simp [peek, ha, hsb, hsc]

theorem numeral_cons (c : Nat) (cs : WStr) : numeral (c :: cs) = (c - 48) * 10 ^ cs.length + numeral cs := by
  have gen : ∀ (l : WStr) (a : Nat), l.foldl (fun acc c => 10 * acc + (c - 48)) a
      = a * 10 ^ l.length + l.foldl (fun acc c => 10 * acc + (c - 48)) 0 := by
    intro l
    induction l with
    | nil => intro a; simp
    | cons x l ih =>
      intro a
      simp only [List.foldl_cons, List.length_cons]
      rw [ih (10 * a + (x - 48)), ih (10 * 0 + (x - 48)), Nat.pow_succ]
      simp only [Nat.add_mul, Nat.mul_zero, Nat.zero_add]
      have : 10 * a * 10 ^ l.length = a * (10 ^ l.length * 10) := by
        rw [Nat.mul_comm 10 a, Nat.mul_assoc, Nat.mul_comm 10]
      omega
  unfold numeral
  rw [List.foldl_cons, gen]
  simp

theorem pow10_tdiv (j : Nat) : (((10 ^ (j + 1) : Nat) : Int)).tdiv 10 = ((10 ^ j : Nat) : Int) := by
  rw [Int.tdiv_eq_ediv_of_nonneg (Int.natCast_nonneg _), Nat.pow_succ]
  generalize 10 ^ j = x
  omega

/-- The fraction loop on a run of digits that ends the text. -/
theorem fraction_digits : ∀ (f : WStr) (fuel j : Nat) (acc : Int), (∀ c ∈ f, isDigit c = true) →
    f.length ≤ j → f.length < fuel →
    fraction fuel (f ++ [0]) (f.length : Nat) ((10 ^ j : Nat) : Int) acc
      = .ok (acc + ((numeral f * 10 ^ (j - f.length) : Nat) : Int)) := by
  intro f
  induction f with
  | nil =>
    intro fuel j acc _ _ hf
    obtain ⟨fuel, rfl⟩ : ∃ k, fuel = k + 1 := ⟨fuel - 1, by simp at hf; omega⟩
    rw [fraction, if_neg (by simp)]
    simp [numeral]
  | cons c f ih =>
    intro fuel j acc hd hj hf
    obtain ⟨fuel, rfl⟩ : ∃ k, fuel = k + 1 := ⟨fuel - 1, by simp at hf; omega⟩
    obtain ⟨j, rfl⟩ : ∃ k, j = k + 1 := ⟨j - 1, by simp at hj; omega⟩
    simp only [List.length_cons] at hj hf
    have hc := hd c (by simp)
    have h48 := digit_facts hc
    have hpos : (10 ^ (j + 1) : Nat) > 1 := by
      have : 10 ^ j ≥ 1 := Nat.pos_of_ne_zero (by simp)
      rw [Nat.pow_succ]; omega
    rw [fraction, if_pos (by constructor <;> (try simp only [List.length_cons]) <;> omega)]
    simp only [peek, List.cons_append, List.getElem?_cons_zero, Res.bind_ok, hc, if_true, advance, List.length_cons]
    rw [if_pos (by omega)]
    simp only [Res.bind_ok, List.drop_succ_cons, List.drop_zero]
    rw [show ((f.length + 1 : Nat) : Int) - 1 = ((f.length : Nat) : Int) by omega, pow10_tdiv]
    rw [ih fuel j _ (fun x hx => hd x (by simp [hx])) (by omega) (by omega)]
    rw [Res.ok.injEq, numeral_cons]
    have hl : f.length ≤ j := by omega
    have e1 : j + 1 - (f.length + 1) = j - f.length := by omega
    rw [e1]
    have e2 : 10 ^ j = 10 ^ f.length * 10 ^ (j - f.length) := by rw [← Nat.pow_add]; congr 1; omega
    have e3 : ((c : Int) - 48) = ((c - 48 : Nat) : Int) := by omega
    rw [e3, e2, Nat.add_mul]
    push_cast
    rw [Int.mul_assoc]
    omega

theorem fraction_none (fuel : Nat) (mem : List Nat) (len frac acc : Int) (h : len ≤ 0) :
    fraction (fuel + 1) mem len frac acc = .ok acc := by
  rw [fraction, if_neg (by omega)]

theorem numeral_lt : ∀ f : WStr, (∀ c ∈ f, isDigit c = true) → numeral f < 10 ^ f.length := by
  intro f
  induction f with
  | nil => intro _; simp [numeral]
  | cons c f ih =>
    intro hd
    have h1 := ih (fun x hx => hd x (by simp [hx]))
    have h2 := digit_facts (hd c (by simp))
    rw [numeral_cons, List.length_cons, Nat.pow_succ]
    have : (c - 48) * 10 ^ f.length ≤ 9 * 10 ^ f.length := Nat.mul_le_mul_right _ (by omega)
    omega

theorem group_le {g : WStr} (h : Group g) : numeral g ≤ 99 := by
  have := numeral_lt g h.2
  rcases h.1 with e | e <;> rw [e] at this <;> omega

theorem group_ne_nil {g : WStr} (h : Group g) : g ≠ [] := by
  intro e; subst e; rcases h.1 with e | e <;> simp at e

theorem group_head {g : WStr} (h : Group g) (x : WStr) : ∃ c r, g ++ x = c :: r ∧ isDigit c = true := by
  obtain ⟨hl, hd⟩ := h
  cases g with
  | nil => simp at hl
  | cons c r => exact ⟨c, r ++ x, rfl, hd c (by simp)⟩

/-- The arithmetic at the end of the parser never overflows on two-digit numbers. -/
theorem finish_hms (neg : Bool) (h m s : Nat) (f : Nat) (hh : h ≤ 99) (hm : m ≤ 99) (hs : s ≤ 99) (hf : f < 10000000) :
    finish neg [(h : Int), m, s] f
      = .ok ((if neg then -1 else 1) * ((((h * 60 + m) * 60 + s) * 10000000 + f : Nat) : Int)) := by
  unfold finish
  simp only [number, TicksPerDay, TicksPerHour, TicksPerMinute, TicksPerSecond, List.length_cons, List.length_nil,
    List.getD_cons_zero, List.getD_cons_succ]
  simp only [Nat.zero_add, Nat.reduceAdd, gt_iff_lt, Nat.lt_irrefl, false_or, Nat.reduceEqDiff, if_false,
    Res.bind_ok, Nat.reduceLT, if_true, List.getD_cons_zero, List.getD_cons_succ]
  repeat (rw [i64_ok (by unfold I64; omega)]; simp only [Res.bind_ok])
  cases neg
  · simp; omega
  · simp only [if_true]
    rw [i64_ok (by unfold I64; omega)]; simp; omega

theorem finish_dhms (neg : Bool) (d h m s : Nat) (f : Nat) (hd : d ≤ 99) (hh : h ≤ 99) (hm : m ≤ 99) (hs : s ≤ 99)
    (hf : f < 10000000) :
    finish neg [(d : Int), h, m, s] f
      = .ok ((if neg then -1 else 1) * (((d * 86400 + ((h * 60 + m) * 60 + s)) * 10000000 + f : Nat) : Int)) := by
  unfold finish
  simp only [number, TicksPerDay, TicksPerHour, TicksPerMinute, TicksPerSecond, List.length_cons, List.length_nil]
  simp only [Nat.zero_add, Nat.reduceAdd, gt_iff_lt, Nat.reduceLT, true_or, if_true,
    Res.bind_ok, Nat.reduceLT, if_true, List.getD_cons_zero, List.getD_cons_succ]
  repeat (rw [i64_ok (by unfold I64; omega)]; simp only [Res.bind_ok])
  cases neg
  · simp; omega
  · simp only [if_true]
    rw [i64_ok (by unfold I64; omega)]; simp; omega

/-- The text from the hours on: the rest of the group loop and the fraction. -/
theorem clock_fraction (L : Locale) (k : Nat) (c f : WStr) (secs ticks : Nat) (pre : List Int)
    (hc : ClockText c secs) (hf : FractionText f ticks) (hp : pre.length ≤ 1) :
    ∃ h m s : Nat, h ≤ 99 ∧ m ≤ 99 ∧ s ≤ 99 ∧ ticks < 10000000 ∧ secs = (h * 60 + m) * 60 + s ∧
      (do
        let (mem, len, nums) ← groups L (k + 5) ((c ++ f) ++ [0]) ((c ++ f).length : Nat) pre
        let fr ← fraction 8 mem len TicksPerSecond 0
        (.ok (nums, fr) : Res (List Int × Int))) = .ok (pre ++ [(h : Int), m, s], (ticks : Int)) := by
  obtain ⟨h, m, s, rfl, gh, gm, gs, rfl⟩ := hc
  refine ⟨numeral h, numeral m, numeral s, group_le gh, group_le gm, group_le gs, ?_, rfl, ?_⟩
  · rcases hf with ⟨_, rfl⟩ | ⟨f, _, h3, h7, hd, rfl⟩
    · decide
    · have := numeral_lt f hd
      have hpow : (10 : Nat) ^ 7 = 10 ^ f.length * 10 ^ (7 - f.length) := by rw [← Nat.pow_add]; congr 1; omega
      have hpos : 0 < (10 : Nat) ^ (7 - f.length) := Nat.pos_of_ne_zero (by simp)
      have := Nat.mul_lt_mul_of_pos_right this hpos
      omega
  · have e : (h ++ 58 :: m ++ 58 :: s ++ f) = h ++ 58 :: (m ++ 58 :: (s ++ f)) := by simp
    have hT : TicksPerSecond = ((10 ^ 7 : Nat) : Int) := by decide
    rw [e]
    rw [groups_group L (k + 4) h 58 _ _ gh (by decide) (by omega) (by simp)]
    rw [groups_group L (k + 3) m 58 _ _ gm (by decide) (by simp; omega) (by simp [group_ne_nil gs])]
    rcases hf with ⟨rfl, rfl⟩ | ⟨f, rfl, h3, h7, hd, rfl⟩
    · rw [List.append_nil, groups_last L (k + 1) s _ gs (by simp; omega)]
      simp only [Res.bind_ok]
      rw [fraction_none _ _ _ _ _ (by decide)]
      simp
    · rw [groups_group L (k + 2) s 46 _ _ gs (by decide) (by simp; omega) (by intro h; subst h; simp at h3)]
      rw [groups_stop L (k + 1) f _ h3 hd]
      simp only [Res.bind_ok]
      rw [hT, fraction_digits f 8 7 0 hd h7 (by omega)]
      simp

theorem clockText_length {c : WStr} {secs : Nat} (h : ClockText c secs) : 5 ≤ c.length := by
  obtain ⟨h, m, s, rfl, gh, gm, gs, _⟩ := h
  have h1 := gh.1
  have h2 := gm.1
  have h3 := gs.1
  simp only [List.length_append, List.length_cons]
  omega

theorem clockText_head {c : WStr} {secs : Nat} (h : ClockText c secs) (x : WStr) :
    ∃ a r, c ++ x = a :: r ∧ isDigit a = true := by
  obtain ⟨h, m, s, rfl, gh, _⟩ := h
  obtain ⟨a, r, e, ha⟩ := group_head gh (58 :: m ++ 58 :: s ++ x)
  refine ⟨a, r, ?_, ha⟩
  rw [← e]; simp

theorem tryParse_split (L : Locale) (sg t : WStr) (hsg : sg = [] ∨ sg = [45])
    (ht : ∃ a r, t = a :: r ∧ isDigit a = true) (nums : List Int) (fr : Int)
    (h : (do
        let (mem, len, nums) ← groups L ((sg ++ t).length + 1) (t ++ [0]) (t.length : Nat) []
        let fr ← fraction 8 mem len TicksPerSecond 0
        (.ok (nums, fr) : Res (List Int × Int))) = .ok (nums, fr)) :
    tryParse L (sg ++ t) = (finish (decide (sg = [45])) nums fr) >>= fun v => .ok (true, v) := by
  obtain ⟨a, r, rfl, ha⟩ := ht
  have ha' := digit_facts ha
  rw [Res.bind_eq_ok] at h
  obtain ⟨⟨mem, len, ns⟩, h1, h2⟩ := h
  simp only [] at h2
  rw [Res.bind_eq_ok] at h2
  obtain ⟨fr', h2, h3⟩ := h2
  rw [Res.ok.injEq, Prod.mk.injEq] at h3
  obtain ⟨rfl, rfl⟩ := h3
  unfold tryParse
  rcases hsg with rfl | rfl
  · have hb : (a == 45) = false := by simp; omega
    simp only [List.nil_append, List.cons_append, peek, List.getElem?_cons_zero, Res.bind_ok, hb,
      Bool.false_eq_true, if_false] at h1 ⊢
    rw [h1]; simp only [Res.bind_ok]; rw [h2]; simp
  · simp only [List.nil_append, List.cons_append, peek, List.getElem?_cons_zero, Res.bind_ok, BEq.rfl,
      if_true, List.drop_succ_cons, List.drop_zero] at h1 ⊢
    rw [show (((45 :: a :: r).length : Nat) : Int) - 1 = (((a :: r).length : Nat) : Int) by simp]
    rw [h1]; simp only [Res.bind_ok]; rw [h2]; simp

/-- C19 (accepting side, partial): a text `[-][d.]h:m:s[.fff]` with one- or two-digit numbers and a fraction of 3 to 7
digits is parsed to the tick count it denotes. Missing: longer day numbers and one- or two-digit fractions, which
are misread (`C18_refuted`, `C19_refuted`). -/
theorem C19_parse_denotes_partial (L : Locale) (t : WStr) (v : Int) (h : SpanText t v) :
    parse L (some t) = .ok v := by
  obtain ⟨sg, d, c, f, days, secs, ticks, rfl, hsg, hd, hc, hf, rfl⟩ := h
  have hclen := clockText_length hc
  have main : tryParse L (sg ++ (d ++ (c ++ f))) =
      .ok (true, (if sg = [45] then -1 else 1) * (((days * 86400 + secs) * 10000000 + ticks : Nat) : Int)) := by
    rcases hd with ⟨rfl, rfl⟩ | ⟨g, rfl, hg, rfl⟩
    · obtain ⟨k, hk⟩ : ∃ k, (sg ++ ([] ++ (c ++ f))).length + 1 = k + 5 :=
        ⟨sg.length + c.length + f.length + 1 - 5, by simp; omega⟩
      obtain ⟨h, m, s, hh, hm, hs, hfr, rfl, e⟩ := clock_fraction L k c f secs ticks [] hc hf (by simp)
      rw [tryParse_split L sg ([] ++ (c ++ f)) hsg (by simpa using clockText_head hc f) _ _
        (by rw [hk]; exact e)]
      rw [List.nil_append, finish_hms _ h m s ticks hh hm hs hfr]
      rcases hsg with rfl | rfl <;> simp
    · obtain ⟨k, hk⟩ : ∃ k, (sg ++ ((g ++ [46]) ++ (c ++ f))).length + 1 = (k + 5) + 1 :=
        ⟨sg.length + g.length + 1 + c.length + f.length + 1 - 6, by simp; omega⟩
      obtain ⟨h, m, s, hh, hm, hs, hfr, rfl, e⟩ :=
        clock_fraction L k c f secs ticks [(numeral g : Int)] hc hf (by simp)
      have hne : c ++ f ≠ [] := by
        intro h; have := congrArg List.length h; simp at this; rw [this.1] at hclen; simp at hclen
      rw [tryParse_split L sg ((g ++ [46]) ++ (c ++ f)) hsg
        (by rw [List.append_assoc]; exact group_head hg _) _ _
        (by
          rw [hk, show (g ++ [46]) ++ (c ++ f) = g ++ 46 :: (c ++ f) by simp]
          rw [groups_group L (k + 5) g 46 _ _ hg (by decide) (by simp) hne]
          exact e)]
      rw [List.singleton_append, finish_dhms _ _ h m s ticks (group_le hg) hh hm hs hfr]
      rcases hsg with rfl | rfl <;> simp
  unfold parse
  rw [show sg ++ d ++ c ++ f = sg ++ (d ++ (c ++ f)) by simp]
  simp only []
  rw [main]
  simp

example : SpanText (w "-12.3:04:05.678") (-10478456780000) := by
  refine ⟨w "-", w "12.", w "3:04:05", w ".678", 12, 11045, 6780000, by decide, by decide,
    Or.inr ⟨w "12", by decide, ⟨by decide, by decide⟩, by decide⟩,
    ⟨w "3", w "04", w "05", by decide, ⟨by decide, by decide⟩, ⟨by decide, by decide⟩, ⟨by decide, by decide⟩, by decide⟩,
    Or.inr ⟨w "678", by decide, by decide, by decide, by decide, by decide⟩, by decide⟩

/-! ## C18 -/

theorem dec_length_small {n : Nat} : (n < 10 → (dec n).length = 1) ∧ (10 ≤ n → n < 100 → (dec n).length = 2) := by
  constructor
  · intro h; rw [dec_rec, if_pos h]; rfl
  · intro h1 h2
    rw [dec_rec, if_neg (by omega), List.length_append, dec_rec, if_pos (by omega)]; rfl

theorem dec_length_pow : ∀ (k n : Nat), 10 ^ k ≤ n → n < 10 ^ (k + 1) → (dec n).length = k + 1 := by
  intro k
  induction k with
  | zero => intro n h1 h2; rw [dec_rec, if_pos (by simpa using h2)]; rfl
  | succ k ih =>
    intro n h1 h2
    have p : 0 < 10 ^ k := Nat.pos_of_ne_zero (by simp)
    have e1 : 10 ^ (k + 1) = 10 ^ k * 10 := Nat.pow_succ ..
    have e2 : 10 ^ (k + 1 + 1) = 10 ^ (k + 1) * 10 := Nat.pow_succ ..
    rw [dec_rec, if_neg (by omega), List.length_append, ih (n / 10) (by omega) (by omega)]; rfl

theorem dec2_group {n : Nat} (h : n < 100) : Group (dec2 n) ∧ numeral (dec2 n) = n := by
  unfold dec2
  split
  · rename_i h10
    refine ⟨⟨Or.inr ?_, ?_⟩, ?_⟩
    · rw [List.length_cons, dec_length_small.1 h10]
    · intro c hc
      rcases List.mem_cons.mp hc with rfl | hc
      · decide
      · exact dec_digits n c hc
    · rw [numeral_cons, numeral_dec]; simp
  · rename_i h10
    exact ⟨⟨Or.inr (dec_length_small.2 (by omega) h), dec_digits n⟩, numeral_dec n⟩

/-- The text printed for `v`, in terms of its magnitude. -/
theorem toString_eq (v : Int) (hv : I64 v) :
    toString v =
      let a := v.natAbs
      let clock := dec2 (a / 36000000000 % 24) ++ 58 :: dec2 (a / 600000000 % 60) ++ 58 :: dec2 (a / 10000000 % 60)
      let date := if a / 864000000000 ≠ 0 then dec (a / 864000000000) ++ 46 :: clock else clock
      let f := a % 10000000
      let frac := if f ≠ 0 then 46 :: (dec f ++ List.replicate (7 - (dec f).length) 48) else []
      (if v < 0 then [45] else []) ++ date ++ frac := by
  unfold I64 at hv
  have hA : v.natAbs ≤ 9223372036854775808 := by omega
  have hd : (if v < 0 then -wrapI32 (v.tdiv 864000000000) else wrapI32 (v.tdiv 864000000000))
      = ((v.natAbs / 864000000000 : Nat) : Int) := by
    rw [tdiv_split, wrapI32_of (by unfold I32; split <;> omega)]
    split <;> split <;> omega
  have ht : (if v < 0 then -(v.tmod 864000000000) else v.tmod 864000000000)
      = ((v.natAbs % 864000000000 : Nat) : Int) := by
    rw [tmod_split]
    split <;> split <;> omega
  have nn : ∀ x k : Nat, ((x : Int).tdiv (k : Int)) = ((x / k : Nat) : Int) := by
    intro x k; rw [Int.tdiv_eq_ediv_of_nonneg (by omega)]; rfl
  have nm : ∀ x k : Nat, ((x : Int).tmod (k : Int)) = ((x % k : Nat) : Int) := by
    intro x k; rw [Int.tmod_eq_emod_of_nonneg (by omega)]; rfl
  unfold toString TicksPerDay TicksPerHour TicksPerMinute TicksPerSecond
  simp only []
  rw [hd, ht]
  have h1 : ((((v.natAbs % 864000000000 : Nat) : Int).tdiv 36000000000).tmod 24).toNat
      = v.natAbs / 36000000000 % 24 := by
    rw [show (36000000000 : Int) = ((36000000000 : Nat) : Int) from rfl, nn,
      show (24 : Int) = ((24 : Nat) : Int) from rfl, nm, Int.toNat_natCast]; omega
  have h2 : ((((v.natAbs % 864000000000 : Nat) : Int).tdiv 600000000).tmod 60).toNat
      = v.natAbs / 600000000 % 60 := by
    rw [show (600000000 : Int) = ((600000000 : Nat) : Int) from rfl, nn,
      show (60 : Int) = ((60 : Nat) : Int) from rfl, nm, Int.toNat_natCast]; omega
  have h3 : ((((v.natAbs % 864000000000 : Nat) : Int).tdiv 10000000).tmod 60).toNat
      = v.natAbs / 10000000 % 60 := by
    rw [show (10000000 : Int) = ((10000000 : Nat) : Int) from rfl, nn,
      show (60 : Int) = ((60 : Nat) : Int) from rfl, nm, Int.toNat_natCast]; omega
  have h4 : (((v.natAbs % 864000000000 : Nat) : Int).tmod 10000000) = ((v.natAbs % 10000000 : Nat) : Int) := by
    rw [show (10000000 : Int) = ((10000000 : Nat) : Int) from rfl, nm]; congr 1; omega
  have di : ∀ n : Nat, decInt (n : Int) = dec n := by
    intro n; unfold decInt; rw [if_neg (by omega), Int.toNat_natCast]
  rw [h1, h2, h3, h4, di, di]
  simp only [ne_eq, Int.natCast_eq_zero]

/-- C18 (partial): parsing the printed text gives the span back, when it has at most 99 days and its fraction of a
second is zero or at least a tenth of a second. Missing: the other spans (`C18_refuted`). -/
theorem C18_round_trip_partial (L : Locale) (v : Int) (hv : I64 v) (hd : v.natAbs < 100 * 864000000000)
    (hf : v.natAbs % 10000000 = 0 ∨ 1000000 ≤ v.natAbs % 10000000) :
    parse L (some (toString v)) = .ok v := by
  apply C19_parse_denotes_partial
  rw [toString_eq v hv]
  simp only []
  generalize ha : v.natAbs = a at *
  obtain ⟨g1, n1⟩ := dec2_group (n := a / 36000000000 % 24) (by omega)
  obtain ⟨g2, n2⟩ := dec2_group (n := a / 600000000 % 60) (by omega)
  obtain ⟨g3, n3⟩ := dec2_group (n := a / 10000000 % 60) (by omega)
  have hclock : ClockText (dec2 (a / 36000000000 % 24) ++ 58 :: dec2 (a / 600000000 % 60) ++ 58 :: dec2 (a / 10000000 % 60))
      ((a / 36000000000 % 24 * 60 + a / 600000000 % 60) * 60 + a / 10000000 % 60) :=
    ⟨_, _, _, rfl, g1, g2, g3, by rw [n1, n2, n3]⟩
  generalize hcl : dec2 (a / 36000000000 % 24) ++ 58 :: dec2 (a / 600000000 % 60) ++ 58 :: dec2 (a / 10000000 % 60) = clock at *
  have hday : DayText (if a / 864000000000 ≠ 0 then dec (a / 864000000000) ++ [46] else []) (a / 864000000000) := by
    by_cases h0 : a / 864000000000 = 0
    · rw [if_neg (by simpa using h0)]; exact Or.inl ⟨rfl, h0⟩
    · rw [if_pos h0]
      refine Or.inr ⟨dec (a / 864000000000), rfl, ⟨?_, dec_digits _⟩, (numeral_dec _).symm⟩
      by_cases h10 : a / 864000000000 < 10
      · left; exact dec_length_small.1 h10
      · right; exact dec_length_small.2 (by omega) (by omega)
  have hfrac : FractionText (if a % 10000000 ≠ 0 then
      46 :: (dec (a % 10000000) ++ List.replicate (7 - (dec (a % 10000000)).length) 48) else []) (a % 10000000) := by
    by_cases h0 : a % 10000000 = 0
    · rw [if_neg (by simpa using h0)]; exact Or.inl ⟨rfl, h0⟩
    · rw [if_pos h0]
      have hl := dec_length_pow 6 (a % 10000000) (by omega) (by omega)
      rw [hl]
      refine Or.inr ⟨dec (a % 10000000), by simp, by omega, by omega, dec_digits _, ?_⟩
      rw [numeral_dec, hl]; omega
  refine ⟨if v < 0 then [45] else [], _, clock, _, _, _, _, ?_, ?_, hday, hclock, hfrac, ?_⟩
  · by_cases h0 : a / 864000000000 = 0
    · simp only [h0, ne_eq, not_true_eq_false, if_false]; simp
    · simp only [h0, ne_eq, not_false_eq_true, if_true]; simp
  · split <;> simp
  · by_cases hn : v < 0
    · simp only [if_pos hn, if_true]; omega
    · simp only [if_neg hn]; rw [if_neg (by simp)]; omega

example : I64 (-10478456780000) ∧ (-10478456780000 : Int).natAbs < 100 * 864000000000 ∧
    1000000 ≤ (-10478456780000 : Int).natAbs % 10000000 ∧ toString (-10478456780000) = w "-12.03:04:05.6780000" := by
  decide +kernel

/-- C18 is violated: the fraction is padded on the wrong side, so one tick prints like a tenth of a second; three-digit
day numbers are not read back. -/
theorem C18_refuted :
    toString 1 = w "00:00:00.1000000" ∧ toString 1000000 = w "00:00:00.1000000" ∧
    parse cLocale (some (toString 1)) = .ok 1000000 ∧
    toString (100 * 864000000000) = w "100.00:00:00" ∧
    parse cLocale (some (toString (100 * 864000000000))) = .ok 1000000 := by
  decide +kernel

/-! ## C19 -/

/-- Number of separators (`:` or `.`) of a text. -/
def seps (t : WStr) : Nat := t.countP isSep

theorem group1_le (a : Nat) (h : isDigit a = true) : (0 : Int) ≤ (numeral [a] : Int) ∧ (numeral [a] : Int) ≤ 99 := by
  have := group_le (g := [a]) ⟨Or.inl rfl, by simpa using h⟩; omega
theorem group2_le (a b : Nat) (h : isDigit a = true) (h' : isDigit b = true) :
    (0 : Int) ≤ (numeral [a, b] : Int) ∧ (numeral [a, b] : Int) ≤ 99 := by
  have := group_le (g := [a, b]) ⟨Or.inr rfl, by simp [h, h']⟩; omega

/-- State of the parser after the group loop: either past the end, or at a suffix of the text. -/
def AfterGroups (mem : List Nat) (len : Int) : Prop := (len ≤ 0) ∨ ∃ t : WStr, mem = t ++ [0] ∧ len = (t.length : Nat)

/-- With at most three separators the group loop neither overruns the array nor the text. -/
theorem groups_safe (L : Locale) : ∀ (fuel : Nat) (t : WStr) (nums : List Int), t.length < fuel →
    nums.length + seps t ≤ 3 → (∀ n ∈ nums, 0 ≤ n ∧ n ≤ 99) →
    ∃ mem len ns, groups L fuel (t ++ [0]) (t.length : Nat) nums = .ok (mem, len, ns) ∧ ns.length ≤ 4 ∧
      (∀ n ∈ ns, 0 ≤ n ∧ n ≤ 99) ∧ AfterGroups mem len := by
  intro fuel
  induction fuel using Nat.strongRecOn with
  | _ fuel ih =>
  intro t nums hlen hsep hnums
  obtain ⟨fuel, rfl⟩ : ∃ k, fuel = k + 1 := ⟨fuel - 1, by omega⟩
  have memb : ∀ (x : Int), (0 ≤ x ∧ x ≤ 99) → ∀ n ∈ nums ++ [x], 0 ≤ n ∧ n ≤ 99 := by
    intro x hx n hn
    rcases List.mem_append.mp hn with h | h
    · exact hnums n h
    · rw [List.mem_singleton.mp h]; exact hx
  match t with
  | [] =>
    exact ⟨_, _, _, groups_done L fuel _ _ nums (by simp), by omega, hnums, Or.inl (by simp)⟩
  | c0 :: t =>
    by_cases h0 : isDigit c0 = true
    · have hn4 : nums.length < 4 := by omega
      rw [groups_step L fuel c0 t nums h0 hn4]
      match t with
      | [] =>
        obtain ⟨f, rfl⟩ : ∃ k, fuel = k + 1 := ⟨fuel - 1, by simp at hlen; omega⟩
        exact ⟨_, _, _, groups_done L f _ _ _ (by decide), by simp; omega, memb _ (group1_le c0 h0), Or.inl (by decide)⟩
      | [c1] =>
        obtain ⟨f, rfl⟩ : ∃ k, fuel = k + 1 := ⟨fuel - 1, by simp at hlen; omega⟩
        simp only []
        split
        · rename_i h1
          exact ⟨_, _, _, groups_done L f _ _ _ (by decide), by simp; omega, memb _ (group2_le c0 c1 h0 h1),
            Or.inl (by decide)⟩
        · exact ⟨_, _, _, groups_done L f _ _ _ (by decide), by simp; omega, memb _ (group1_le c0 h0), Or.inl (by decide)⟩
      | c1 :: c2 :: r =>
        simp only []
        split
        · exact ⟨_, _, _, rfl, by omega, hnums, Or.inr ⟨_, rfl, rfl⟩⟩
        · rename_i hb
          have hsc : seps (c0 :: c1 :: c2 :: r) =
              seps r + (if isSep c2 = true then 1 else 0) + (if isSep c1 = true then 1 else 0)
                + (if isSep c0 = true then 1 else 0) := by
            unfold seps; rw [List.countP_cons, List.countP_cons, List.countP_cons]
          simp only [List.length_cons] at hlen
          split
          · rename_i h1
            have h1' := digit_facts h1
            have hs1 : isSep c1 = false := by
              rw [Bool.eq_false_iff]; intro h; rcases (isSep_iff c1).mp h with h | h <;> omega
            have hs2 : isSep c2 = true := by
              rw [hs1] at hb; simpa using hb
            rw [hs2] at hsc; simp at hsc
            exact ih fuel (by omega) r _ (by omega) (by simp; omega) (memb _ (group2_le c0 c1 h0 h1))
          · rename_i h1
            by_cases hs1 : isSep c1 = true
            · rw [hs1] at hsc; simp at hsc
              have : seps (c2 :: r) = seps r + (if isSep c2 = true then 1 else 0) := by
                unfold seps; rw [List.countP_cons]
              exact ih fuel (by omega) (c2 :: r) _ (by simp; omega) (by rw [this]; simp; omega) (memb _ (group1_le c0 h0))
            · have hs2 : isSep c2 = true := by
                have hs1' : isSep c1 = false := by simpa using hs1
                rw [hs1'] at hb; simpa using hb
              have hd2 : isDigit c2 = false := by
                rcases (isSep_iff c2).mp hs2 with h | h <;> subst h <;> decide
              obtain ⟨f, rfl⟩ : ∃ k, fuel = k + 1 := ⟨fuel - 1, by omega⟩
              refine ⟨(c2 :: r) ++ [0], (((c2 :: r).length : Nat) : Int), nums ++ [(numeral [c0] : Int)], ?_, by simp; omega,
                memb _ (group1_le c0 h0), Or.inr ⟨_, rfl, rfl⟩⟩
              rw [groups, if_pos (by simp only [List.length_cons]; omega)]
              simp [peek, hd2]
    · refine ⟨(c0 :: t) ++ [0], (((c0 :: t).length : Nat) : Int), nums, ?_, by omega, hnums, Or.inr ⟨_, rfl, rfl⟩⟩
      rw [groups, if_pos (by simp only [List.length_cons]; omega)]
      simp [peek, h0]

/-- The fraction loop stays inside the text and below one second. -/
theorem fraction_safe : ∀ (j fuel : Nat) (mem : List Nat) (len acc : Int), AfterGroups mem len → j < fuel →
    0 ≤ acc → acc + ((10 ^ j : Nat) : Int) ≤ 10000000 →
    ∃ r, fraction fuel mem len ((10 ^ j : Nat) : Int) acc = .ok r ∧ 0 ≤ r ∧ r < 10000000 := by
  intro j
  induction j with
  | zero =>
    intro fuel mem len acc _ hj h0 h1
    obtain ⟨fuel, rfl⟩ : ∃ k, fuel = k + 1 := ⟨fuel - 1, by omega⟩
    refine ⟨acc, ?_, h0, by simp at h1; omega⟩
    rw [fraction, if_neg (by simp)]
  | succ j ih =>
    intro fuel mem len acc ha hj h0 h1
    obtain ⟨fuel, rfl⟩ : ∃ k, fuel = k + 1 := ⟨fuel - 1, by omega⟩
    have hp : 0 < 10 ^ j := Nat.pos_of_ne_zero (by simp)
    have e10 : 10 ^ (j + 1) = 10 ^ j * 10 := Nat.pow_succ ..
    by_cases hl : len ≤ 0
    · exact ⟨acc, fraction_none _ _ _ _ _ hl, h0, by omega⟩
    · rcases ha with h | ⟨t, rfl, ht⟩
      · exact absurd h hl
      · cases t with
        | nil => simp at ht; omega
        | cons c t =>
          subst ht
          rw [fraction, if_pos (by constructor <;> (try simp only [List.length_cons]) <;> omega)]
          simp only [peek, List.cons_append, List.getElem?_cons_zero, Res.bind_ok]
          by_cases hc : isDigit c = true
          · have hcd := digit_facts hc
            simp only [hc, if_true, advance, List.length_cons]
            rw [if_pos (by omega)]
            simp only [Res.bind_ok, List.drop_succ_cons, List.drop_zero]
            rw [show ((t.length + 1 : Nat) : Int) - 1 = ((t.length : Nat) : Int) by omega, pow10_tdiv]
            have e3 : ((c : Int) - 48) = ((c - 48 : Nat) : Int) := by omega
            have hm : (c - 48) * 10 ^ j ≤ 9 * 10 ^ j := Nat.mul_le_mul_right _ (by omega)
            rw [e3]
            have e4 : ((c - 48 : Nat) : Int) * ((10 ^ j : Nat) : Int) = (((c - 48) * 10 ^ j : Nat) : Int) := by push_cast; rfl
            rw [e4]
            exact ih fuel _ _ _ (Or.inr ⟨t, rfl, rfl⟩) (by omega) (by omega) (by omega)
          · have hc' : isDigit c = false := by simpa using hc
            rw [hc']
            exact ⟨acc, by simp, h0, by omega⟩

/-- C19 (memory safety, partial): for every text with at most three separators, `Parse` reads only inside the text and
its NUL, writes only the four entries of its array and does no overflowing arithmetic: it returns a value.
Missing: texts with more separators, which write past the array (`C19_refuted`). -/
theorem C19_memory_safe_partial (L : Locale) (t : WStr) (h : seps t ≤ 3) : ∃ v, parse L (some t) = .ok v ∧ I64 v := by
  have fin : ∀ (neg : Bool) (ns : List Int) (fr : Int), ns.length ≤ 4 → (∀ n ∈ ns, 0 ≤ n ∧ n ≤ 99) → 0 ≤ fr →
      fr < 10000000 → ∃ v, finish neg ns fr = .ok v ∧ I64 v := by
    intro neg ns fr hl hns hf0 hf1
    have hg : ∀ i, 0 ≤ ns.getD i 0 ∧ ns.getD i 0 ≤ 99 := by
      intro i
      rw [List.getD_eq_getElem?_getD]
      cases he : ns[i]? with
      | none => simp
      | some x => exact hns x (List.mem_of_getElem? he)
    have hN : ∀ i, i < 4 → number ns i = .ok (ns.getD i 0) := by
      intro i hi; unfold number; rw [if_pos hi]
    unfold finish TicksPerDay TicksPerHour TicksPerMinute TicksPerSecond
    have g0 := hg 0
    have g1 := hg 1
    have g2 := hg 2
    have g3 := hg 3
    have e : ∀ x : Int, -9000000000000000000 ≤ x → x ≤ 9000000000000000000 → i64 x = .ok x := by
      intro x h1 h2; exact i64_ok (by unfold I64; omega)
    by_cases ham : ns.length > 3 ∨ ns.length = 1
    · simp only [if_pos ham, hN 0 (by omega), hN (1 + 1) (by omega), hN (1 + 2) (by omega), hN 1 (by omega), Res.bind_ok]
      generalize ns.getD 0 0 = x0 at *
      generalize ns.getD 1 0 = x1 at *
      generalize ns.getD (1 + 1) 0 = x2 at *
      generalize ns.getD (1 + 2) 0 = x3 at *
      repeat (rw [e _ (by omega) (by omega)]; simp only [Res.bind_ok])
      split
      · rw [e _ (by omega) (by omega)]
        exact ⟨_, rfl, by unfold I64; omega⟩
      · exact ⟨_, rfl, by unfold I64; omega⟩
    · simp only [if_neg ham, hN 0 (by omega), hN (0 + 1) (by omega), hN (0 + 2) (by omega), Res.bind_ok]
      generalize ns.getD 0 0 = x0 at *
      generalize ns.getD (0 + 1) 0 = x1 at *
      generalize ns.getD (0 + 2) 0 = x2 at *
      repeat (rw [e _ (by omega) (by omega)]; simp only [Res.bind_ok])
      split
      · rw [e _ (by omega) (by omega)]
        exact ⟨_, rfl, by unfold I64; omega⟩
      · exact ⟨_, rfl, by unfold I64; omega⟩
  have hT : TicksPerSecond = ((10 ^ 7 : Nat) : Int) := by decide
  have rest : ∀ (neg : Bool) (fuel : Nat) (u : WStr), u.length < fuel → seps u ≤ 3 →
      ∃ v, ((do
        let (mem, len, nums) ← groups L fuel (u ++ [0]) (u.length : Nat) []
        let fr ← fraction 8 mem len TicksPerSecond 0
        let ticks ← finish neg nums fr
        .ok (true, ticks)) : Res (Bool × Int)) = .ok (true, v) ∧ I64 v := by
    intro neg fuel u hl hs
    obtain ⟨mem, len, ns, e1, hn, hns, ha⟩ := groups_safe L fuel u [] hl (by simpa using hs) (by simp)
    obtain ⟨fr, e2, f0, f1⟩ := fraction_safe 7 8 mem len 0 ha (by omega) (by omega) (by decide)
    obtain ⟨v, e3, hv⟩ := fin neg ns fr hn hns f0 f1
    refine ⟨v, ?_, hv⟩
    rw [e1]; simp only [Res.bind_ok]
    rw [hT, e2]; simp only [Res.bind_ok]
    rw [e3]; simp only [Res.bind_ok]
  have tp : ∃ v, tryParse L t = .ok (true, v) ∧ I64 v := by
    unfold tryParse
    cases t with
    | nil =>
      simp only [List.nil_append, peek, List.getElem?_cons_zero, Res.bind_ok]
      exact rest false 1 [] (by simp) (by simp [seps])
    | cons c t =>
      simp only [List.cons_append, peek, List.getElem?_cons_zero, Res.bind_ok]
      by_cases hc : c = 45
      · subst hc
        simp only [BEq.rfl, if_true, List.drop_succ_cons, List.drop_zero]
        rw [show (((45 :: t).length : Nat) : Int) - 1 = ((t.length : Nat) : Int) by simp]
        refine rest true _ t (by simp; omega) ?_
        unfold seps at h ⊢; rw [List.countP_cons] at h; omega
      · have hb : (c == 45) = false := by simpa using hc
        simp only [hb, Bool.false_eq_true, if_false]
        exact rest false _ (c :: t) (by simp) h
  obtain ⟨v, e, hv⟩ := tp
  refine ⟨v, ?_, hv⟩
  unfold parse
  simp only []
  rw [e]
  simp

example : seps (w "12.3:04:05") = 3 ∧ seps (w "hello world") = 0 := by decide +kernel

/-- C19 is violated: a fifth number is written past the end of the array; text that is no time span is accepted,
and a short fraction is read as one more number. -/
theorem C19_refuted :
    parse cLocale (some (w "1:2:3:4:5")) = .ub ∧
    parse cLocale (some (w "hello")) = .ok 0 ∧ parse cLocale (some []) = .ok 0 ∧
    parse cLocale (some (w "01:02:03.5")) = .ok (864000000000 + 2 * 36000000000 + 3 * 600000000 + 5 * 10000000) := by
  decide +kernel

end Verif.TimeSpan
