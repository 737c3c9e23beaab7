import Verif.FloatTextModel
import Verif.FloatTextSpec
import Verif.RoundLemmas
import Verif.IntLemmas
/-!
# C130: Double.Parse and Single.Parse
-/
namespace Verif.FloatText
open Verif.FltModel Verif.FltSpec Verif.FltProps Verif.Rnd Verif.FloatTextSpec

/-! ### Rounding, in rational numbers -/

variable {F : Fmt}

/-- Magnitude `m` is the nearest to `a` (in units of the least positive number), ties to even. -/
def Near (F : Fmt) (a : ℚ) (m : Nat) : Prop :=
  m ≤ F.I ∧ ∀ k, k ≤ F.I → k ≠ m → |(magVal F m : ℚ) - a| < |(magVal F k : ℚ) - a| ∨ (|(magVal F m : ℚ) - a| = |(magVal F k : ℚ) - a| ∧ m % 2 = 0)

theorem I_even (h0 : IsBin F) : F.I % 2 = 0 := by
  have h1 := h0.I
  have h2 : 2 ∣ F.M := by
    rw [h0.M]; have := h0.bits
    exact ⟨2 ^ (fbits F - 1), by rw [← Nat.pow_succ']; congr 1; omega⟩
  have h3 : F.M ∣ F.I := Nat.dvd_of_mod_eq_zero h1
  exact Nat.mod_eq_zero_of_dvd (Nat.dvd_trans h2 h3)

theorem abs_scale (a n d : Nat) (hd : 0 < d) : |(a : ℚ) - (n : ℚ) / d| = (((a * d : Nat) - (n : Int)).natAbs : ℚ) / d := by
  have hq : (0 : ℚ) < d := by exact_mod_cast hd
  have e : (a : ℚ) - (n : ℚ) / d = (((a * d : Nat) - (n : Int) : Int) : ℚ) / d := by
    push_cast; field_simp
  rw [e, abs_div, abs_of_pos hq, ← Int.cast_abs, Int.abs_eq_natAbs]
  norm_num

theorem near_roundMag (h0 : IsBin F) (n d : Nat) (hd : 0 < d) : Near F ((n : ℚ) / d) (roundMag F n d) := by
  have hq : (0 : ℚ) < d := by exact_mod_cast hd
  refine ⟨roundMag_le n d, ?_⟩
  intro k hk hne
  rw [abs_scale _ _ _ hd, abs_scale _ _ _ hd]
  rw [roundMag_ext] at hne ⊢
  rcases Nat.lt_or_ge F.I (ext F n d) |>.symm with c | c
  · rw [Nat.min_eq_right c] at hne ⊢
    rcases roundMag_nearest h0 n d hd k hne with h | ⟨h, h'⟩
    · left
      rw [div_lt_div_iff_of_pos_right hq]
      exact_mod_cast h
    · right; exact ⟨by rw [h], h'⟩
  · rw [Nat.min_eq_left (by omega)] at hne ⊢
    left
    rw [div_lt_div_iff_of_pos_right hq]
    have h1 : magVal F F.I * d ≤ n := by
      by_contra hc
      have := ext_mono h0 n (magVal F F.I * d) d hd (by omega)
      rw [ext_exact h0 F.I d hd] at this
      omega
    have h2 : magVal F k * d < magVal F F.I * d := Nat.mul_lt_mul_of_pos_right (magVal_lt F (M0 h0) (by omega)) hd
    have : ((magVal F F.I * d : Nat) - (n : Int)).natAbs < ((magVal F k * d : Nat) - (n : Int)).natAbs := by omega
    exact_mod_cast this

theorem near_lt (h0 : IsBin F) (a : ℚ) (m m' : Nat) (h : Near F a m) (h' : Near F a m') (c : m < m') : False := by
  rcases h.2 m' h'.1 (by omega) with x | ⟨x, ex⟩
  · rcases h'.2 m h.1 (by omega) with y | ⟨y, _⟩ <;> linarith
  · rcases h'.2 m h.1 (by omega) with y | ⟨_, ey⟩
    · linarith
    · have c1 : m + 1 < m' := by omega
      have v1 : (magVal F m : ℚ) < magVal F (m + 1) := by exact_mod_cast magVal_lt F (M0 h0) (by omega)
      have v2 : (magVal F (m + 1) : ℚ) < magVal F m' := by exact_mod_cast magVal_lt F (M0 h0) c1
      have n1 : |(magVal F (m + 1) : ℚ) - a| < |(magVal F m : ℚ) - a| := by
        rw [abs_lt]
        rcases abs_cases ((magVal F m : ℚ) - a) with ⟨p, p'⟩ | ⟨p, p'⟩ <;> rcases abs_cases ((magVal F m' : ℚ) - a) with ⟨q, q'⟩ | ⟨q, q'⟩ <;> constructor <;> linarith
      rcases h.2 (m + 1) (by have := h'.1; omega) (by omega) with y | ⟨y, _⟩ <;> linarith

/-- Only one magnitude is nearest. -/
theorem near_unique (h0 : IsBin F) (a : ℚ) (m m' : Nat) (h : Near F a m) (h' : Near F a m') : m = m' := by
  rcases Nat.lt_trichotomy m m' with c | c | c
  · exact (near_lt h0 a m m' h h' c).elim
  · exact c
  · exact (near_lt h0 a m' m h' h c).elim

/-! ### Numbers of patterns -/

theorem exp_eq (F : Fmt) : F.I / F.M / 2 - 1 + Nat.log2 F.M = places F := rfl

theorem number_parts (b : Nat) : number F b = (if neg F b = true then -1 else 1) * ((magVal F (mag F b) : ℚ) / 2 ^ places F) := by
  unfold number val
  rw [exp_eq]
  by_cases h : neg F b = true
  · rw [if_pos h, if_pos h]; push_cast; ring
  · rw [if_neg h, if_neg h]; push_cast; ring

/-- What a NaN is. -/
theorem class_nan (hl : Lib F) (b : Nat) : classOf F b ≠ .nan ↔ mag F b ≤ F.I := by
  have h := nan_class (facts hl) b
  unfold nan at h
  rw [decide_eq_true_eq] at h
  rw [← not_iff_not, not_not, ← h]
  omega

theorem lib_bin (hl : Lib F) : IsBin F := by rcases hl with rfl | rfl; exacts [bin_dbl, bin_sgl]

/-- A nearest magnitude with the sign of `x` is the rounded number. -/
theorem rounded_of_near (hl : Lib F) (s : Bool) (a : ℚ) (ha : 0 ≤ a) (m : Nat) (h : Near F a m) :
    Rounded F ((if s = true then -1 else 1) * (a / 2 ^ places F)) (pack F s m) := by
  have h0 := lib_bin hl
  obtain ⟨p1, p2, p3⟩ := pack_parts h0 s m h.1
  refine ⟨p3, (class_nan hl _).2 (by rw [p2]; exact h.1), ?_⟩
  intro c hc hn hne
  rw [class_nan hl] at hn
  have he : (pack F s m) % 2 = m % 2 := by
    unfold pack
    have : F.S % 2 = 0 := by rcases hl with rfl | rfl <;> decide
    cases s <;> simp; omega
  rw [he]
  have hP : (0 : ℚ) < 2 ^ places F := by positivity
  rw [number_parts, number_parts, p1, p2] at *
  generalize (2 : ℚ) ^ places F = P at *
  have hv0 : ∀ k, (0 : ℚ) ≤ magVal F k := fun k => by positivity
  -- distances in units
  have d1 : |(if s = true then (-1 : ℚ) else 1) * ((magVal F m : ℚ) / P) - (if s = true then -1 else 1) * (a / P)| = |(magVal F m : ℚ) - a| / P := by
    rw [← mul_sub, abs_mul, ← sub_div, abs_div, abs_of_pos hP]
    cases s <;> simp
  rw [d1]
  by_cases hs : neg F c = s
  · rw [hs] at hne ⊢
    have d2 : |(if s = true then (-1 : ℚ) else 1) * ((magVal F (mag F c) : ℚ) / P) - (if s = true then -1 else 1) * (a / P)| = |(magVal F (mag F c) : ℚ) - a| / P := by
      rw [← mul_sub, abs_mul, ← sub_div, abs_div, abs_of_pos hP]
      cases s <;> simp
    rw [d2, div_lt_div_iff_of_pos_right hP]
    have hk : mag F c ≠ m := by intro e; rw [e] at hne; exact hne rfl
    rcases h.2 _ hn hk with x | ⟨x, y⟩
    · exact Or.inl x
    · exact Or.inr ⟨by rw [x], y⟩
  · have d2 : |(if neg F c = true then (-1 : ℚ) else 1) * ((magVal F (mag F c) : ℚ) / P) - (if s = true then -1 else 1) * (a / P)| = ((magVal F (mag F c) : ℚ) + a) / P := by
      have e : (if neg F c = true then (-1 : ℚ) else 1) = - (if s = true then -1 else 1) := by
        revert hs; cases neg F c <;> cases s <;> simp
      rw [e]
      have e2 : -(if s = true then (-1 : ℚ) else 1) * ((magVal F (mag F c) : ℚ) / P) - (if s = true then -1 else 1) * (a / P) =
          (if s = true then (-1 : ℚ) else 1) * -(((magVal F (mag F c) : ℚ) + a) / P) := by ring
      rw [e2, abs_mul, abs_neg, abs_of_nonneg (a := ((magVal F (mag F c) : ℚ) + a) / P) (by have := hv0 (mag F c); positivity)]
      cases s <;> simp
    rw [d2, div_lt_div_iff_of_pos_right hP]
    -- compare with zero
    have hz : ∀ t : ℚ, |(magVal F 0 : ℚ) - a| = a := by intro _; rw [magVal_zero]; simp [abs_of_nonneg ha]
    by_cases hm : m = 0
    · subst hm
      rw [hz 0]
      have hc0 : 0 < (magVal F (mag F c) : ℚ) := by
        rcases lt_or_eq_of_le (hv0 (mag F c)) with x | x
        · exact x
        · exfalso; apply hne; rw [← x, magVal_zero]; simp
      left; linarith
    · rcases h.2 0 (Nat.zero_le _) (fun e => hm e.symm) with x | ⟨x, y⟩
      · left; rw [hz 0] at x; have := hv0 (mag F c); linarith
      · rw [hz 0] at x
        rcases lt_or_eq_of_le (hv0 (mag F c)) with z | z
        · left; linarith
        · right; refine ⟨by rw [x, ← z, zero_add], y⟩

/-- The other direction. -/
theorem near_of_rounded (hl : Lib F) (s : Bool) (a : ℚ) (b : Nat) (hs : neg F b = s) (h : Rounded F ((if s = true then -1 else 1) * (a / 2 ^ places F)) b) :
    Near F a (mag F b) := by
  have h0 := lib_bin hl
  obtain ⟨h1, h2, h3⟩ := h
  rw [class_nan hl] at h2
  refine ⟨h2, ?_⟩
  intro k hk hne
  obtain ⟨p1, p2, p3⟩ := pack_parts h0 s k hk
  have hP : (0 : ℚ) < 2 ^ places F := by positivity
  have he : b % 2 = mag F b % 2 := by
    unfold mag
    have : F.S % 2 = 0 := by rcases hl with rfl | rfl <;> decide
    rw [Nat.mod_mod_of_dvd _ (Nat.dvd_of_mod_eq_zero this)]
  have hx := h3 (pack F s k) p3 ((class_nan hl _).2 (by rw [p2]; exact hk))
  rw [number_parts, number_parts, p1, p2, hs, he] at hx
  generalize (2 : ℚ) ^ places F = P at *
  have d1 : ∀ k, |(if s = true then (-1 : ℚ) else 1) * ((magVal F k : ℚ) / P) - (if s = true then -1 else 1) * (a / P)| = |(magVal F k : ℚ) - a| / P := by
    intro k
    rw [← mul_sub, abs_mul, ← sub_div, abs_div, abs_of_pos hP]
    cases s <;> simp
  rw [d1, d1, div_lt_div_iff_of_pos_right hP, div_left_inj' (ne_of_gt hP)] at hx
  apply hx
  intro e
  have e2 : (magVal F k : ℚ) = magVal F (mag F b) := by
    have : (magVal F k : ℚ) / P = magVal F (mag F b) / P := by
      revert e; cases s <;> simp
    rwa [div_left_inj' (ne_of_gt hP)] at this
  exact hne (magVal_inj F (M0 h0) (by exact_mod_cast e2))

/-! ### Scanning a decimal numeral -/

theorem takeWhile_all {p : Nat → Bool} {a r : WStr} (h : ∀ c ∈ a, p c = true) (hr : ∀ c t, r = c :: t → p c = false) :
    (a ++ r).takeWhile p = a ∧ (a ++ r).dropWhile p = r := by
  induction a with
  | nil =>
    cases r with
    | nil => exact ⟨rfl, rfl⟩
    | cons c t => simp [hr c t rfl]
  | cons x a ih =>
    have hx := h x (List.mem_cons_self ..)
    have := ih (fun c hc => h c (List.mem_cons_of_mem _ hc))
    simp [hx, this]

theorem digitsVal_numeral (ds : WStr) : digitsVal 10 (· - 48) ds = numeral ds := rfl

/-- What may follow a numeral without continuing it: anything that does not begin with a digit, a point, an `e` or an `x`. -/
def Stops (r : WStr) : Prop := ∀ c t, r = c :: t → isDigit c = false ∧ c ≠ 46 ∧ lower c ≠ 101 ∧ lower c ≠ 120

theorem stops_nil : Stops [] := by intro c t h; cases h

theorem expDigits_spec (sg : Int) (ds r : WStr) (hr : Stops r) (h : ∀ c ∈ ds, isDigit c = true) (hne : ds ≠ []) : expDigits sg (ds ++ r) = some (sg * numeral ds) := by
  have e := (takeWhile_all (r := r) h (fun c t h => (hr c t h).1)).1
  unfold expDigits
  rw [e, if_neg hne, digitsVal_numeral]

theorem digit_head {ds : WStr} (h : ∀ c ∈ ds, isDigit c = true) (hne : ds ≠ []) : ∃ c t, ds = c :: t ∧ 48 ≤ c ∧ c ≤ 57 := by
  cases ds with
  | nil => exact (hne rfl).elim
  | cons c t =>
    have := h c (List.mem_cons_self ..)
    unfold isDigit at this
    simp only [Bool.and_eq_true, decide_eq_true_eq] at this
    exact ⟨c, t, rfl, this.1, this.2⟩

theorem exponent_spec (ep r : WStr) (hr : Stops r) (x : Int) (h : ExpText ep x) : exponent 101 (ep ++ r) = some x := by
  rcases h with ⟨rfl, rfl⟩ | ⟨c, sg, ds, neg, rfl, hc, hs, hne, hd, rfl⟩
  · rw [List.nil_append]
    cases r with
    | nil => rfl
    | cons c t =>
      show (if lower c = 101 then _ else _) = _
      rw [if_neg (hr c t rfl).2.2.1]
  · have hl : lower c = 101 := by rcases hc with rfl | rfl <;> decide
    show (if lower c = 101 then signedExp ((sg ++ ds) ++ r) else some 0) = _
    rw [if_pos hl]
    rcases hs with ⟨rfl, rfl⟩ | ⟨rfl, rfl⟩ | ⟨rfl, rfl⟩
    · obtain ⟨d, t, e, h1, h2⟩ := digit_head hd hne
      rw [List.nil_append]
      have : signedExp (ds ++ r) = expDigits 1 (ds ++ r) := by
        rw [e, List.cons_append]
        unfold signedExp
        split
        · rename_i hh; injection hh; omega
        · rename_i hh; injection hh; omega
        · rfl
      rw [this, expDigits_spec 1 ds r hr hd hne]
      rfl
    · show expDigits 1 (ds ++ r) = _
      rw [expDigits_spec 1 ds r hr hd hne]; rfl
    · show expDigits (-1) (ds ++ r) = _
      rw [expDigits_spec (-1) ds r hr hd hne]; rfl

theorem exp_head (ep r : WStr) (hr : Stops r) (x : Int) (h : ExpText ep x) : ∀ c t, ep ++ r = c :: t → isDigit c = false ∧ c ≠ 46 ∧ lower c ≠ 120 := by
  intro c t e
  rcases h with ⟨rfl, rfl⟩ | ⟨c', sg, ds, neg, rfl, hc, _⟩
  · have := hr c t e; exact ⟨this.1, this.2.1, this.2.2.2⟩
  · injection e with e1 e2; subst e1; rcases hc with rfl | rfl <;> decide

theorem scanDec_spec (ip fp fd ep r : WStr) (hr : Stops r) (x : Int) (hi : ∀ c ∈ ip, isDigit c = true) (hf : ∀ c ∈ fd, isDigit c = true)
    (hp : (fp = [] ∧ fd = []) ∨ fp = 46 :: fd) (hne : ip ++ fd ≠ []) (he : ExpText ep x) :
    scanDec (ip ++ (fp ++ (ep ++ r))) = some (.dec (numeral (ip ++ fd)) (x - fd.length)) := by
  have hep := exp_head ep r hr x he
  have hepd : ∀ c t, ep ++ r = c :: t → isDigit c = false := fun c t e => (hep c t e).1
  have h1 : (ip ++ (fp ++ (ep ++ r))).takeWhile isDigit = ip ∧ (ip ++ (fp ++ (ep ++ r))).dropWhile isDigit = fp ++ (ep ++ r) := by
    apply takeWhile_all hi
    intro c t e
    rcases hp with ⟨rfl, rfl⟩ | rfl
    · exact hepd c t e
    · injection e with e1 e2; subst e1; rfl
  have h2 : fracPart isDigit (fp ++ (ep ++ r)) = (fd, ep ++ r) := by
    rcases hp with ⟨rfl, rfl⟩ | rfl
    · rw [List.nil_append]
      unfold fracPart
      split
      · rename_i h; exact absurd rfl (hep _ _ h).2.1
      · rfl
    · have := takeWhile_all hf hepd
      show ((fd ++ (ep ++ r)).takeWhile isDigit, (fd ++ (ep ++ r)).dropWhile isDigit) = _
      rw [this.1, this.2]
  unfold scanDec
  simp only [h1.1, h1.2, h2]
  rw [if_neg (by rintro ⟨a, b⟩; subst a; subst b; exact hne rfl), exponent_spec ep r hr x he]
  rfl

/-- The first character of an unsigned numeral, and no `x` in second place. -/
theorem scanBody_spec (ip fp fd ep r : WStr) (hr : Stops r) (x : Int) (hi : ∀ c ∈ ip, isDigit c = true) (hf : ∀ c ∈ fd, isDigit c = true)
    (hp : (fp = [] ∧ fd = []) ∨ fp = 46 :: fd) (hne : ip ++ fd ≠ []) (he : ExpText ep x) :
    scanBody (ip ++ (fp ++ (ep ++ r))) = some (.dec (numeral (ip ++ fd)) (x - fd.length)) ∧ ∃ c t, ip ++ (fp ++ (ep ++ r)) = c :: t ∧ (c = 46 ∨ (48 ≤ c ∧ c ≤ 57)) := by
  have hep := exp_head ep r hr x he
  have hd : ∀ c, isDigit c = true → 48 ≤ c ∧ c ≤ 57 := by
    intro c h; unfold isDigit at h; simpa using h
  -- the characters one after the other
  have H : ∃ c t, ip ++ (fp ++ (ep ++ r)) = c :: t ∧ (c = 46 ∨ (48 ≤ c ∧ c ≤ 57)) ∧ ∀ c' t', t = c' :: t' → c' ≠ 120 ∧ c' ≠ 88 := by
    cases ip with
    | cons c ip =>
      refine ⟨c, ip ++ (fp ++ (ep ++ r)), rfl, Or.inr (hd c (hi c (List.mem_cons_self ..))), ?_⟩
      intro c' t' e
      cases ip with
      | cons c2 ip => injection e with e1 _; have := hd c2 (hi c2 (by simp)); omega
      | nil =>
        rcases hp with ⟨rfl, rfl⟩ | rfl
        · have := (hep c' t' (by simpa using e)).2.2; constructor <;> (intro h; subst h; exact this rfl)
        · injection e with e1 _; omega
    | nil =>
      rcases hp with ⟨rfl, rfl⟩ | rfl
      · exact (hne rfl).elim
      · refine ⟨46, fd ++ (ep ++ r), rfl, Or.inl rfl, ?_⟩
        intro c' t' e
        cases fd with
        | nil => exact (hne rfl).elim
        | cons c2 fd => injection e with e1 _; have := hd c2 (hf c2 (by simp)); omega
  obtain ⟨c, t, e, hc, ht⟩ := H
  refine ⟨?_, c, t, e, hc⟩
  have hlow : lower c = c := by unfold lower; rw [if_neg (by omega)]
  unfold scanBody
  have s1 : startsWith (ip ++ (fp ++ (ep ++ r))) (w "nan") = false := by
    rw [e]; show (lower c == 110 && _) = false
    rw [hlow, beq_eq_false_iff_ne.2 (by omega)]; rfl
  have s2 : startsWith (ip ++ (fp ++ (ep ++ r))) (w "infi") = false := by
    rw [e]; show (lower c == 105 && _) = false
    rw [hlow, beq_eq_false_iff_ne.2 (by omega)]; rfl
  have s3 : startsWith (ip ++ (fp ++ (ep ++ r))) (w "inf") = false := by
    rw [e]; show (lower c == 105 && _) = false
    rw [hlow, beq_eq_false_iff_ne.2 (by omega)]; rfl
  have s4 : startsWith (ip ++ (fp ++ (ep ++ r))) (w "0x") = false := by
    rw [e]
    cases t with
    | nil => show (lower c == 48 && false) = false; rw [Bool.and_false]
    | cons c' t' =>
      obtain ⟨x1, x2⟩ := ht c' t' rfl
      rw [show w "0x" = [48, 120] from rfl]
      simp only [startsWith]
      have : lower c' ≠ 120 := by unfold lower; split <;> omega
      rw [beq_eq_false_iff_ne.2 this]; simp
  rw [s1, s2, s3, s4]
  simp only [Bool.false_eq_true, if_false]
  exact scanDec_spec ip fp fd ep r hr x hi hf hp hne he

/-- `swscanf` of a decimal numeral after white space. -/
theorem scan_spec (L : Locale) (h46 : L.isSpace 46 = false) (F : Fmt) (ws t r : WStr) (hr : Stops r) (neg : Bool) (m : Nat) (e : Int) (hw : ∀ c ∈ ws, L.isSpace c = true)
    (ht : DecimalText t neg m e) : scan L F (ws ++ (t ++ r)) = some (pack F neg (place F (.dec m e))) := by
  obtain ⟨sg, ip, fp, fd, ep, x, rfl, hs, hi, hf, hp, hne, he, rfl, rfl⟩ := ht
  -- the C string ends at the first NUL
  have hr0 : Stops (r.takeWhile (· != 0)) := by
    intro c t h
    cases r with
    | nil => cases h
    | cons c' t' =>
      rw [List.takeWhile_cons] at h
      split at h
      · injection h with h1 _; subst h1; exact hr c' t' rfl
      · cases h
  generalize hr0' : r.takeWhile (· != 0) = r0 at hr0
  obtain ⟨hb, c, t, e1, hc⟩ := scanBody_spec ip fp fd ep r0 hr0 x hi hf hp hne he
  have hd : ∀ c, isDigit c = true → c ≠ 0 := by
    intro c h h0; subst h0; exact absurd h (by decide)
  have n0 : ∀ c ∈ ws ++ (sg ++ (ip ++ (fp ++ ep))), (c != 0) = true := by
    have hsg : ∀ sg neg, SignText sg neg → ∀ c ∈ sg, c ≠ 0 := by
      rintro sg neg (⟨rfl, _⟩ | ⟨rfl, _⟩ | ⟨rfl, _⟩) c hc <;> simp at hc <;> omega
    have hep : ∀ c ∈ ep, c ≠ 0 := by
      rcases he with ⟨rfl, _⟩ | ⟨c', sg', ds, ng, rfl, hc', hs', _, hds, _⟩
      · simp
      · intro c hc
        simp only [List.mem_cons, List.mem_append] at hc
        rcases hc with rfl | hc | hc
        · omega
        · exact hsg _ _ hs' c hc
        · exact hd c (hds c hc)
    have hfp : ∀ c ∈ fp, c ≠ 0 := by
      rcases hp with ⟨rfl, _⟩ | rfl
      · simp
      · intro c hc
        simp only [List.mem_cons] at hc
        rcases hc with rfl | hc
        · omega
        · exact hd c (hf c hc)
    intro c hc
    rw [bne_iff_ne]
    simp only [List.mem_append] at hc
    rcases hc with hc | hc | hc | hc | hc
    · intro h; subst h; have := hw 0 hc; rw [L.nul_not_space] at this; cases this
    · exact hsg _ _ hs c hc
    · exact hd c (hi c hc)
    · exact hfp c hc
    · exact hep c hc
  have t1 : (ws ++ ((sg ++ (ip ++ (fp ++ ep))) ++ r)).takeWhile (· != 0) = ws ++ (sg ++ (ip ++ (fp ++ (ep ++ r0)))) := by
    rw [← List.append_assoc, List.takeWhile_append_of_pos n0, hr0']
    simp only [List.append_assoc]
  have t2 : (ws ++ (sg ++ (ip ++ (fp ++ (ep ++ r0))))).dropWhile L.isSpace = sg ++ (ip ++ (fp ++ (ep ++ r0))) := by
    refine (takeWhile_all hw ?_).2
    intro c' t' h
    rcases hs with ⟨rfl, _⟩ | ⟨rfl, _⟩ | ⟨rfl, _⟩
    · rw [List.nil_append, e1] at h
      injection h with h1 _
      subst h1
      rcases hc with rfl | ⟨h1, h2⟩
      · exact h46
      · exact L.digit_not_space c h1 h2
    · injection h with h1 _; subst h1; exact L.plus_not_space
    · injection h with h1 _; subst h1; exact L.minus_not_space
  unfold scan
  rw [t1, t2]
  have : scanSigned (sg ++ (ip ++ (fp ++ (ep ++ r0)))) = some (neg, .dec (numeral (ip ++ fd)) (x - fd.length)) := by
    rcases hs with ⟨rfl, rfl⟩ | ⟨rfl, rfl⟩ | ⟨rfl, rfl⟩
    · rw [List.nil_append]
      unfold scanSigned
      split
      · rename_i h; rw [e1] at h; injection h; omega
      · rename_i h; rw [e1] at h; injection h; omega
      · rw [hb]; rfl
    · show (scanBody (ip ++ (fp ++ (ep ++ r0)))).map _ = _
      rw [hb]; rfl
    · show (scanBody (ip ++ (fp ++ (ep ++ r0)))).map _ = _
      rw [hb]; rfl
  rw [this]
  rfl

/-- The rounded number of a decimal numeral. -/
theorem place_near (hl : Lib F) (m : Nat) (e : Int) : Near F ((m : ℚ) * 10 ^ e * 2 ^ places F) (place F (.dec m e)) := by
  have h := near_roundMag (lib_bin hl) (m * 10 ^ e.toNat * 2 ^ places F) (10 ^ (-e).toNat) (by positivity)
  have he : ((10 : ℚ) ^ e) = (10 : ℚ) ^ e.toNat / 10 ^ (-e).toNat := by
    rcases le_total 0 e with c | c
    · obtain ⟨k, rfl⟩ := Int.eq_ofNat_of_zero_le c
      simp
    · obtain ⟨k, hk⟩ := Int.eq_ofNat_of_zero_le (show 0 ≤ -e by omega)
      obtain rfl : e = -k := by omega
      simp
  have e2 : (((m * 10 ^ e.toNat * 2 ^ places F : Nat) : ℚ) / ((10 ^ (-e).toNat : Nat) : ℚ)) = (m : ℚ) * 10 ^ e * 2 ^ places F := by
    rw [he]; push_cast; ring
  rw [e2] at h
  exact h

theorem place_rounded (hl : Lib F) (neg : Bool) (m : Nat) (e : Int) : Rounded F (decimal neg m e) (pack F neg (place F (.dec m e))) := by
  have h := rounded_of_near hl neg _ (by positivity) _ (place_near hl m e)
  unfold decimal
  have hP : (2 : ℚ) ^ places F ≠ 0 := by positivity
  rw [mul_div_assoc, div_self hP, mul_one] at h
  rw [mul_assoc]
  exact h

end Verif.FloatText
