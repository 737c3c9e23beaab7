import Verif.StringBuilderProps
import Verif.StringSpec
import Verif.StringModel
set_option linter.unusedSimpArgs false
/-!
# Lemmas about the String model
-/
namespace Verif.StrModel
open SBModel SBProps SBSpec StrSpec

theorem cells_length (v : WStr) : (cells v).length = v.length + 1 := by simp [cells]

theorem wcslen_cells (v : WStr) : ∃ k, wcslen (cells v) = some k ∧ k ≤ v.length :=
  wcslen_some _ _ (by simp [cells])

theorem wcslen_nulfree : ∀ (v t : WStr), 0 ∉ v → wcslen (v ++ 0 :: t) = some v.length
  | [], t, _ => by simp [wcslen]
  | c :: v, t, h => by
    have hc : c ≠ 0 := by intro hc; exact h (by simp [hc])
    have := wcslen_nulfree v t (fun hh => h (List.mem_cons_of_mem _ hh))
    simp [wcslen, hc, this]

/-- `new String(buffer, i, n)` on a string's own block, no NUL before position `i`. -/
theorem newString_cells {v : WStr} {i n : Int} (hz : 0 ∉ v.take i.toNat) (hi : 0 ≤ i) (hn : 0 ≤ n) (h : i + n ≤ v.length) :
    newString (cells v) i n = .ok (slice v i.toNat n.toNat) := by
  have hk : ∃ k, wcslen (cells v) = some k ∧ i.toNat ≤ k := by
    obtain ⟨k, hk, _⟩ := wcslen_cells v
    refine ⟨k, hk, ?_⟩
    have key : ∀ (l : WStr) (m k : Nat), wcslen l = some k → 0 ∉ l.take m → m ≤ l.length → m ≤ k := by
      intro l
      induction l with
      | nil => intro m k h _ _; simp [wcslen] at h
      | cons c t ih =>
        intro m k h hz hm
        cases m with
        | zero => omega
        | succ m =>
          have hc : c ≠ 0 := by intro hc; exact hz (by simp [hc])
          simp only [wcslen, hc, if_false, Option.map_eq_some_iff] at h
          obtain ⟨k', hk', rfl⟩ := h
          have := ih m k' hk' (fun hh => hz (by simp [hh])) (by simp at hm; omega)
          omega
    refine key (cells v) i.toNat k hk ?_ (by rw [cells_length]; omega)
    have : (cells v).take i.toNat = v.take i.toNat := by
      rw [cells, List.take_append_of_le_length (by omega)]
    rw [this]; exact hz
  obtain ⟨k, hk, hki⟩ := hk
  have h1 : ¬ (n < 0) := by omega
  have h2 : ¬ (i < 0 ∨ i > k) := by omega
  unfold newString
  rw [hk]
  simp only [h1, h2, if_false]
  rw [peek_some hi hn (by rw [cells_length]; push_cast; omega)]
  simp only [slice, cells]
  congr 1
  apply List.ext_getElem?
  intro j
  rw [List.getElem?_take, List.getElem?_take]
  split
  · rw [List.getElem?_drop, List.getElem?_drop, List.getElem?_append_left (by omega)]
  · rfl

theorem cText_cells (v t : WStr) (h : 0 ∉ v) : cText (v ++ 0 :: t) = v := by
  unfold cText
  induction v with
  | nil => simp
  | cons c v ih =>
    have hc : c ≠ 0 := by intro hc; exact h (by simp [hc])
    have := ih (fun hh => h (List.mem_cons_of_mem _ hh))
    rw [List.cons_append, List.takeWhile_cons, if_pos (by simpa using hc), this]

theorem cText_cells' (v : WStr) (h : 0 ∉ v) : cText (cells v) = v := cText_cells v [] h

theorem cText_drop {v : WStr} {i : Nat} (h : 0 ∉ v) (hi : i ≤ v.length) : cText ((cells v).drop i) = v.drop i := by
  have : (cells v).drop i = v.drop i ++ 0 :: [] := by
    unfold cells; rw [List.drop_append_of_le_length hi]
  rw [this]
  exact cText_cells _ _ (fun hh => h (List.mem_of_mem_drop hh))

theorem getChars_ok {v : WStr} {i : Int} (h0 : 0 ≤ i) (h1 : i < v.length) :
    ∃ c, v[i.toNat]? = some c ∧ getChars v i = .ok c := by
  have hlt : i.toNat < v.length := by omega
  refine ⟨v[i.toNat], List.getElem?_eq_getElem hlt, ?_⟩
  unfold getChars
  rw [if_neg (by omega), List.getElem?_eq_getElem hlt]

theorem getChars_throw {v : WStr} {i : Int} (h : i < 0 ∨ i ≥ v.length) : getChars v i = .throw .indexOutOfRange := by
  unfold getChars; rw [if_pos h]

/-! ## StringBuilder made from a string -/

theorem sbOf_ok {v : WStr} (h : v ≠ []) (hl : (v.length : Int) ≤ limit) :
    ∃ s, sbOf v = .done s ∧ Inv s ∧ content s = v ∧ s.len = v.length ∧ s.maxCap = 2147483647 ∧
      s.buf[s.len]? = some 0 ∧ s.len ≤ s.cap ∧ 128 ≤ s.cap := by
  have hlen : 0 < v.length := List.length_pos_iff.mpr h
  have hd : ∃ s, sbOf v = .done s := by
    unfold sbOf createFrom
    simp only [Option.getD_some]
    have e1 : ¬ ((128 : Int) = 0) := by omega
    rw [if_neg (by omega), if_neg (by omega), if_neg (by omega), if_neg (by omega), if_neg e1]
    rcases setCapacity_spec (c := max (128 : Int) (v.length : Int)) inv_initial' (Or.inl (by simp only [limit] at *; omega)) with
      ⟨he, hq⟩ | ⟨t, he, hs, _, _, hc, _⟩
    · exfalso
      have : initial.maxCap = 2147483647 := rfl
      have : initial.internal = true := rfl
      simp only [limit] at hl
      rcases hq with hq | hq | hq
      · omega
      · omega
      · simp_all
    · rw [he, andThen_done, if_neg (by omega)]
      have hcl := hs.inv.cap_le
      have hxl : ((v.drop (0 : Int).toNat).take (v.length : Int).toNat).length = v.length := by simp
      obtain ⟨b, hb, _⟩ := poke_some (buf := t.buf) (i := 0) (xs := (v.drop (0 : Int).toNat).take (v.length : Int).toNat) (by omega)
        (by rw [hxl]; omega)
      rw [hb]
      exact ⟨_, rfl⟩
  obtain ⟨s, hs⟩ := hd
  have hg := createFrom_good (v := some v) (i := 0) (n := v.length) (c := 128) hs
  obtain ⟨g1, g2, g3, g4, g5, _, _, _, _, _, g6, g7⟩ := hg
  refine ⟨s, hs, g1, by rw [g2]; simp, by rw [g3]; simp, g4, g5, g6, by omega⟩

theorem sbOf_empty : sbOf [] = .threw .indexOutOfRange initial := by decide +kernel

theorem _root_.Verif.SBModel.ReplacedN.count {pat rep l ys : WStr} {k : Nat} (h : ReplacedN pat rep l ys k) (hp : pat ≠ []) :
    k ≠ 0 ↔ pat <:+: l := by
  induction h with
  | nil => simp [hp]
  | hit h ih =>
    refine ⟨fun _ => ?_, fun _ => by omega⟩
    exact (List.prefix_append _ _).isInfix
  | miss hn h ih =>
    rw [ih, List.infix_cons_iff]
    constructor
    · exact Or.inr
    · rintro (hh | hh)
      · exact absurd hh hn
      · exact hh

/-- Counting occurrences in the range `mid` of the text. -/
theorem count_range {s : SB} {pre mid post pat : WStr} {i n : Int} (h : Inv s) (hc : content s = pre ++ mid ++ post)
    (hp : pat ≠ []) (hsm : pat.length < 536870912) (hi : i = pre.length) (hn : n = mid.length) :
    ∃ k, countSubStrings s pat i n = .ok k ∧ (k ≠ 0 ↔ pat <:+: mid) := by
  have hp' : pat.length ≠ 0 := fun hh => hp (List.length_eq_zero_iff.mp hh)
  have hll := h.len_le
  obtain ⟨ys, k, hr, hcount⟩ := countLoop_spec (buf := s.buf) (pat := pat) (rep := []) hp' (i + 1 + n - pat.length - i).toNat pre mid post s.len 0 hc (by omega) (by omega)
  refine ⟨k, ?_, hr.count hp⟩
  unfold countSubStrings
  simp only []
  rw [if_neg (by omega)]
  have ee : (pre.length : Int) + mid.length + 1 - pat.length = i + 1 + n - pat.length := by omega
  rw [ee, ← hi, Nat.zero_add] at hcount
  exact hcount

/-! ## Searching -/

theorem findText_some {hay needle : WStr} {k : Nat} (h : findText hay needle = some k) :
    OccursAt needle hay k ∧ k ≤ hay.length ∧ ∀ j, j < k → ¬ OccursAt needle hay j := by
  induction hay generalizing k with
  | nil =>
    unfold findText at h
    split at h
    · rename_i hpre
      injection h with h; subst h
      exact ⟨hpre, by simp, fun j hj => by omega⟩
    · simp at h
  | cons x t ih =>
    unfold findText at h
    split at h
    · rename_i hpre
      injection h with h; subst h
      exact ⟨hpre, by simp, fun j hj => by omega⟩
    · rename_i hn
      simp only [Option.map_eq_some_iff] at h
      obtain ⟨m, hm, rfl⟩ := h
      obtain ⟨a, b, c⟩ := ih hm
      refine ⟨by simpa [OccursAt] using a, by simp; omega, ?_⟩
      intro j hj
      cases j with
      | zero => simpa [OccursAt] using hn
      | succ j => simpa [OccursAt] using c j (by omega)

theorem findText_none {hay needle : WStr} (h : findText hay needle = none) : ∀ j, j ≤ hay.length → ¬ OccursAt needle hay j := by
  induction hay with
  | nil =>
    unfold findText at h
    split at h
    · simp at h
    · rename_i hn
      intro j hj
      have : j = 0 := by simpa using hj
      subst this
      simpa [OccursAt] using hn
  | cons x t ih =>
    unfold findText at h
    split at h
    · simp at h
    · rename_i hn
      simp only [Option.map_eq_none_iff] at h
      intro j hj
      cases j with
      | zero => simpa [OccursAt] using hn
      | succ j => simpa [OccursAt] using ih h j (by simpa using hj)

theorem occursAt_drop {p v : WStr} {i k : Nat} : OccursAt p (v.drop i) k ↔ OccursAt p v (i + k) := by
  unfold OccursAt; rw [List.drop_drop]

theorem occursAt_length {p v : WStr} {i : Nat} (h : OccursAt p v i) : p.length ≤ v.length - i := by
  have := h.length_le; simpa using this

/-- The forward search loop. -/
theorem indexLoop_spec (p : Nat → Bool) (v : WStr) : ∀ (n i : Nat), i + n ≤ v.length →
    ∃ r, indexLoop p v n i = .ok r ∧ IsFirst (fun j => ∃ c, v[j]? = some c ∧ p c = true) i (i + n) r
  | 0, i, _ => ⟨-1, rfl, Or.inl ⟨rfl, fun j h1 h2 => by omega⟩⟩
  | n + 1, i, h => by
    obtain ⟨c, hc, hg⟩ := getChars_ok (v := v) (i := (i : Int)) (by omega) (by omega)
    have hti : (i : Int).toNat = i := by omega
    rw [hti] at hc
    unfold indexLoop
    rw [hg, Res.bind_ok]
    by_cases hp : p c = true
    · rw [if_pos hp]
      exact ⟨i, rfl, Or.inr ⟨i, rfl, Nat.le_refl _, by omega, ⟨c, hc, hp⟩, fun j h1 h2 => by omega⟩⟩
    · rw [if_neg hp]
      obtain ⟨r, hr, hs⟩ := indexLoop_spec p v n (i + 1) (by omega)
      refine ⟨r, by rw [← hr]; congr 1, ?_⟩
      have hni : ¬ ∃ c, v[i]? = some c ∧ p c = true := by
        rintro ⟨d, hd, hpd⟩; rw [hc] at hd; injection hd with hd; subst hd; exact hp hpd
      rcases hs with ⟨h1, h2⟩ | ⟨m, h1, h2, h3, h4, h5⟩
      · refine Or.inl ⟨h1, fun j hj1 hj2 => ?_⟩
        by_cases hji : j = i
        · subst hji; exact hni
        · exact h2 j (by omega) (by omega)
      · refine Or.inr ⟨m, h1, by omega, by omega, h4, fun j hj1 hj2 => ?_⟩
        by_cases hji : j = i
        · subst hji; exact hni
        · exact h5 j (by omega) (by omega)

/-- The backward search loop: `n` steps down from `i`. -/
theorem lastLoop_spec (p : Nat → Bool) (v : WStr) : ∀ (n i : Nat), n ≤ i + 1 → i < v.length →
    ∃ r, lastLoop p v n i = .ok r ∧ IsLast (fun j => ∃ c, v[j]? = some c ∧ p c = true) (i + 1 - n) (i + 1) r
  | 0, i, _, _ => ⟨-1, rfl, Or.inl ⟨rfl, fun j h1 h2 => by omega⟩⟩
  | n + 1, i, hn, h => by
    obtain ⟨c, hc, hg⟩ := getChars_ok (v := v) (i := (i : Int)) (by omega) (by omega)
    have hti : (i : Int).toNat = i := by omega
    rw [hti] at hc
    unfold lastLoop
    rw [hg, Res.bind_ok]
    by_cases hp : p c = true
    · rw [if_pos hp]
      exact ⟨i, rfl, Or.inr ⟨i, rfl, by omega, by omega, ⟨c, hc, hp⟩, fun j h1 h2 => by omega⟩⟩
    · rw [if_neg hp]
      have hni : ¬ ∃ c, v[i]? = some c ∧ p c = true := by
        rintro ⟨d, hd, hpd⟩; rw [hc] at hd; injection hd with hd; subst hd; exact hp hpd
      cases i with
      | zero =>
        have hn0 : n = 0 := by omega
        subst hn0
        refine ⟨-1, rfl, Or.inl ⟨rfl, fun j h1 h2 => ?_⟩⟩
        have : j = 0 := by omega
        subst this; exact hni
      | succ i =>
        obtain ⟨r, hr, hs⟩ := lastLoop_spec p v n i (by omega) (by omega)
        refine ⟨r, by rw [← hr]; congr 1; omega, ?_⟩
        rcases hs with ⟨h1, h2⟩ | ⟨m, h1, h2, h3, h4, h5⟩
        · refine Or.inl ⟨h1, fun j hj1 hj2 => ?_⟩
          by_cases hji : j = i + 1
          · subst hji; exact hni
          · exact h2 j (by omega) (by omega)
        · refine Or.inr ⟨m, h1, by omega, by omega, h4, fun j hj1 hj2 => ?_⟩
          by_cases hji : j = i + 1
          · subst hji; exact hni
          · exact h5 j (by omega) (by omega)

/-- The backward text search: `n` steps down from `i`, nothing found above `i` up to `start`. -/
theorem lastStrLoop_spec {v p : WStr} {start : Nat} (hv : 0 ∉ v) (hp : 0 ∉ p) (hst : start ≤ v.length) :
    ∀ (n i : Nat), n ≤ i + 1 → i ≤ start → (∀ j, i < j → j ≤ start → ¬ OccursAt p v j) →
    ∃ r, lastStrLoop v p start n i = .ok r ∧ IsLast (fun j => OccursAt p v j) (i + 1 - n) (start + 1) r
  | 0, i, _, _, hno => ⟨-1, rfl, Or.inl ⟨rfl, fun j h1 h2 => hno j (by omega) (by omega)⟩⟩
  | n + 1, i, hn, h, hno => by
    unfold lastStrLoop
    rw [if_neg (by omega)]
    have hti : (i : Int).toNat = i := by omega
    rw [hti, cText_drop hv (by omega), cText_cells' p hp]
    have step : ∀ (_ : ¬ OccursAt p v i), ∃ r, lastStrLoop v p start n (i - 1) = .ok r ∧ IsLast (fun j => OccursAt p v j) (i + 1 - (n + 1)) (start + 1) r := by
      intro hni
      have hno' : ∀ j, i - 1 < j → j ≤ start → 0 < i → ¬ OccursAt p v j := by
        intro j h1 h2 _
        by_cases hji : j = i
        · subst hji; exact hni
        · exact hno j (by omega) h2
      cases i with
      | zero =>
        have hn0 : n = 0 := by omega
        subst hn0
        refine ⟨-1, rfl, Or.inl ⟨rfl, fun j h1 h2 => ?_⟩⟩
        by_cases hj : j = 0
        · subst hj; exact hni
        · exact hno j (by omega) (by omega)
      | succ i =>
        obtain ⟨r, hr, hs⟩ := lastStrLoop_spec hv hp hst n i (by omega) (by omega) (fun j h1 h2 => hno' j (by omega) h2 (by omega))
        refine ⟨r, by rw [← hr]; congr 1; omega, ?_⟩
        have e : i + 1 + 1 - (n + 1) = i + 1 - n := by omega
        rw [e]; exact hs
    cases hf : findText (v.drop i) p with
    | none =>
      refine step ?_
      have := findText_none hf 0 (by omega)
      rw [occursAt_drop] at this
      simpa using this
    | some k =>
      obtain ⟨f1, f2, f3⟩ := findText_some hf
      rw [occursAt_drop] at f1
      simp only []
      by_cases hk : (i : Int) + k ≤ start
      · rw [if_pos hk]
        have hk0 : k = 0 := by
          by_cases hk0 : k = 0
          · exact hk0
          · exact absurd f1 (hno (i + k) (by omega) (by omega))
        subst hk0
        refine ⟨_, rfl, Or.inr ⟨i, by simp, by omega, by omega, by simpa using f1, fun j h1 h2 => hno j h1 (by omega)⟩⟩
      · rw [if_neg hk]
        refine step ?_
        have := f3 0 (by omega)
        rw [occursAt_drop] at this
        simpa using this

/-! ## Trimming -/

theorem isWhiteSpace_iff (c : Nat) (sep : WStr) : isWhiteSpace c sep = true ↔ c ∈ sep := by
  induction sep with
  | nil => simp [isWhiteSpace]
  | cons d t ih =>
    unfold isWhiteSpace
    split
    · simp_all
    · simp_all

theorem trimStartLoop_spec (v sep : WStr) : ∀ (n i : Nat), i + n = v.length →
    ∃ r : Nat, trimStartLoop v sep n i = .ok r ∧ i ≤ r ∧ r ≤ v.length ∧
      (∀ j, i ≤ j → j < r → ∃ c, v[j]? = some c ∧ c ∈ sep) ∧ (∀ c, v[r]? = some c → c ∉ sep)
  | 0, i, h => ⟨i, rfl, by omega, by omega, fun j h1 h2 => by omega, fun c hc => by
      rw [List.getElem?_eq_none (by omega)] at hc; cases hc⟩
  | n + 1, i, h => by
    obtain ⟨c, hc, hg⟩ := getChars_ok (v := v) (i := (i : Int)) (by omega) (by omega)
    have hti : (i : Int).toNat = i := by omega
    rw [hti] at hc
    unfold trimStartLoop
    rw [hg, Res.bind_ok]
    by_cases hp : isWhiteSpace c sep = true
    · rw [if_pos hp]
      obtain ⟨r, hr, h1, h2, h3, h4⟩ := trimStartLoop_spec v sep n (i + 1) (by omega)
      refine ⟨r, by rw [← hr]; congr 1, by omega, h2, fun j hj1 hj2 => ?_, h4⟩
      by_cases hji : j = i
      · subst hji; exact ⟨c, hc, (isWhiteSpace_iff _ _).mp hp⟩
      · exact h3 j (by omega) hj2
    · rw [if_neg hp]
      refine ⟨i, rfl, Nat.le_refl _, by omega, fun j h1 h2 => by omega, ?_⟩
      intro d hd
      rw [hc] at hd; injection hd with hd; subst hd
      exact fun hh => hp ((isWhiteSpace_iff _ _).mpr hh)

/-- `e` is one past the last kept position. -/
theorem trimEndLoop_spec (v sep : WStr) (start : Nat) : ∀ (n e : Nat), start + n = e → e ≤ v.length →
    ∃ r : Nat, trimEndLoop v sep n ((e : Int) - 1) = .ok ((r : Int) - 1) ∧ start ≤ r ∧ r ≤ e ∧
      (∀ j, r ≤ j → j < e → ∃ c, v[j]? = some c ∧ c ∈ sep) ∧ (start < r → ∀ c, v[r - 1]? = some c → c ∉ sep)
  | 0, e, h, _ => ⟨e, rfl, by omega, Nat.le_refl _, fun j h1 h2 => by omega, fun h1 => by omega⟩
  | n + 1, e, h, he => by
    obtain ⟨c, hc, hg⟩ := getChars_ok (v := v) (i := (e : Int) - 1) (by omega) (by omega)
    have hti : ((e : Int) - 1).toNat = e - 1 := by omega
    rw [hti] at hc
    unfold trimEndLoop
    rw [hg, Res.bind_ok]
    by_cases hp : isWhiteSpace c sep = true
    · rw [if_pos hp]
      obtain ⟨r, hr, h1, h2, h3, h4⟩ := trimEndLoop_spec v sep start n (e - 1) (by omega) (by omega)
      have e1 : ((e - 1 : Nat) : Int) - 1 = (e : Int) - 1 - 1 := by omega
      rw [e1] at hr
      refine ⟨r, hr, h1, by omega, fun j hj1 hj2 => ?_, h4⟩
      by_cases hji : j = e - 1
      · subst hji; exact ⟨c, hc, (isWhiteSpace_iff _ _).mp hp⟩
      · exact h3 j hj1 (by omega)
    · rw [if_neg hp]
      refine ⟨e, rfl, by omega, Nat.le_refl _, fun j h1 h2 => by omega, ?_⟩
      intro _ d hd
      rw [hc] at hd; injection hd with hd; subst hd
      exact fun hh => hp ((isWhiteSpace_iff _ _).mpr hh)

end Verif.StrModel
