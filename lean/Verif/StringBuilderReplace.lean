import Verif.StringBuilderLemmas
set_option linter.unusedSimpArgs false
/-!
# Lemmas for repeated Insert and for Replace(String, String)
-/
namespace Verif.SBModel
open SBSpec

/-! ## Insert(index, string, count) -/

theorem repeated_comm (v : WStr) : ∀ k, repeated v k ++ v = v ++ repeated v k
  | 0 => by simp [repeated]
  | k + 1 => by simp only [repeated, List.append_assoc, repeated_comm v k]

theorem repeated_length (v : WStr) : ∀ k, (repeated v k).length = k * v.length
  | 0 => by simp [repeated]
  | k + 1 => by simp only [repeated, List.length_append, repeated_length v k]; rw [Nat.succ_mul]; omega

theorem insertAt_insertAt {xs ys zs : WStr} {i : Nat} (h : i ≤ xs.length) :
    insertAt (insertAt xs i ys) i zs = insertAt xs i (zs ++ ys) := by
  have h1 : (xs.take i).length = i := by simp; omega
  have e1 : List.take i (insertAt xs i ys) = xs.take i := by
    unfold insertAt; rw [List.append_assoc, List.take_append_of_le_length (by omega), List.take_take, Nat.min_self]
  have e2 : List.drop i (insertAt xs i ys) = ys ++ xs.drop i := by
    unfold insertAt
    rw [List.append_assoc, List.drop_append_of_le_length (by omega), List.drop_eq_nil_of_le (by omega), List.nil_append]
  unfold insertAt at *
  rw [e1, e2]; simp [List.append_assoc]

theorem take_all_append (v : WStr) : ((v ++ [0]).take ((v.length : Int)).toNat) = v := by simp

theorem insertLoop_mem {index : Int} {v : WStr} (hw : 0 ≤ index ∨ index = -1) :
    ∀ (k : Nat) (s : SB), Inv s → s.len + (k * v.length : Nat) ≤ limit →
      ∃ s', (insertLoop index v k s = .done s' ∨ ∃ e, insertLoop index v k s = .threw e s') ∧ Inv s' ∧ s'.maxCap = s.maxCap ∧
        (s.len ≤ s.cap → s'.len ≤ s'.cap) ∧ (s.buf[s.len]? = some 0 → s'.buf[s'.len]? = some 0) ∧ s.len ≤ s'.len
  | 0, s, h, _ => ⟨s, Or.inl rfl, h, rfl, id, id, Nat.le_refl _⟩
  | k + 1, s, h, hl => by
    unfold insertLoop
    by_cases hv : v.length = 0
    · rw [if_pos hv]; exact ⟨s, Or.inr ⟨_, rfl⟩, h, rfl, id, id, Nat.le_refl _⟩
    rw [if_neg hv]
    rw [Nat.succ_mul] at hl
    rcases appendRaw_spec (values := v ++ [0]) (n := v.length) (whr := index) h (by omega) (by simp; omega) hw (by simp only [limit] at *; omega)
      with ⟨he, _⟩ | ⟨he, _⟩ | ⟨t, he, _, htl, hed, hc, _⟩
    · rw [he]; exact ⟨s, Or.inr ⟨_, rfl⟩, h, rfl, id, id, Nat.le_refl _⟩
    · rw [he]; exact ⟨s, Or.inr ⟨_, rfl⟩, h, rfl, id, id, Nat.le_refl _⟩
    · rw [he]
      obtain ⟨s', ho, hi, hm, hcc, ht, hle⟩ := insertLoop_mem (index := index) (v := v) hw k t hed.inv (by simp only [limit] at *; omega)
      exact ⟨s', ho, hi, by rw [hm, hed.max], fun _ => hcc hc, fun hh => ht (hed.term hh), by omega⟩

theorem insertLoop_done {index : Int} {v : WStr} (hw : 0 ≤ index) (hv : v.length ≠ 0) :
    ∀ (k : Nat) (s : SB), Inv s → s.len + (k * v.length : Nat) ≤ limit → s.len + (k * v.length : Nat) ≤ s.maxCap → index ≤ s.len →
      ∃ s', insertLoop index v k s = .done s' ∧ Inv s' ∧ content s' = insertAt (content s) index.toNat (repeated v k)
  | 0, s, h, _, _, _ => ⟨s, rfl, h, by simp [repeated, insertAt]⟩
  | k + 1, s, h, hl, hm, hi => by
    unfold insertLoop
    rw [if_neg hv]
    rw [Nat.succ_mul] at hl hm
    rcases appendRaw_spec (values := v ++ [0]) (n := v.length) (whr := index) h (by omega) (by simp; omega) (Or.inl hw) (by simp only [limit] at *; omega)
      with ⟨he, hx⟩ | ⟨he, _, hx, _⟩ | ⟨t, he, _, htl, hed, hc, _⟩
    · omega
    · exfalso; omega
    · rw [he]
      rw [if_neg (by omega), take_all_append] at hed
      obtain ⟨s', ho, hi', ht⟩ := insertLoop_done (index := index) (v := v) hw hv k t hed.inv (by simp only [limit] at *; omega)
        (by rw [hed.max]; omega) (by omega)
      refine ⟨s', ho, hi', ?_⟩
      rw [ht, hed.text, insertAt_insertAt (by rw [content_length h]; omega)]
      show _ = insertAt _ _ (v ++ repeated v k)
      rw [repeated_comm]

/-- A repeated insertion at a bad index throws at once. -/
theorem insertLoop_bad {index : Int} {v : WStr} {k : Nat} {s : SB} (hk : 0 < k) (hi : index > s.len) :
    insertLoop index v k s = .threw .indexOutOfRange s := by
  cases k with
  | zero => omega
  | succ k =>
    unfold insertLoop
    by_cases hv : v.length = 0
    · rw [if_pos hv]
    rw [if_neg hv]
    have hx : (if index = -1 then (s.len : Int) else index) = index := if_neg (by omega)
    unfold appendRaw
    simp only [hx]
    rw [if_pos hi]; rfl

/-! ## Replace -/

/-- `Replaced` with the number of replacements. -/
inductive ReplacedN (pat rep : WStr) : WStr → WStr → Nat → Prop
  | nil : ReplacedN pat rep [] [] 0
  | hit {t t' : WStr} {k : Nat} : ReplacedN pat rep t t' k → ReplacedN pat rep (pat ++ t) (rep ++ t') (k + 1)
  | miss {x : Nat} {t t' : WStr} {k : Nat} : ¬ pat <+: x :: t → ReplacedN pat rep t t' k → ReplacedN pat rep (x :: t) (x :: t') k

theorem ReplacedN.toReplaced {pat rep l ys : WStr} {k : Nat} (h : ReplacedN pat rep l ys k) : Replaced pat rep l ys := by
  induction h with
  | nil => exact .nil
  | hit _ ih => exact .hit ih
  | miss hn _ ih => exact .miss hn ih

theorem _root_.Verif.SBSpec.Replaced.toN {pat rep l ys : WStr} (h : Replaced pat rep l ys) : ∃ k, ReplacedN pat rep l ys k := by
  induction h with
  | nil => exact ⟨0, .nil⟩
  | hit _ ih => obtain ⟨k, hk⟩ := ih; exact ⟨k + 1, .hit hk⟩
  | miss hn _ ih => obtain ⟨k, hk⟩ := ih; exact ⟨k, .miss hn hk⟩

theorem ReplacedN.inv {pat rep l ys : WStr} {k : Nat} (h : ReplacedN pat rep l ys k) :
    (l = [] ∧ ys = [] ∧ k = 0) ∨
    (∃ t t' k', l = pat ++ t ∧ ys = rep ++ t' ∧ k = k' + 1 ∧ ReplacedN pat rep t t' k') ∨
    (∃ x t t', l = x :: t ∧ ys = x :: t' ∧ ¬ pat <+: x :: t ∧ ReplacedN pat rep t t' k) := by
  cases h with
  | nil => left; exact ⟨rfl, rfl, rfl⟩
  | hit h => right; left; exact ⟨_, _, _, rfl, rfl, rfl, h⟩
  | miss hn h => right; right; exact ⟨_, _, _, rfl, rfl, hn, h⟩

theorem ReplacedN.length {pat rep l ys : WStr} {k : Nat} (h : ReplacedN pat rep l ys k) :
    (ys.length : Int) = l.length + ((rep.length : Int) - pat.length) * k := by
  induction h with
  | nil => simp
  | @hit t t' k' _ ih =>
    simp only [List.length_append]; push_cast
    rw [Int.mul_add, Int.mul_one]; omega
  | miss _ _ ih => simp only [List.length_cons]; push_cast; omega

/-- A text shorter than the pattern has nothing to replace. -/
theorem ReplacedN.short {pat rep l ys : WStr} {k : Nat} (h : ReplacedN pat rep l ys k) : l.length < pat.length → ys = l ∧ k = 0 := by
  induction h with
  | nil => intro _; exact ⟨rfl, rfl⟩
  | hit _ ih => intro hl; simp only [List.length_append] at hl; omega
  | miss _ _ ih =>
    intro hl; simp only [List.length_cons] at hl
    obtain ⟨h1, h2⟩ := ih (by omega)
    exact ⟨by rw [h1], h2⟩

theorem ReplacedN.of_short {pat rep : WStr} : ∀ {l : WStr}, l.length < pat.length → ReplacedN pat rep l l 0
  | [], _ => .nil
  | x :: t, h => by
    simp only [List.length_cons] at h
    refine .miss ?_ (ReplacedN.of_short (by omega))
    intro hp
    have := hp.length_le
    simp only [List.length_cons] at this; omega

theorem ReplacedN.det {pat rep : WStr} (hp : pat ≠ []) {l ys : WStr} {k : Nat} (h : ReplacedN pat rep l ys k) :
    ∀ {zs : WStr} {m : Nat}, ReplacedN pat rep l zs m → zs = ys ∧ m = k := by
  induction h with
  | nil =>
    intro zs m h2
    rcases h2.inv with ⟨_, h3, h4⟩ | ⟨t, t', k', h3, _⟩ | ⟨x, t, t', h3, _⟩
    · exact ⟨h3, h4⟩
    · have := congrArg List.length h3
      simp only [List.length_nil, List.length_append] at this
      have hp' : pat.length ≠ 0 := by intro hh; exact hp (List.length_eq_zero_iff.mp hh)
      omega
    · simp at h3
  | @hit t t' k' _ ih =>
    intro zs m h2
    rcases h2.inv with ⟨h3, h4, h5⟩ | ⟨u, u', m', h3, h4, h5, h6⟩ | ⟨x, u, u', h3, h4, h5, h6⟩
    · have := congrArg List.length h3
      simp only [List.length_nil, List.length_append] at this
      have hp' : pat.length ≠ 0 := by intro hh; exact hp (List.length_eq_zero_iff.mp hh)
      omega
    · have : u = t := (List.append_cancel_left h3).symm
      subst this
      obtain ⟨e1, e2⟩ := ih h6
      exact ⟨by rw [h4, e1], by omega⟩
    · exfalso; exact h5 (h3 ▸ List.prefix_append _ _)
  | @miss x t t' k' hn _ ih =>
    intro zs m h2
    rcases h2.inv with ⟨h3, h4, h5⟩ | ⟨u, u', m', h3, h4, h5, h6⟩ | ⟨y, u, u', h3, h4, h5, h6⟩
    · simp at h3
    · exfalso; exact hn (h3 ▸ List.prefix_append _ _)
    · injection h3 with e1 e2
      subst e1; subst e2
      obtain ⟨e3, e4⟩ := ih h6
      exact ⟨by rw [h4, e3], e4⟩

theorem _root_.Verif.SBSpec.Replaced.det {pat rep l ys zs : WStr} (hp : pat ≠ []) (h : Replaced pat rep l ys) (h2 : Replaced pat rep l zs) : zs = ys := by
  obtain ⟨k, hk⟩ := h.toN
  obtain ⟨m, hm⟩ := h2.toN
  exact (hk.det hp hm).1

/-- Comparing the pattern at position `i` of a block whose first cells are `pre ++ mid ++ post`. -/
theorem peek_mid {buf pre mid post : List Nat} {n : Nat} (hb : buf.take n = pre ++ mid ++ post) (hn : n ≤ buf.length) {p : Nat}
    (hp : p ≤ mid.length) : peek buf (pre.length : Int) (p : Int) = some (mid.take p) := by
  have hl := congrArg List.length hb
  simp only [List.length_take, List.length_append] at hl
  rw [peek_some (by omega) (by omega) (by omega)]
  congr 1
  apply List.ext_getElem?
  intro j
  rw [List.getElem?_take, List.getElem?_take]
  split
  · rename_i hj
    have hj' : j < p := by omega
    rw [if_pos hj', List.getElem?_drop]
    have : buf[(pre.length : Int).toNat + j]? = (buf.take n)[pre.length + j]? := by
      rw [List.getElem?_take, if_pos (by omega)]; congr 1
    rw [this, hb, List.append_assoc, List.getElem?_append_right (by omega), List.getElem?_append_left (by omega)]
    congr 1; omega
  · rw [if_neg (by omega)]

theorem countLoop_spec {buf pat rep : WStr} (hp : pat.length ≠ 0) :
    ∀ (fuel : Nat) (pre mid post : WStr) (n acc : Nat), buf.take n = pre ++ mid ++ post → n ≤ buf.length → mid.length + 1 ≤ fuel + pat.length →
      ∃ ys k, ReplacedN pat rep mid ys k ∧
        countLoop buf pat fuel pre.length (pre.length + mid.length + 1 - pat.length) acc = .ok (acc + k)
  | 0, pre, mid, post, n, acc, hb, hn, hf => by
    refine ⟨mid, 0, ReplacedN.of_short (by omega), ?_⟩
    unfold countLoop
    rw [if_neg (by omega)]; rfl
  | fuel + 1, pre, mid, post, n, acc, hb, hn, hf => by
    unfold countLoop
    by_cases hi : (pre.length : Int) < pre.length + mid.length + 1 - pat.length
    · rw [if_pos hi, peek_mid hb hn (by omega)]
      simp only []
      by_cases hm : mid.take pat.length = pat
      · rw [if_pos hm]
        have hmid : mid = pat ++ mid.drop pat.length := by
          conv => lhs; rw [← List.take_append_drop pat.length mid, hm]
        generalize hd : mid.drop pat.length = t at hmid
        have hl : mid.length = pat.length + t.length := by rw [hmid]; simp
        obtain ⟨ys, k, hr, hc⟩ := countLoop_spec (buf := buf) (rep := rep) hp fuel (pre ++ pat) t post n (acc + 1)
          (by rw [hb, hmid]; simp [List.append_assoc]) hn (by omega)
        refine ⟨rep ++ ys, k + 1, ?_, ?_⟩
        · rw [hmid]; exact .hit hr
        · rw [List.length_append] at hc
          have e1 : ((pre.length + pat.length : Nat) : Int) = pre.length + pat.length := by push_cast; rfl
          have e2 : ((pre.length + pat.length : Nat) : Int) + t.length + 1 - pat.length = pre.length + mid.length + 1 - pat.length := by
            rw [hl]; push_cast; omega
          rw [e2, e1] at hc
          rw [hc]; congr 1; omega
      · rw [if_neg hm]
        cases mid with
        | nil => simp only [List.length_nil] at hi; omega
        | cons x t =>
          obtain ⟨ys, k, hr, hc⟩ := countLoop_spec (buf := buf) (rep := rep) hp fuel (pre ++ [x]) t post n acc
            (by rw [hb]; simp [List.append_assoc]) hn (by simp only [List.length_cons] at hf; omega)
          refine ⟨x :: ys, k, .miss ?_ hr, ?_⟩
          · intro hpre
            exact hm (List.prefix_iff_eq_take.mp hpre).symm
          · rw [List.length_append, List.length_singleton] at hc
            have e1 : ((pre.length + 1 : Nat) : Int) = pre.length + 1 := by push_cast; rfl
            have e2 : ((pre.length + 1 : Nat) : Int) + t.length + 1 - pat.length = pre.length + (x :: t).length + 1 - pat.length := by
              simp only [List.length_cons]; push_cast; omega
            rw [e2, e1] at hc
            exact hc
    · rw [if_neg hi]
      exact ⟨mid, 0, ReplacedN.of_short (by omega), rfl⟩

theorem skip2 {pre pat t post : WStr} {q : Nat} (h : pre.length + pat.length ≤ q) :
    (pre ++ ((pat ++ t) ++ post))[q]? = (t ++ post)[q - (pre.length + pat.length)]? := by
  have : pre ++ ((pat ++ t) ++ post) = (pre ++ pat) ++ (t ++ post) := by simp [List.append_assoc]
  rw [this, List.getElem?_append_right (by simp only [List.length_append]; omega), List.length_append]

theorem skip3 {pre rep t : WStr} {q : Nat} (h : pre.length + rep.length ≤ q) :
    (pre ++ (rep ++ t))[q]? = t[q - (pre.length + rep.length)]? := by
  rw [← List.append_assoc, List.getElem?_append_right (by rw [List.length_append]; omega), List.length_append]

theorem ReplacedN.zero {pat rep l ys : WStr} {k : Nat} (h : ReplacedN pat rep l ys k) : k = 0 → ys = l := by
  induction h with
  | nil => intro _; rfl
  | hit _ ih => intro hz; omega
  | miss _ _ ih => intro hz; rw [ih hz]

theorem replaceHit {s : SB} {pre pat rep t post : WStr} (h : Inv s) (hc : content s = pre ++ (pat ++ t) ++ post)
    (hroom : (s.len : Int) + (rep.length - pat.length) + 1 ≤ s.buf.length) :
    ∃ b1 b2 b3, move s.buf (pre.length + rep.length) (pre.length + pat.length) (s.len - pre.length - pat.length) = some b1 ∧
      poke b1 (s.len + (rep.length - pat.length)) [0] = some b2 ∧ poke b2 (pre.length : Int) rep = some b3 ∧
      Inv { s with buf := b3, len := (s.len + ((rep.length : Int) - pat.length)).toNat } ∧ b3.length = s.buf.length ∧
      content { s with buf := b3, len := (s.len + ((rep.length : Int) - pat.length)).toNat } = (pre ++ rep) ++ t ++ post ∧
      b3[(s.len + ((rep.length : Int) - pat.length)).toNat]? = some 0 := by
  have hll := h.len_le
  have hlen := congrArg List.length hc
  rw [content_length h] at hlen
  simp only [List.length_append] at hlen
  obtain ⟨b1, hb1, hl1, hg1⟩ := move_some (buf := s.buf) (d := pre.length + rep.length) (i := pre.length + pat.length)
    (n := s.len - pre.length - pat.length) (by omega) (by omega) (by omega) (by omega) (by omega)
  obtain ⟨b2, hb2, hl2, hg2⟩ := poke_some (buf := b1) (i := s.len + (rep.length - pat.length)) (xs := [0]) (by omega)
    (by simp only [List.length_singleton]; omega)
  obtain ⟨b3, hb3, hl3, hg3⟩ := poke_some (buf := b2) (i := pre.length) (xs := rep) (by omega) (by omega)
  simp only [List.length_singleton] at hg2
  have hnewlen : (s.len + ((rep.length : Int) - pat.length)).toNat = pre.length + rep.length + (t.length + post.length) := by omega
  refine ⟨b1, b2, b3, hb1, hb2, hb3, ⟨?_, h.capI, h.capH, ?_, ?_, h.max1, h.max2⟩, by omega, ?_, ?_⟩
  · show b3.length = _; rw [hl3, hl2, hl1]; exact h.size
  · show (s.len + ((rep.length : Int) - pat.length)).toNat + 1 ≤ b3.length; omega
  · show b3[b3.length - 1]? = _
    rw [hg3, if_neg (by omega), hg2]
    by_cases hx : b3.length - 1 = (s.len + ((rep.length : Int) - pat.length)).toNat
    · rw [if_pos (by omega)]
      have : b3.length - 1 - (s.len + ((rep.length : Int) - pat.length)).toNat = 0 := by omega
      rw [this]; rfl
    · rw [if_neg (by omega), hg1, if_neg (by omega), hl3, hl2, hl1]; exact h.nul
  · apply content_ext
    · show _ = (s.len + ((rep.length : Int) - pat.length)).toNat
      simp only [List.length_append]; omega
    · intro j hj
      have hj' : j < (s.len + ((rep.length : Int) - pat.length)).toNat := hj
      show b3[j]? = _
      have hcj : ∀ k, k < s.len → s.buf[k]? = (pre ++ ((pat ++ t) ++ post))[k]? := by
        intro k hk
        have : (content s)[k]? = s.buf[k]? := by rw [content_get, if_pos hk]
        rw [← this, hc, List.append_assoc]
      rw [hg3, List.append_assoc, List.append_assoc]
      by_cases c1 : j < pre.length
      · rw [if_neg (by omega), hg2, if_neg (by omega), hg1, if_neg (by omega), hcj _ (by omega),
          List.getElem?_append_left c1, List.getElem?_append_left c1]
      · by_cases c2 : j < pre.length + rep.length
        · rw [if_pos (by omega), List.getElem?_append_right (by omega), List.getElem?_append_left (by omega)]
          congr 1
        · rw [if_neg (by omega), hg2, if_neg (by omega), hg1, if_pos (by omega), hcj _ (by omega),
            skip2 (by omega), skip3 (by omega)]
          congr 1; omega
  · rw [hg3, if_neg (by omega), hg2, if_pos (by omega)]
    have : (s.len + ((rep.length : Int) - pat.length)).toNat - (s.len + ((rep.length : Int) - pat.length)).toNat = 0 := by omega
    rw [this]; rfl

theorem replaceLoop_spec {pat rep : WStr} (hp : pat.length ≠ 0) :
    ∀ (fuel : Nat) (s : SB) (pre mid post ys : WStr) (k : Nat), Inv s → content s = pre ++ mid ++ post →
      ReplacedN pat rep mid ys k → mid.length + 1 ≤ fuel + pat.length →
      (rep.length ≤ pat.length ∨ (s.len : Int) + (rep.length - pat.length) * k + 1 ≤ s.buf.length) →
      ∃ s', replaceLoop pat rep fuel pre.length (pre.length + mid.length + 1 - pat.length) s = .done s' ∧ Inv s' ∧
        s'.maxCap = s.maxCap ∧ s'.cap = s.cap ∧ content s' = pre ++ ys ++ post ∧
        (s.buf[s.len]? = some 0 → s'.buf[s'.len]? = some 0)
  | 0, s, pre, mid, post, ys, k, h, hc, hr, hf, _ => by
    obtain ⟨e1, e2⟩ := hr.short (by omega)
    unfold replaceLoop
    rw [if_neg (by omega)]
    exact ⟨s, rfl, h, rfl, rfl, by rw [e1, hc], id⟩
  | fuel + 1, s, pre, mid, post, ys, k, h, hc, hr, hf, hroom => by
    have hll := h.len_le
    unfold replaceLoop
    by_cases hi : (pre.length : Int) < pre.length + mid.length + 1 - pat.length
    · rw [if_pos hi, peek_mid (n := s.len) hc (by omega) (by omega)]
      simp only []
      rcases hr.inv with ⟨e1, e2, e3⟩ | ⟨t, t', k', e1, e2, e3, hr'⟩ | ⟨x, t, t', e1, e2, hn, hr'⟩
      · rw [e1] at hi; simp only [List.length_nil] at hi; omega
      · subst e1
        rw [if_pos (by simp)]
        have hlen := congrArg List.length hc
        rw [content_length h] at hlen
        simp only [List.length_append] at hlen
        have hk : (rep.length : Int) ≤ pat.length ∨ 0 ≤ ((rep.length : Int) - pat.length) * k' := by
          rcases Int.le_total (rep.length : Int) pat.length with hh | hh
          · exact Or.inl hh
          · right; exact Int.mul_nonneg (by omega) (by omega)
        have hke : ((rep.length : Int) - pat.length) * (k : Int) = ((rep.length : Int) - pat.length) * k' + ((rep.length : Int) - pat.length) := by
          rw [e3]; push_cast; rw [Int.mul_add, Int.mul_one]
        generalize hgk : ((rep.length : Int) - pat.length) * k' = dk at *
        rw [hke] at hroom
        obtain ⟨b1, b2, b3, hb1, hb2, hb3, hinv, hbl, htext, hterm⟩ := replaceHit (rep := rep) h hc (by omega)
        simp only [hb1, hb2, hb3, withBuf]
        obtain ⟨s', ho, hi', hm, hcap, ht, htm⟩ := replaceLoop_spec hp fuel _ (pre ++ rep) t post t' k' hinv htext hr'
          (by simp only [List.length_append] at hf; omega)
          (by rcases hroom with hh | hh
              · exact Or.inl hh
              · by_cases hle : rep.length ≤ pat.length
                · exact Or.inl hle
                · right
                  show (((s.len + ((rep.length : Int) - pat.length)).toNat : Nat) : Int) + ((rep.length : Int) - pat.length) * k' + 1 ≤ (b3.length : Int)
                  rw [hgk]; omega)
        refine ⟨s', ?_, hi', by rw [hm], by rw [hcap], ?_, ?_⟩
        · rw [← ho]
          have e4 : ((pre ++ rep).length : Int) = pre.length + rep.length := by simp
          have e5 : (pre.length : Int) + (pat ++ t).length + 1 - pat.length + (rep.length - pat.length) =
              (pre ++ rep).length + t.length + 1 - pat.length := by
            simp only [List.length_append]; push_cast; omega
          rw [e5, e4]
        · rw [ht, e2]; simp [List.append_assoc]
        · intro _; exact htm hterm
      · subst e1
        rw [if_neg (by intro hh; exact hn (List.prefix_iff_eq_take.mpr hh.symm))]
        obtain ⟨s', ho, hi', hm, hcap, ht, htm⟩ := replaceLoop_spec hp fuel s (pre ++ [x]) t post t' k h
          (by rw [hc]; simp [List.append_assoc]) hr' (by simp only [List.length_cons] at hf; omega) hroom
        refine ⟨s', ?_, hi', hm, hcap, ?_, htm⟩
        · rw [← ho]
          have e4 : ((pre ++ [x]).length : Int) = pre.length + 1 := by simp
          have e5 : (pre.length : Int) + (x :: t).length + 1 - pat.length = (pre ++ [x]).length + t.length + 1 - pat.length := by
            simp only [List.length_append, List.length_cons, List.length_nil]; push_cast; omega
          rw [e5, e4]
        · rw [ht, e2]; simp [List.append_assoc]
    · rw [if_neg hi]
      obtain ⟨e1, e2⟩ := hr.short (by omega)
      exact ⟨s, rfl, h, rfl, rfl, by rw [e1, hc], id⟩

theorem split3 (xs : WStr) (i n : Nat) : xs = xs.take i ++ (xs.drop i).take n ++ xs.drop (i + n) := by
  rw [List.append_assoc, ← List.drop_drop, List.take_append_drop, List.take_append_drop]

/-- The whole call. -/
theorem replaceStr_spec {s : SB} {pat : WStr} {rep : Option WStr} {i n : Int} (h : Inv s) (hp : pat.length ≠ 0) (hsm : pat.length < 536870912 ∨ n < pat.length)
    (hlim : ∀ ys, Replaced pat (rep.getD []) (((content s).drop i.toNat).take n.toNat) ys → (s.len : Int) - n + ys.length ≤ limit) :
    (replaceStr s (some pat) rep i n = .threw .argumentOutOfRange s ∧ (i < 0 ∨ n < 0 ∨ i + n > s.len)) ∨
    (0 ≤ i ∧ 0 ≤ n ∧ i + n ≤ s.len ∧ ∃ ys, Replaced pat (rep.getD []) (((content s).drop i.toNat).take n.toNat) ys ∧
      ((replaceStr s (some pat) rep i n = .threw .argumentOutOfRange s ∧ (s.len : Int) - n + ys.length > s.maxCap) ∨
       (∃ s', replaceStr s (some pat) rep i n = .done s' ∧
         Edit s s' ((content s).take i.toNat ++ ys ++ (content s).drop (i.toNat + n.toNat))))) := by
  have hll := h.len_le
  have hct := content_length h
  unfold replaceStr
  by_cases h1 : i < 0 ∨ i > s.len
  · left; rw [if_pos h1]; refine ⟨rfl, ?_⟩; omega
  rw [if_neg h1]
  by_cases h2 : n < 0 ∨ i > s.len - n
  · left; rw [if_pos h2]; refine ⟨rfl, ?_⟩; omega
  rw [if_neg h2]
  right
  refine ⟨by omega, by omega, by omega, ?_⟩
  simp only []
  rw [if_neg hp]
  generalize hrep : rep.getD [] = r at *
  generalize hpre : (content s).take i.toNat = pre
  generalize hmid : ((content s).drop i.toNat).take n.toNat = mid at *
  generalize hpost : (content s).drop (i.toNat + n.toNat) = post
  have hsplit : content s = pre ++ mid ++ post := by
    rw [← hpre, ← hmid, ← hpost]; exact split3 _ _ _
  have hprel : pre.length = i.toNat := by rw [← hpre]; simp; omega
  have hmidl : mid.length = n.toNat := by rw [← hmid]; simp; omega
  obtain ⟨ys, k, hr, hcount⟩ := countLoop_spec (rep := r) hp (i + 1 + n - pat.length - i).toNat pre mid post s.len 0 hsplit (by omega) (by omega)
  refine ⟨ys, hr.toReplaced, ?_⟩
  have ei : (pre.length : Int) = i := by omega
  have ee : (pre.length : Int) + mid.length + 1 - pat.length = i + 1 + n - pat.length := by omega
  rw [ee, ei, Nat.zero_add] at hcount
  unfold countSubStrings
  simp only []
  rw [if_neg (by omega)]
  rw [hcount]
  simp only []
  have hlen := hr.length
  have hl := hlim ys hr.toReplaced
  simp only [limit] at hl
  by_cases hk : k = 0
  · rw [if_pos hk]
    right
    have hys : ys = mid := hr.zero hk
    exact ⟨s, rfl, h, rfl, by rw [hys, hsplit], by right; left; exact ⟨Nat.le_refl _, rfl⟩, id⟩
  · rw [if_neg hk]
    have hfin : ∀ t : SB, Same s t → (r.length ≤ pat.length ∨ (s.len : Int) + (r.length - pat.length) * k + 1 ≤ t.buf.length) →
        (t.cap = s.cap ∧ r.length ≤ pat.length ∨ (s.len : Int) + (r.length - pat.length) * k ≤ t.cap) →
        ∃ s', replaceLoop pat r (i + 1 + n - pat.length - i).toNat i (i + 1 + n - pat.length) t = .done s' ∧
          Edit s s' (pre ++ ys ++ post) := by
      intro t hs hroom hcap
      obtain ⟨s', ho, hi', hm, hc', ht, htm⟩ := replaceLoop_spec hp (i + 1 + n - pat.length - i).toNat t pre mid post ys k hs.inv
        (by rw [hs.text, hsplit]) hr (by omega) (by rw [hs.len]; exact hroom)
      rw [ee, ei] at ho
      have hl' : (s'.len : Int) = s.len + (r.length - pat.length) * k := by
        have h3 := content_length hi'
        rw [ht] at h3
        have h4 := congrArg List.length hsplit
        simp only [List.length_append] at h3 h4
        omega
      refine ⟨s', ho, hi', by rw [hm, hs.max], ht, ?_, fun hh => htm (hs.term hh)⟩
      rcases hcap with ⟨hq, hle⟩ | hq
      · right; left
        refine ⟨?_, by omega⟩
        have : ((r.length : Int) - pat.length) * k ≤ 0 := by
          apply Int.mul_nonpos_of_nonpos_of_nonneg <;> omega
        omega
      · left; omega
    by_cases hd : (r.length : Int) - pat.length > 0
    · rw [if_pos hd]
      have hdk : 0 ≤ ((r.length : Int) - pat.length) * k := Int.mul_nonneg (by omega) (by omega)
      generalize hgk : ((r.length : Int) - pat.length) * k = dk at *
      rw [if_neg (by simp only [I32]; omega)]
      unfold ensureRoomFor
      rw [if_neg (by simp only [I32]; omega)]
      rcases ensureCapacity_spec (c := s.len + dk) h (Or.inl (by simp only [limit]; omega)) with ⟨he, hq⟩ | ⟨t, he, hs, a1, a2, a3, a4, _⟩
      · left; rw [he]; exact ⟨rfl, by omega⟩
      · right; rw [he]
        have := hs.inv.cap_le
        exact hfin t hs (Or.inr (by omega)) (Or.inr (by omega))
    · rw [if_neg hd]
      right
      exact hfin s (Same.refl h) (Or.inl (by omega)) (Or.inl ⟨rfl, by omega⟩)

end Verif.SBModel
