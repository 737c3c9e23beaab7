import Verif.StringBuilderModel
import Verif.StringBuilderSpec
set_option linter.unusedSimpArgs false
/-!
# Invariant and per-call lemmas for the StringBuilder model
-/
namespace Verif.SBModel
open SBSpec

/-- Capacities above this round up past Int32 (StringBuilder.cpp line 135). -/
abbrev limit : Int := 2147483520

/-- The text the builder stands for. -/
def content (s : SB) : WStr := s.buf.take s.len

/-- Memory invariant of a builder. -/
structure Inv (s : SB) : Prop where
  size : s.buf.length = if s.internal then 129 else s.cap + 1
  capI : s.internal = true → s.cap ≤ 128
  capH : s.internal = false → 256 ≤ s.cap ∧ s.cap ≤ 2147483520
  len_le : s.len + 1 ≤ s.buf.length
  nul : s.buf[s.buf.length - 1]? = some 0
  max1 : 1 ≤ s.maxCap
  max2 : s.maxCap ≤ 2147483647

theorem Inv.cap_le {s : SB} (h : Inv s) : s.cap + 1 ≤ s.buf.length := by
  have := h.size; have := h.capI; cases hi : s.internal <;> simp [hi] at * <;> omega

theorem Inv.buf_le {s : SB} (h : Inv s) : s.buf.length ≤ 2147483521 := by
  have := h.size; have := h.capH; cases hi : s.internal <;> simp [hi] at * <;> omega

theorem content_length {s : SB} (h : Inv s) : (content s).length = s.len := by
  have := h.len_le; simp [content]; omega

theorem content_get {s : SB} (j : Nat) : (content s)[j]? = if j < s.len then s.buf[j]? else none := by
  simp [content, List.getElem?_take]

theorem content_ext {s : SB} {xs : WStr} (hl : xs.length = s.len)
    (h : ∀ j, j < s.len → s.buf[j]? = xs[j]?) : content s = xs := by
  apply List.ext_getElem?
  intro j
  rw [content_get]
  split
  · exact h j ‹_›
  · rw [List.getElem?_eq_none (by omega)]

/-! ## Block access -/

theorem peek_some {buf : List Nat} {i n : Int} (hi : 0 ≤ i) (hn : 0 ≤ n) (h : i + n ≤ buf.length) :
    peek buf i n = some ((buf.drop i.toNat).take n.toNat) := by
  simp [peek, hi, hn, h]

theorem poke_some {buf : List Nat} {i : Int} {xs : List Nat} (hi : 0 ≤ i) (h : i + xs.length ≤ buf.length) :
    ∃ b, poke buf i xs = some b ∧ b.length = buf.length ∧
      ∀ j, b[j]? = if i.toNat ≤ j ∧ j < i.toNat + xs.length then xs[j - i.toNat]? else buf[j]? := by
  refine ⟨buf.take i.toNat ++ xs ++ buf.drop (i.toNat + xs.length), by rw [poke, if_pos ⟨hi, h⟩], ?_, ?_⟩
  · simp; omega
  · intro j
    rw [List.append_assoc]
    by_cases h1 : j < i.toNat
    · rw [List.getElem?_append_left (by simp; omega), if_neg (by omega), List.getElem?_take, if_pos h1]
    · rw [List.getElem?_append_right (by simp; omega)]
      have hl : (List.take i.toNat buf).length = i.toNat := by simp; omega
      rw [hl]
      by_cases h2 : j < i.toNat + xs.length
      · rw [if_pos (by omega), List.getElem?_append_left (by omega)]
      · rw [if_neg (by omega), List.getElem?_append_right (by omega), List.getElem?_drop]
        congr 1; omega

theorem move_some {buf : List Nat} {d i n : Int} (hd : 0 ≤ d) (hi : 0 ≤ i) (hn : 0 ≤ n) (h : i + n ≤ buf.length)
    (h' : d + n ≤ buf.length) :
    ∃ b, move buf d i n = some b ∧ b.length = buf.length ∧
      ∀ j, b[j]? = if d.toNat ≤ j ∧ j < d.toNat + n.toNat then buf[j - d.toNat + i.toNat]? else buf[j]? := by
  have hl : ((buf.drop i.toNat).take n.toNat).length = n.toNat := by simp; omega
  obtain ⟨b, hb, hbl, hbg⟩ := poke_some (buf := buf) (i := d) (xs := (buf.drop i.toNat).take n.toNat) hd
    (by rw [hl]; omega)
  refine ⟨b, by simp only [move, peek_some hi hn h]; exact hb, hbl, ?_⟩
  intro j
  rw [hbg j, hl]
  split
  · rw [List.getElem?_take, if_pos (by omega), List.getElem?_drop]; congr 1; omega
  · rfl

theorem wcslen_some : ∀ (l : List Nat) (k : Nat), l[k]? = some 0 → ∃ m, wcslen l = some m ∧ m ≤ k
  | [], k, h => by simp at h
  | c :: t, k, h => by
    by_cases hc : c = 0
    · exact ⟨0, by simp [wcslen, hc], by omega⟩
    · cases k with
      | zero => simp at h; exact absurd h hc
      | succ k =>
        obtain ⟨m, hm, hle⟩ := wcslen_some t k (by simpa using h)
        exact ⟨m + 1, by simp [wcslen, hc, hm], by omega⟩

/-- `ToString` returns the text. -/
theorem toStr_ok {s : SB} (h : Inv s) : toStr s = .ok (content s) := by
  obtain ⟨m, hm, _⟩ := wcslen_some _ _ h.nul
  have := h.len_le
  have hp : peek s.buf 0 s.len = some ((s.buf.drop (0:Int).toNat).take (s.len:Int).toNat) :=
    peek_some (by omega) (by omega) (by omega)
  have h2 : ¬ ((0:Int) < 0 ∨ (0:Int) > m) := by omega
  have h3 : ¬ ((s.len : Int) < 0) := by omega
  simp only [toStr, newString, hm, h3, h2, if_false, hp]
  simp [content]

/-! ## Capacity -/

theorem roundUp_bounds {c : Int} (_h : 128 < c) : c ≤ roundUp c ∧ roundUp c < c + 128 ∧ roundUp c % 128 = 0 := by
  unfold roundUp; split <;> omega

/-- `s'` holds the same text as `s` in an equally good or larger block. -/
structure Same (s s' : SB) : Prop where
  inv : Inv s'
  len : s'.len = s.len
  max : s'.maxCap = s.maxCap
  text : content s' = content s
  term : s.buf[s.len]? = some 0 → s'.buf[s'.len]? = some 0

theorem Same.refl {s : SB} (h : Inv s) : Same s s := ⟨h, rfl, rfl, rfl, id⟩

theorem setCapacity_spec {s : SB} {c : Int} (h : Inv s) (hc : c ≤ limit ∨ c > s.maxCap) :
    (setCapacity s c = .threw .argumentOutOfRange s ∧
        (c < 0 ∨ c > s.maxCap ∨ (s.internal = false ∧ c < s.cap))) ∨
    (∃ s', setCapacity s c = .done s' ∧ Same s s' ∧ 0 ≤ c ∧ c ≤ s.maxCap ∧ c ≤ s'.cap ∧
      (s.buf.length ≤ s'.buf.length) ∧ (s'.cap : Int) < c + 128 ∧ (c ≤ 128 → (s'.cap : Int) ≤ max (s.cap : Int) c) ∧
      ¬ (s.internal = false ∧ c < s.cap)) := by
  have hcl := h.cap_le
  have hbl := h.buf_le
  have hll := h.len_le
  have hsz := h.size
  unfold setCapacity
  by_cases h1 : c < 0
  · left; simp [h1]
  by_cases h2 : c > s.maxCap
  · left; simp [h1, h2]
  by_cases h3 : s.internal = false ∧ c < s.cap
  · left; simp only [h1, h2, h3]; simp
  have hlim : c ≤ 2147483520 := by have := hc; simp only [limit] at this; omega
  right
  rw [if_neg h1, if_neg h2, if_neg h3]
  by_cases h4 : (s.cap : Int) ≥ c
  · rw [if_pos h4]
    refine ⟨_, rfl, ⟨⟨?_, ?_, ?_, h.len_le, h.nul, h.max1, h.max2⟩, rfl, rfl, rfl, id⟩, by omega, by omega, ?_, ?_, ?_, ?_, h3⟩
    · cases hi : s.internal
      · have : c.toNat = s.cap := by
          have h3' : ¬ (c < s.cap) := fun hh => h3 ⟨hi, hh⟩
          omega
        simp [this, hsz, hi]
      · simp [hsz, hi]
    · intro hi; have := h.capI hi; show c.toNat ≤ 128; omega
    · intro hi; have := h.capH hi; show 256 ≤ c.toNat ∧ c.toNat ≤ 2147483520
      have h3' : ¬ (c < s.cap) := fun hh => h3 ⟨hi, hh⟩
      omega
    · show c ≤ (c.toNat : Int); omega
    · exact Nat.le_refl _
    · show (c.toNat : Int) < c + 128; omega
    · intro _; show (c.toNat : Int) ≤ _; omega
  · rw [if_neg h4]
    by_cases h5 : c > 128
    · rw [if_pos h5]
      obtain ⟨r1, r2, r3⟩ := roundUp_bounds h5
      rw [if_neg (by omega)]
      have hp : peek s.buf 0 s.len = some ((s.buf.drop (0:Int).toNat).take (s.len:Int).toNat) :=
        peek_some (by omega) (by omega) (by omega)
      rw [hp]
      have hx : (s.buf.drop (0:Int).toNat).take (s.len:Int).toNat = content s := by simp [content]
      simp only [hx]
      have hlc := content_length h
      have hbuf : (s.buf.length : Int) ≤ roundUp c + 1 := by
        cases hi : s.internal
        · simp only [hi] at hsz; simp at hsz; omega
        · simp only [hi] at hsz; simp at hsz; omega
      obtain ⟨b, hb, hbl', hbg⟩ := poke_some (buf := List.replicate (roundUp c + 1).toNat 0) (i := 0) (xs := content s)
        (by omega) (by rw [hlc, List.length_replicate]; omega)
      simp only [hb, withBuf]
      rw [List.length_replicate] at hbl'
      refine ⟨_, rfl, ⟨⟨?_, ?_, ?_, ?_, ?_, h.max1, h.max2⟩, rfl, rfl, ?_, ?_⟩, by omega, by omega, ?_, ?_, ?_, ?_, h3⟩
      · simp only [hbl']; simp; omega
      · intro hi; simp at hi
      · intro _; show 256 ≤ (roundUp c).toNat ∧ (roundUp c).toNat ≤ 2147483520; omega
      · show s.len + 1 ≤ b.length; omega
      · show b[b.length - 1]? = some 0
        rw [hbg, if_neg (by rw [hlc]; simp; omega), List.getElem?_replicate]
        rw [if_pos (by omega)]
      · apply content_ext (by exact hlc)
        intro j hj
        have hj' : j < s.len := hj
        show b[j]? = _
        rw [hbg, if_pos (by rw [hlc]; simp; omega)]; simp
      · intro _
        show b[s.len]? = some 0
        rw [hbg, if_neg (by rw [hlc]; simp), List.getElem?_replicate]
        rw [if_pos (by omega)]
      · show c ≤ ((roundUp c).toNat : Int); omega
      · show s.buf.length ≤ b.length; omega
      · show ((roundUp c).toNat : Int) < c + 128; omega
      · intro hh; omega
    · rw [if_neg h5]
      have hi : s.internal = true := by
        cases hi : s.internal
        · have := (h.capH hi).1; omega
        · rfl
      rw [if_pos hi]
      refine ⟨_, rfl, ⟨⟨?_, ?_, ?_, h.len_le, h.nul, h.max1, h.max2⟩, rfl, rfl, rfl, id⟩, by omega, by omega, ?_, ?_, ?_, ?_, h3⟩
      · show s.buf.length = _
        simp only [hi] at *; exact hsz
      · intro _; show c.toNat ≤ 128; omega
      · intro hh; simp [hi] at hh
      · show c ≤ (c.toNat : Int); omega
      · exact Nat.le_refl _
      · show (c.toNat : Int) < c + 128; omega
      · intro _; show (c.toNat : Int) ≤ _; omega

theorem ensureCapacity_spec {s : SB} {c : Int} (h : Inv s) (hc : c ≤ limit ∨ c > s.maxCap) :
    (ensureCapacity s c = .threw .argumentOutOfRange s ∧ (c < 0 ∨ (c > s.maxCap ∧ c > s.cap))) ∨
    (∃ s', ensureCapacity s c = .done s' ∧ Same s s' ∧ 0 ≤ c ∧ c ≤ s'.cap ∧ s.cap ≤ s'.cap ∧
      s.buf.length ≤ s'.buf.length ∧ (c ≤ s.cap → s' = s) ∧ (c ≤ s.maxCap ∨ c ≤ s.cap)) := by
  unfold ensureCapacity
  by_cases h1 : c < 0
  · left; simp [h1]
  rw [if_neg h1]
  by_cases h2 : (s.cap : Int) < c
  · rw [if_pos h2]
    rcases setCapacity_spec h hc with ⟨he, hr⟩ | ⟨s', he, hs, a1, a2, a3, a4, _⟩
    · left
      refine ⟨he, ?_⟩
      rcases hr with hr | hr | hr
      · exact Or.inl hr
      · right; exact ⟨hr, h2⟩
      · omega
    · right
      exact ⟨s', he, hs, a1, a3, by omega, a4, fun hh => by omega, Or.inl a2⟩
  · rw [if_neg h2]
    right
    exact ⟨s, rfl, Same.refl h, by omega, by omega, Nat.le_refl _, Nat.le_refl _, fun _ => rfl, Or.inr (by omega)⟩


/-! ## Editing calls -/

/-- Result of a call that edits the text: still a good builder with the same MaxCapacity. -/
structure Edit (s s' : SB) (xs : WStr) : Prop where
  inv : Inv s'
  max : s'.maxCap = s.maxCap
  text : content s' = xs
  fits : s'.len ≤ s'.cap ∨ (s'.len ≤ s.len ∧ s'.cap = s.cap) ∨ ¬ s.len ≤ s.cap
  term : s.buf[s.len]? = some 0 → s'.buf[s'.len]? = some 0

theorem insertAt_length {xs ys : WStr} {i : Nat} (h : i ≤ xs.length) : (insertAt xs i ys).length = xs.length + ys.length := by
  simp [insertAt]; omega

theorem insertAt_get {xs ys : WStr} {i : Nat} (h : i ≤ xs.length) (j : Nat) :
    (insertAt xs i ys)[j]? = if j < i then xs[j]? else if j < i + ys.length then ys[j - i]? else xs[j - ys.length]? := by
  unfold insertAt
  rw [List.append_assoc]
  have hl : (List.take i xs).length = i := by simp; omega
  by_cases h1 : j < i
  · rw [List.getElem?_append_left (by omega), List.getElem?_take, if_pos h1, if_pos h1]
  · rw [List.getElem?_append_right (by omega), if_neg h1, hl]
    by_cases h2 : j < i + ys.length
    · rw [List.getElem?_append_left (by omega), if_pos h2]
    · rw [List.getElem?_append_right (by omega), if_neg h2, List.getElem?_drop]
      congr 1; omega

theorem appendRaw_spec {s : SB} {values : WStr} {n whr : Int} (h : Inv s) (hn : 0 ≤ n) (hv : n ≤ values.length)
    (hw : 0 ≤ whr ∨ whr = -1) (hlim : s.len + n ≤ limit) :
    (appendRaw s values n whr = .threw .indexOutOfRange s ∧ whr > s.len) ∨
    (appendRaw s values n whr = .threw .argumentOutOfRange s ∧ whr ≤ s.len ∧ s.len + n > s.maxCap ∧ s.len + n > s.cap) ∨
    (∃ s', appendRaw s values n whr = .done s' ∧ whr ≤ s.len ∧ s'.len = s.len + n.toNat ∧
      Edit s s' (insertAt (content s) (if whr = -1 then (s.len : Int) else whr).toNat (values.take n.toNat)) ∧
      s'.len ≤ s'.cap ∧ s.cap ≤ s'.cap) := by
  have hll := h.len_le
  simp only [limit] at hlim
  generalize hwd : (if whr = -1 then (s.len : Int) else whr) = x
  have hx : 0 ≤ x ∧ (x ≤ s.len ↔ whr ≤ s.len) := by
    subst hwd; split <;> omega
  unfold appendRaw
  simp only [hwd]
  by_cases h1 : x > s.len
  · left; rw [if_pos h1]; exact ⟨rfl, by omega⟩
  rw [if_neg h1]
  right
  unfold ensureRoomFor
  rw [if_neg (by simp only [I32]; omega)]
  rcases ensureCapacity_spec (c := s.len + n) h (Or.inl hlim) with ⟨he, hr⟩ | ⟨t, he, hs, a1, a2, a3, a4, _⟩
  · left; rw [he]; refine ⟨rfl, by omega, by omega, by omega⟩
  · right
    rw [he]
    simp only [Out.andThen]
    rw [if_neg (by omega)]
    have htl : t.len = s.len := hs.len
    have hcl := hs.inv.cap_le
    have hbl := hs.inv.buf_le
    have htll := hs.inv.len_le
    -- the memmove
    obtain ⟨b1, hb1, hl1, hg1⟩ : ∃ b, (if x ≠ t.len then move t.buf (x + n) x (t.len - x) else some t.buf) = some b ∧
        b.length = t.buf.length ∧ ∀ j, b[j]? = if x.toNat + n.toNat ≤ j ∧ j < t.len + n.toNat then t.buf[j - n.toNat]? else t.buf[j]? := by
      by_cases hxt : x = t.len
      · refine ⟨t.buf, by simp [hxt], rfl, ?_⟩
        intro j; rw [if_neg (by omega)]
      · rw [if_pos hxt]
        obtain ⟨b, hb, hl, hg⟩ := move_some (buf := t.buf) (d := x + n) (i := x) (n := t.len - x) (by omega) (by omega) (by omega)
          (by omega) (by omega)
        refine ⟨b, hb, hl, ?_⟩
        intro j; rw [hg]
        by_cases hc : x.toNat + n.toNat ≤ j ∧ j < t.len + n.toNat
        · rw [if_pos hc, if_pos (by omega)]; congr 1; omega
        · rw [if_neg hc, if_neg (by omega)]
    have hvl : (values.take n.toNat).length = n.toNat := by simp; omega
    obtain ⟨b2, hb2, hl2, hg2⟩ := poke_some (buf := b1) (i := x) (xs := values.take n.toNat) (by omega) (by omega)
    obtain ⟨b3, hb3, hl3, hg3⟩ := poke_some (buf := b2) (i := t.len + n) (xs := [0]) (by omega)
      (by simp only [List.length_singleton]; omega)
    simp only [hb1, hb2, hb3, withBuf]
    have hct := content_length h
    refine ⟨_, rfl, by omega, by show t.len + n.toNat = _; omega, ⟨⟨?_, hs.inv.capI, hs.inv.capH, ?_, ?_, hs.inv.max1, hs.inv.max2⟩, hs.max, ?_, ?_, ?_⟩, ?_, a3⟩
    · show b3.length = _; rw [hl3, hl2, hl1]; exact hs.inv.size
    · show t.len + n.toNat + 1 ≤ b3.length; omega
    · show b3[b3.length - 1]? = _
      have hnul := hs.inv.nul
      rw [hg3]
      by_cases hc : (t.len + n).toNat ≤ b3.length - 1 ∧ b3.length - 1 < (t.len + n).toNat + [0].length
      · rw [if_pos hc]; simp only [List.length_singleton] at hc
        have : b3.length - 1 - (t.len + n).toNat = 0 := by omega
        rw [this]; rfl
      · rw [if_neg hc]; simp only [List.length_singleton] at hc
        rw [hg2, if_neg (by omega), hg1, if_neg (by omega), hl3, hl2, hl1]; exact hnul
    · apply content_ext
      · show _ = t.len + n.toNat; rw [insertAt_length (by omega)]; omega
      · intro j hj
        have hj' : j < t.len + n.toNat := hj
        show b3[j]? = _
        have hc : ∀ k, k < s.len → (content s)[k]? = t.buf[k]? := by
          intro k hk; rw [← hs.text, content_get, if_pos (by omega)]
        rw [insertAt_get (by omega), hvl, hg3, if_neg (by simp only [List.length_singleton]; omega), hg2, hvl]
        by_cases c1 : j < x.toNat
        · rw [if_neg (by omega), hg1, if_neg (by omega), if_pos c1, hc _ (by omega)]
        · rw [if_neg c1]
          by_cases c2 : j < x.toNat + n.toNat
          · rw [if_pos (by omega), if_pos c2]
          · rw [if_neg (by omega), if_neg c2, hg1, if_pos (by omega), hc _ (by omega)]
    · left; show t.len + n.toNat ≤ t.cap; omega
    · intro _
      show b3[t.len + n.toNat]? = some 0
      rw [hg3, if_pos (by simp only [List.length_singleton]; omega)]
      have : t.len + n.toNat - (t.len + n).toNat = 0 := by omega
      rw [this]; rfl
    · show t.len + n.toNat ≤ t.cap; omega

theorem appendChar_spec {s : SB} {c : Nat} {n : Int} (h : Inv s)
    (hroom : n < 0 ∨ n > s.maxCap ∧ n > s.cap ∨ (s.len + n ≤ max (128 : Int) (max (s.cap : Int) n) ∧ n ≤ limit)) :
    (appendChar s c n = .threw .argumentOutOfRange s ∧ (n < 0 ∨ (n > s.maxCap ∧ n > s.cap))) ∨
    (∃ s', appendChar s c n = .done s' ∧ 0 ≤ n ∧ s'.len = s.len + n.toNat ∧ s.cap ≤ s'.cap ∧ (n ≤ s.cap → s'.cap = s.cap) ∧
      n ≤ s'.cap ∧
      Inv s' ∧ s'.maxCap = s.maxCap ∧ content s' = content s ++ List.replicate n.toNat c ∧ s'.buf[s'.len]? = some 0) := by
  have hll := h.len_le
  unfold appendChar
  by_cases h1 : n < 0
  · left; rw [if_pos h1]; exact ⟨rfl, Or.inl h1⟩
  rw [if_neg h1]
  by_cases hbig : n > s.maxCap ∧ n > s.cap
  · rcases ensureCapacity_spec (c := n) h (Or.inr hbig.1) with ⟨he, hr⟩ | ⟨t, he, hs, a1, a2, a3, a4, a5, a6⟩
    · left; rw [he]; exact ⟨rfl, Or.inr hbig⟩
    · exfalso; omega
  obtain ⟨hr1, hr2⟩ : s.len + n ≤ max (128 : Int) (max (s.cap : Int) n) ∧ n ≤ limit := by
    rcases hroom with hh | hh | hh
    · omega
    · exact absurd hh hbig
    · exact hh
  rcases ensureCapacity_spec (c := n) h (Or.inl hr2) with ⟨he, hr⟩ | ⟨t, he, hs, a1, a2, a3, a4, a5, a6⟩
  · left; rw [he]; refine ⟨rfl, hr⟩
  · right
    rw [he]
    simp only [Out.andThen]
    have htl : t.len = s.len := hs.len
    have hcl := hs.inv.cap_le
    have hbl := hs.inv.buf_le
    have htll := hs.inv.len_le
    have hroom' : s.len + n + 1 ≤ t.buf.length := by
      have hsz := hs.inv.size
      have hH := hs.inv.capH
      cases hi : t.internal
      · simp [hi] at hsz hH; omega
      · simp [hi] at hsz; omega
    rw [if_neg (by simp only [I32]; omega)]
    obtain ⟨b2, hb2, hl2, hg2⟩ := poke_some (buf := t.buf) (i := t.len) (xs := List.replicate n.toNat c) (by omega)
      (by rw [List.length_replicate]; omega)
    obtain ⟨b3, hb3, hl3, hg3⟩ := poke_some (buf := b2) (i := t.len + n) (xs := [0]) (by omega)
      (by simp only [List.length_singleton]; omega)
    simp only [hb2, hb3, withBuf]
    have hct := content_length h
    refine ⟨_, rfl, by omega, by show t.len + n.toNat = _; omega, a3, ?_, a2, ⟨?_, hs.inv.capI, hs.inv.capH, ?_, ?_, hs.inv.max1, hs.inv.max2⟩, hs.max, ?_, ?_⟩
    · intro hh; rw [a5 hh]
    · show b3.length = _; rw [hl3, hl2]; exact hs.inv.size
    · show t.len + n.toNat + 1 ≤ b3.length; omega
    · show b3[b3.length - 1]? = _
      have hnul := hs.inv.nul
      rw [hg3]
      by_cases hc : (t.len + n).toNat ≤ b3.length - 1 ∧ b3.length - 1 < (t.len + n).toNat + [0].length
      · rw [if_pos hc]; simp only [List.length_singleton] at hc
        have : b3.length - 1 - (t.len + n).toNat = 0 := by omega
        rw [this]; rfl
      · rw [if_neg hc]; simp only [List.length_singleton] at hc
        rw [hg2, List.length_replicate, if_neg (by omega), hl3, hl2]; exact hnul
    · apply content_ext
      · show _ = t.len + n.toNat; rw [List.length_append, List.length_replicate]; omega
      · intro j hj
        have hj' : j < t.len + n.toNat := hj
        show b3[j]? = _
        rw [hg3, if_neg (by simp only [List.length_singleton]; omega), hg2, List.length_replicate]
        by_cases c1 : j < s.len
        · rw [if_neg (by omega), List.getElem?_append_left (by omega), ← hs.text, content_get, if_pos (by omega)]
        · rw [if_pos (by omega), List.getElem?_append_right (by omega)]; congr 1; omega
    · show b3[t.len + n.toNat]? = some 0
      rw [hg3, if_pos (by simp only [List.length_singleton]; omega)]
      have : t.len + n.toNat - (t.len + n).toNat = 0 := by omega
      rw [this]; rfl

theorem remove_spec {ov : Bool} {s : SB} {i n : Int} (h : Inv s)
    (hov : ov = true ∨ s.len - i - n ≤ n ∨ s.len - i - n ≤ 0) :
    (remove ov s i n = .threw .argumentOutOfRange s ∧ (n < 0 ∨ i < 0 ∨ n > s.len - i)) ∨
    (∃ s', remove ov s i n = .done s' ∧ 0 ≤ n ∧ 0 ≤ i ∧ n ≤ s.len - i ∧
      Edit s s' (removeAt (content s) i.toNat n.toNat) ∧ s'.cap = s.cap ∧ s'.len = s.len - n.toNat) := by
  have hll := h.len_le
  unfold remove
  by_cases h1 : n < 0
  · left; rw [if_pos h1]; exact ⟨rfl, Or.inl h1⟩
  rw [if_neg h1]
  by_cases h2 : i < 0
  · left; rw [if_pos h2]; exact ⟨rfl, Or.inr (Or.inl h2)⟩
  rw [if_neg h2]
  by_cases h3 : n > s.len - i
  · left; rw [if_pos h3]; exact ⟨rfl, Or.inr (Or.inr h3)⟩
  rw [if_neg h3]
  right
  simp only []
  rw [if_neg (by rintro ⟨q1, q2, q3⟩; rcases hov with hh | hh | hh
                 · simp [q1] at hh
                 · omega
                 · omega)]
  obtain ⟨b1, hb1, hl1, hg1⟩ := move_some (buf := s.buf) (d := i) (i := i + n) (n := s.len - i - n) (by omega) (by omega)
    (by omega) (by omega) (by omega)
  obtain ⟨b2, hb2, hl2, hg2⟩ := poke_some (buf := b1) (i := s.len - n) (xs := [0]) (by omega)
    (by simp only [List.length_singleton]; omega)
  simp only [hb1, hb2, withBuf]
  have hct := content_length h
  refine ⟨_, rfl, by omega, by omega, by omega, ⟨⟨?_, h.capI, h.capH, ?_, ?_, h.max1, h.max2⟩, rfl, ?_, ?_, ?_⟩, rfl, rfl⟩
  · show b2.length = _; rw [hl2, hl1]; exact h.size
  · show s.len - n.toNat + 1 ≤ b2.length; omega
  · show b2[b2.length - 1]? = _
    rw [hg2]
    by_cases hc : (s.len - n).toNat ≤ b2.length - 1 ∧ b2.length - 1 < (s.len - n).toNat + [0].length
    · rw [if_pos hc]; simp only [List.length_singleton] at hc
      have : b2.length - 1 - (s.len - n).toNat = 0 := by omega
      rw [this]; rfl
    · rw [if_neg hc]; simp only [List.length_singleton] at hc
      rw [hg1, if_neg (by omega), hl2, hl1]; exact h.nul
  · apply content_ext
    · show _ = s.len - n.toNat; simp [removeAt]; omega
    · intro j hj
      have hj' : j < s.len - n.toNat := hj
      show b2[j]? = _
      rw [hg2, if_neg (by simp only [List.length_singleton]; omega), hg1]
      unfold removeAt
      by_cases c1 : j < i.toNat
      · rw [if_neg (by omega), List.getElem?_append_left (by simp; omega), List.getElem?_take, if_pos c1, content_get,
          if_pos (by omega)]
      · rw [if_pos (by omega), List.getElem?_append_right (by simp; omega), List.getElem?_drop, content_get]
        have : (List.take i.toNat (content s)).length = i.toNat := by simp; omega
        rw [this, if_pos (by omega)]; congr 1; omega
  · right; left; exact ⟨Nat.sub_le _ _, rfl⟩
  · intro _
    show b2[s.len - n.toNat]? = some 0
    rw [hg2, if_pos (by simp only [List.length_singleton]; omega)]
    have : s.len - n.toNat - (s.len - n).toNat = 0 := by omega
    rw [this]; rfl

theorem onRange_length {f : WStr → WStr} {xs : WStr} {i n : Nat} (h : i + n ≤ xs.length) (hf : (f ((xs.drop i).take n)).length = n) :
    (onRange f xs i n).length = xs.length := by
  simp [onRange, hf]; omega

theorem replaceChar_spec {s : SB} {old new : Nat} {i n : Int} (h : Inv s) :
    (replaceChar s old new i n = .threw .argumentOutOfRange s ∧ (i < 0 ∨ n < 0 ∨ i + n > s.len)) ∨
    (∃ s', replaceChar s old new i n = .done s' ∧ 0 ≤ i ∧ 0 ≤ n ∧ i + n ≤ s.len ∧
      Edit s s' (onRange (fun t => t.map fun c => if c = old then new else c) (content s) i.toNat n.toNat) ∧ s'.cap = s.cap ∧ s'.len = s.len) := by
  have hll := h.len_le
  unfold replaceChar
  by_cases h1 : i < 0 ∨ i > s.len
  · left; rw [if_pos h1]; refine ⟨rfl, ?_⟩; omega
  rw [if_neg h1]
  by_cases h2 : n < 0 ∨ i > s.len - n
  · left; rw [if_pos h2]; refine ⟨rfl, ?_⟩; omega
  rw [if_neg h2]
  right
  rw [peek_some (by omega) (by omega) (by omega)]
  have hxl : (List.map (fun c => if c = old then new else c) ((s.buf.drop i.toNat).take n.toNat)).length = n.toNat := by simp; omega
  obtain ⟨b, hb, hl, hg⟩ := poke_some (buf := s.buf) (i := i)
    (xs := List.map (fun c => if c = old then new else c) ((s.buf.drop i.toNat).take n.toNat)) (by omega) (by omega)
  simp only [hb, withBuf]
  have hct := content_length h
  have hin : ∀ j, s.len ≤ j → b[j]? = s.buf[j]? := by intro j hj; rw [hg, if_neg (by omega)]
  refine ⟨_, rfl, by omega, by omega, by omega, ⟨⟨?_, h.capI, h.capH, ?_, ?_, h.max1, h.max2⟩, rfl, ?_, ?_, ?_⟩, rfl, rfl⟩
  · show b.length = _; rw [hl]; exact h.size
  · show s.len + 1 ≤ b.length; omega
  · show b[b.length - 1]? = _
    rw [hin _ (by omega), hl]; exact h.nul
  · apply content_ext
    · show _ = s.len; rw [onRange_length (by omega) (by simp; omega)]; omega
    · intro j hj
      have hj' : j < s.len := hj
      show b[j]? = _
      rw [hg, hxl]
      unfold onRange
      rw [List.append_assoc]
      have hl1 : (List.take i.toNat (content s)).length = i.toNat := by simp; omega
      by_cases c1 : j < i.toNat
      · rw [if_neg (by omega), List.getElem?_append_left (by omega), List.getElem?_take, if_pos c1, content_get, if_pos hj']
      · rw [List.getElem?_append_right (by omega), hl1]
        by_cases c2 : j < i.toNat + n.toNat
        · rw [if_pos (by omega), List.getElem?_append_left (by simp; omega)]
          simp only [List.getElem?_map, List.getElem?_take, List.getElem?_drop, content_get]
          rw [if_pos (by omega : i.toNat + (j - i.toNat) < s.len)]
        · rw [if_neg (by omega), List.getElem?_append_right (by simp; omega), List.getElem?_drop, content_get, if_pos (by simp; omega)]
          congr 1; simp; omega
  · right; left; exact ⟨Nat.le_refl _, rfl⟩
  · intro ht; show b[s.len]? = some 0; rw [hin _ (Nat.le_refl _)]; exact ht

theorem setChars_spec {s : SB} {i : Int} {c : Nat} (h : Inv s) :
    (setChars s i c = .threw .indexOutOfRange s ∧ (i < 0 ∨ i ≥ s.len)) ∨
    (∃ s', setChars s i c = .done s' ∧ 0 ≤ i ∧ i < s.len ∧ Edit s s' ((content s).set i.toNat c) ∧ s'.cap = s.cap ∧ s'.len = s.len) := by
  have hll := h.len_le
  unfold setChars
  by_cases h1 : i < 0 ∨ i ≥ s.len
  · left; rw [if_pos h1]; exact ⟨rfl, h1⟩
  rw [if_neg h1]
  right
  obtain ⟨b, hb, hl, hg⟩ := poke_some (buf := s.buf) (i := i) (xs := [c]) (by omega) (by simp only [List.length_singleton]; omega)
  simp only [hb, withBuf]
  simp only [List.length_singleton] at hg
  have hct := content_length h
  have hin : ∀ j, s.len ≤ j → b[j]? = s.buf[j]? := by intro j hj; rw [hg, if_neg (by omega)]
  refine ⟨_, rfl, by omega, by omega, ⟨⟨?_, h.capI, h.capH, ?_, ?_, h.max1, h.max2⟩, rfl, ?_, ?_, ?_⟩, rfl, rfl⟩
  · show b.length = _; rw [hl]; exact h.size
  · show s.len + 1 ≤ b.length; omega
  · show b[b.length - 1]? = _
    rw [hin _ (by omega), hl]; exact h.nul
  · apply content_ext
    · show _ = s.len; simp; omega
    · intro j hj
      have hj' : j < s.len := hj
      show b[j]? = _
      rw [hg, List.getElem?_set]
      by_cases c1 : j = i.toNat
      · rw [if_pos (by omega), if_pos c1.symm, if_pos (by omega), c1]; simp
      · rw [if_neg (by omega), if_neg (by omega), content_get, if_pos hj']
  · right; left; exact ⟨Nat.le_refl _, rfl⟩
  · intro ht; show b[s.len]? = some 0; rw [hin _ (Nat.le_refl _)]; exact ht

/-- `set_Length`: shrinking cuts the text; growing keeps the old characters as a prefix. -/
theorem setLength_spec {s : SB} {n : Int} (h : Inv s) (hlim : n ≤ limit ∨ n > s.maxCap) :
    (setLength s n = .threw .argumentOutOfRange s ∧ (n < 0 ∨ n > s.maxCap)) ∨
    (∃ s', setLength s n = .done s' ∧ 0 ≤ n ∧ n ≤ s.maxCap ∧ Inv s' ∧ s'.maxCap = s.maxCap ∧ s'.len = n.toNat ∧ s'.len ≤ s'.cap ∧
      s.cap ≤ s'.cap ∧
      (content s').take (min s.len n.toNat) = (content s).take (min s.len n.toNat) ∧
      (n ≤ s.len → s.buf[s.len]? = some 0 → (n = 0 → s.len ≤ s.cap) → s'.buf[s'.len]? = some 0)) := by
  have hll := h.len_le
  unfold setLength
  by_cases h1 : n < 0
  · left; rw [if_pos h1]; exact ⟨rfl, Or.inl h1⟩
  rw [if_neg h1]
  by_cases h2 : n > s.maxCap
  · left; rw [if_pos h2]; exact ⟨rfl, Or.inr h2⟩
  rw [if_neg h2]
  right
  have hcl := h.cap_le
  by_cases h3 : n = 0
  · rw [if_pos h3]
    obtain ⟨b, hb, hl, hg⟩ := poke_some (buf := s.buf) (i := 0) (xs := List.replicate s.cap 0) (by omega)
      (by rw [List.length_replicate]; omega)
    simp only [hb, withBuf]
    refine ⟨_, rfl, by omega, by omega, ⟨?_, h.capI, h.capH, ?_, ?_, h.max1, h.max2⟩, rfl, ?_, Nat.zero_le _, Nat.le_refl _, ?_, ?_⟩
    · show b.length = _; rw [hl]; exact h.size
    · show 0 + 1 ≤ b.length; omega
    · show b[b.length - 1]? = _
      rw [hg, List.length_replicate]
      split
      · rw [List.getElem?_replicate, if_pos (by simp; omega)]
      · rw [hl]; exact h.nul
    · show 0 = n.toNat; omega
    · have : n.toNat = 0 := by omega
      simp [this]
    · intro _ ht hh
      have hlc := hh h3
      show b[0]? = some 0
      rw [hg, List.length_replicate]
      by_cases hz : 0 < s.cap
      · rw [if_pos (by simp; omega), List.getElem?_replicate, if_pos (by simp; omega)]
      · rw [if_neg (by omega)]
        have : s.len = 0 := by omega
        rw [this] at ht; exact ht
  · rw [if_neg h3]
    rcases ensureCapacity_spec (c := n) h hlim with ⟨he, hr⟩ | ⟨t, he, hs, a1, a2, a3, a4, a5, a6⟩
    · exfalso; omega
    rw [he]
    simp only [Out.andThen]
    have htl : t.len = s.len := hs.len
    have hcl' := hs.inv.cap_le
    have htll := hs.inv.len_le
    have hct := content_length h
    by_cases h4 : n < t.len
    · rw [if_pos h4]
      obtain ⟨b, hb, hl, hg⟩ := poke_some (buf := t.buf) (i := n) (xs := List.replicate (t.len - n.toNat) 0) (by omega)
        (by rw [List.length_replicate]; omega)
      rw [List.length_replicate] at hg
      simp only [hb, withBuf]
      refine ⟨_, rfl, by omega, by omega, ⟨?_, hs.inv.capI, hs.inv.capH, ?_, ?_, hs.inv.max1, hs.inv.max2⟩, hs.max, rfl, ?_, a3, ?_, ?_⟩
      · show b.length = _; rw [hl]; exact hs.inv.size
      · show n.toNat + 1 ≤ b.length; omega
      · show b[b.length - 1]? = _
        rw [hg]
        rw [if_neg (by omega), hl]; exact hs.inv.nul
      · show n.toNat ≤ t.cap; omega
      · apply List.ext_getElem?
        intro j
        rw [List.getElem?_take, List.getElem?_take]
        split
        · rename_i hj
          rw [← hs.text, content_get, content_get]
          show (if j < n.toNat then b[j]? else none) = _
          rw [if_pos (by omega), if_pos (by omega), hg, if_neg (by omega)]
        · rfl
      · intro _ ht _
        show b[n.toNat]? = some 0
        rw [hg, if_pos (by omega), List.getElem?_replicate, if_pos (by omega)]
    · rw [if_neg h4]
      have hbl := hs.inv.buf_le
      refine ⟨_, rfl, by omega, by omega, ⟨hs.inv.size, hs.inv.capI, hs.inv.capH, ?_, hs.inv.nul, hs.inv.max1, hs.inv.max2⟩, hs.max, rfl, ?_, a3, ?_, ?_⟩
      · show n.toNat + 1 ≤ t.buf.length; omega
      · show n.toNat ≤ t.cap; omega
      · apply List.ext_getElem?
        intro j
        rw [List.getElem?_take, List.getElem?_take]
        split
        · rename_i hj
          rw [← hs.text, content_get, content_get]
          show (if j < n.toNat then t.buf[j]? else none) = _
          rw [if_pos (by omega), if_pos (by omega)]
        · rfl
      · intro hn ht _
        show t.buf[n.toNat]? = some 0
        have := hs.term ht
        have e : n.toNat = t.len := by omega
        rw [e]; exact this

end Verif.SBModel
