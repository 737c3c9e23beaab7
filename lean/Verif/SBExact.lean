import Verif.StringBuilderProps
set_option linter.unusedSimpArgs false
/-!
# C174: exactly which StringBuilder calls are undefined

No new code is modelled. For every builder a program can hold, after any history of calls, it is decided from the arguments, the length, Capacity and MaxCapacity (for `Replace` also the text) whether a call of
StringBuilderModel is undefined: leaves the memory block, overflows, dereferences null or copies overlapping memory.
-/
namespace Verif.SBModel
open SBSpec

/-! ## Specification -/

/-- Capacity after a request for `c` characters: unchanged if they fit, else `c` up to 128, else the next multiple of 128. -/
def grown (cap c : Int) : Int := if c ≤ cap then cap else if c ≤ 128 then c else (c + 127) / 128 * 128

/-- How many characters the memory block has room for: the first 128 are inside the object. -/
def block (cap : Int) : Int := max 128 cap

/-- A request for `c` characters is refused with an exception. -/
def Refused (s : SB) (c : Int) : Prop := s.maxCap < c ∧ s.cap < c

/-- Adding `n` characters at position `w` is undefined: the new length does not fit an Int32, or rounding it up does not, or the position is negative. -/
def AddUndefined (s : SB) (n w : Int) : Prop :=
  w ≤ s.len ∧ (2147483647 < s.len + n ∨ (¬ Refused s (s.len + n) ∧ (2147483520 < s.len + n ∨ w < 0)))

/-- The position an insertion index stands for: -1 is the end. -/
def position (s : SB) (i : Int) : Int := if i = -1 then s.len else i

/-- Inserting `v` characters `k` times at `i` is undefined at one of the times, before an exception ends it. -/
def InsertUndefined (maxCap v i : Int) : Nat → Int → Int → Prop
  | 0, _, _ => False
  | k + 1, len, cap => i ≤ len ∧ (2147483647 < len + v ∨
      (¬ (maxCap < len + v ∧ cap < len + v) ∧ (2147483520 < len + v ∨ i < -1 ∨ InsertUndefined maxCap v i k (len + v) (grown cap (len + v)))))

/-- The calls that are undefined. -/
def Undefined (ov : Bool) (s : SB) : Op → Prop
  | .appendStr none i n => ¬ (0 ≤ n ∧ i < 0)
  | .appendStr (some v) i n => 0 ≤ i ∧ i + takeCount v n ≤ v.length ∧ AddUndefined s (takeCount v n) s.len
  | .appendChar _ n => 0 ≤ n ∧ ¬ Refused s n ∧ (2147483520 < n ∨ block (grown s.cap n) < s.len + n)
  | .appendText t => AddUndefined s t.length s.len
  | .appendArray none _ _ => False
  | .appendArray (some a) i n =>
      takeCount a.data n ≠ 0 ∧ max i 0 + takeCount a.data n ≤ a.data.length ∧ a.isChar = true ∧ a.oneDim = true ∧ AddUndefined s (takeCount a.data n) s.len
  | .appendLine => block s.cap < s.len + 2
  | .appendLineStr none => True
  | .appendLineStr (some v) => AddUndefined s v.length s.len ∨ (¬ Refused s (s.len + v.length) ∧ block (grown s.cap (s.len + v.length)) < s.len + v.length + 2)
  | .insertText i t => AddUndefined s t.length (position s i)
  | .insertStr _ none n => 0 < n
  | .insertStr i (some v) n => v ≠ [] ∧ InsertUndefined s.maxCap v.length i n.toNat s.len s.cap
  | .insertArray _ none _ _ => False
  | .insertArray k (some a) i n =>
      takeCount a.data n ≠ 0 ∧ max i 0 + takeCount a.data n ≤ a.data.length ∧ a.isChar = true ∧ a.oneDim = true ∧ AddUndefined s (takeCount a.data n) (position s k)
  | .remove i n => 0 ≤ i ∧ 0 ≤ n ∧ ov = false ∧ n < s.len - i - n
  | .replaceChar _ _ _ _ => False
  | .replaceStr none _ _ _ => False
  | .replaceStr (some p) r i n => 0 ≤ i ∧ 0 ≤ n ∧ i + n ≤ s.len ∧ p ≠ [] ∧
      ((536870912 ≤ p.length ∧ p.length ≤ n) ∨
       ∃ ys, Replaced p (r.getD []) (((content s).drop i.toNat).take n.toNat) ys ∧
         (2147483647 < (s.len : Int) - n + ys.length ∨ (2147483520 < (s.len : Int) - n + ys.length ∧ (s.len : Int) - n + ys.length ≤ s.maxCap)))
  | .setChars _ _ => False
  | .clear => False
  | .setLength n => 2147483520 < n ∧ n ≤ s.maxCap
  | .setCapacity n => 2147483520 < n ∧ n ≤ s.maxCap
  | .ensureCapacity n => 2147483520 < n ∧ n ≤ s.maxCap

/-- The call returned or threw, and the builder is again one to which all this applies. -/
def Fine (s : SB) (o : Out) : Prop := ∃ s', (o = .done s' ∨ ∃ e, o = .threw e s') ∧ Inv s' ∧ s'.maxCap = s.maxCap

/-! ## Proof -/

theorem fine_threw {s : SB} (h : Inv s) {o : Out} {e : Exc} (ho : o = .threw e s) : Fine s o := ⟨s, .inr ⟨e, ho⟩, h, rfl⟩

theorem Inv.cap_lim {s : SB} (h : Inv s) : (s.cap : Int) ≤ 2147483520 := by have := h.cap_le; have := h.buf_le; omega
theorem Inv.len_lim {s : SB} (h : Inv s) : (s.len : Int) ≤ 2147483520 := by have := h.len_le; have := h.buf_le; omega
theorem Inv.block {s : SB} (h : Inv s) : (s.buf.length : Int) = SBModel.block s.cap + 1 := by
  have := h.size; have := h.capI; have := h.capH
  unfold SBModel.block
  cases hi : s.internal <;> simp [hi] at * <;> omega

theorem ensure_big {s : SB} (h : Inv s) {c : Int} (h1 : 2147483520 < c) (h2 : c ≤ s.maxCap) : ensureCapacity s c = .ub := by
  have := h.cap_lim
  have hr : 2147483647 < roundUp c + 1 := by unfold roundUp; have := h.max2; split <;> omega
  unfold ensureCapacity setCapacity
  rw [if_neg (by omega), if_pos (by omega), if_neg (by omega), if_neg (by omega), if_neg (by omega), if_neg (by omega), if_pos (by omega), if_pos hr]

theorem ensure_refused {s : SB} {c : Int} (h0 : 0 ≤ c) (h : Refused s c) : ensureCapacity s c = .threw .argumentOutOfRange s := by
  obtain ⟨h1, h2⟩ := h
  unfold ensureCapacity setCapacity
  rw [if_neg (by omega), if_pos h2, if_neg (by omega), if_pos (by omega)]

/-- The block after a request that is granted. -/
theorem ensure_done {s : SB} (h : Inv s) {c : Int} (h0 : 0 ≤ c) (h1 : ¬ Refused s c) (h2 : c ≤ 2147483520) :
    ∃ t, ensureCapacity s c = .done t ∧ Same s t ∧ (t.cap : Int) = grown s.cap c := by
  rcases ensureCapacity_spec (c := c) h (.inl h2) with ⟨_, hr⟩ | ⟨t, he, hs, _, _, _, _, h5, _⟩
  · unfold Refused at h1; omega
  · refine ⟨t, he, hs, ?_⟩
    unfold grown
    by_cases hc : c ≤ s.cap
    · rw [if_pos hc, h5 hc]
    rw [if_neg hc]
    unfold Refused at h1
    unfold ensureCapacity setCapacity at he
    rw [if_neg (by omega), if_pos (by omega), if_neg (by omega), if_neg (by omega), if_neg (by omega), if_neg (by omega)] at he
    by_cases h128 : c ≤ 128
    · rw [if_neg (by omega)] at he
      rw [if_pos h128]
      split at he
      · rw [Out.done.injEq] at he
        rw [← he]
        show ((c.toNat : Nat) : Int) = c
        omega
      · cases he
    · rw [if_pos (by omega)] at he
      rw [if_neg h128]
      split at he
      · cases he
      · split at he
        · cases he
        · unfold withBuf at he
          split at he
          · cases he
          · rw [Out.done.injEq] at he
            rw [← he]
            show (((roundUp c).toNat : Nat) : Int) = _
            unfold roundUp
            split <;> omega

theorem add_undefined {s : SB} (h : Inv s) {values : WStr} {n i : Int} (hn : 0 ≤ n) (hv : n ≤ values.length) (hu : AddUndefined s n (position s i)) : appendRaw s values n i = .ub := by
  obtain ⟨h1, h2⟩ := hu
  unfold appendRaw
  simp only []
  rw [show (if i = -1 then (s.len : Int) else i) = position s i from rfl, if_neg (by omega)]
  unfold ensureRoomFor
  rcases h2 with h2 | ⟨h2, h3⟩
  · rw [if_pos (by unfold I32; omega)]
    rfl
  have hc := h.cap_lim
  have hm := h.max2
  have hl := h.len_lim
  by_cases hbig : 2147483520 < s.len + n
  · rw [if_neg (by unfold I32; unfold Refused at h2; omega), ensure_big h hbig (by unfold Refused at h2; omega)]
    rfl
  · have hw : position s i < 0 := by omega
    rw [if_neg (by unfold I32; omega)]
    obtain ⟨t, he, hs, _⟩ := ensure_done h (c := s.len + n) (by omega) h2 (by omega)
    rw [he]
    show (if n < 0 ∨ n > values.length then Out.ub else _) = _
    rw [if_neg (by omega), if_pos (by omega)]
    unfold move peek
    rw [if_neg (by omega)]
    rfl

/-- Otherwise: the exceptions, and the length and Capacity after success. -/
theorem add_cases {s : SB} (h : Inv s) {values : WStr} {n i : Int} (hn : 0 ≤ n) (hv : n ≤ values.length) (hu : ¬ AddUndefined s n (position s i)) :
    (∃ e, appendRaw s values n i = .threw e s ∧ (s.len < position s i ∨ Refused s (s.len + n))) ∨
    ∃ t, appendRaw s values n i = .done t ∧ Inv t ∧ t.maxCap = s.maxCap ∧ (t.len : Int) = s.len + n ∧ (t.cap : Int) = grown s.cap (s.len + n) ∧
      ¬ s.len < position s i ∧ ¬ Refused s (s.len + n) ∧ s.len + n ≤ 2147483520 := by
  by_cases h1 : s.len < position s i
  · left
    refine ⟨.indexOutOfRange, ?_, .inl h1⟩
    unfold appendRaw
    simp only []
    rw [show (if i = -1 then (s.len : Int) else i) = position s i from rfl, if_pos h1]
  unfold AddUndefined at hu
  have h2 : s.len + n ≤ 2147483647 := by
    rcases Int.lt_or_le 2147483647 (s.len + n) with h | h
    · exact absurd ⟨by omega, Or.inl h⟩ hu
    · exact h
  by_cases hr : Refused s (s.len + n)
  · left
    refine ⟨.argumentOutOfRange, ?_, .inr hr⟩
    unfold appendRaw
    simp only []
    rw [show (if i = -1 then (s.len : Int) else i) = position s i from rfl, if_neg h1]
    unfold ensureRoomFor
    rw [if_neg (by unfold I32; omega), ensure_refused (by omega) hr]
    rfl
  have h3 : ¬ (2147483520 < s.len + n ∨ position s i < 0) := fun h' => hu ⟨by omega, .inr ⟨hr, h'⟩⟩
  have hpos : 0 ≤ i ∨ i = -1 := by unfold position at h3; split at h3 <;> omega
  right
  rcases appendRaw_spec (values := values) (whr := i) h hn hv hpos (by unfold limit; omega) with ⟨_, hx⟩ | ⟨_, _, hx1, hx2⟩ | ⟨t, he, _, htl, hed, _, _⟩
  · unfold position at h1; split at h1 <;> omega
  · exact absurd (show Refused s (s.len + n) from ⟨by omega, by omega⟩) hr
  · refine ⟨t, he, hed.inv, hed.max, by omega, ?_, h1, hr, by omega⟩
    obtain ⟨u, hu1, hu2, hu3⟩ := ensure_done h (c := s.len + n) (by omega) hr (by omega)
    unfold appendRaw at he
    simp only [] at he
    rw [show (if i = -1 then (s.len : Int) else i) = position s i from rfl, if_neg h1] at he
    unfold ensureRoomFor at he
    rw [if_neg (by unfold I32; omega), hu1, andThen_done, if_neg (by omega)] at he
    have step : ∀ {b : Option (List Nat)} {k : List Nat → Out}, withBuf b k = .done t → ∃ b', k b' = .done t := by
      intro b k hk
      cases b with
      | none => cases hk
      | some b => exact ⟨b, hk⟩
    obtain ⟨_, he⟩ := step he
    obtain ⟨_, he⟩ := step he
    obtain ⟨_, he⟩ := step he
    rw [Out.done.injEq] at he
    rw [← he]
    exact hu3

theorem add_fine {s : SB} (h : Inv s) {values : WStr} {n i : Int} (hn : 0 ≤ n) (hv : n ≤ values.length) (hu : ¬ AddUndefined s n (position s i)) : Fine s (appendRaw s values n i) := by
  rcases add_cases h hn hv hu with ⟨e, he, _⟩ | ⟨t, he, hi, hm, _⟩
  · exact fine_threw h he
  · exact ⟨t, .inl he, hi, hm⟩

/-! ### Single characters -/

theorem char_undefined {s : SB} (h : Inv s) {c : Nat} {n : Int} (h0 : 0 ≤ n) (h1 : ¬ Refused s n) (h2 : 2147483520 < n ∨ block (grown s.cap n) < s.len + n) : appendChar s c n = .ub := by
  have hc := h.cap_lim
  unfold appendChar
  rw [if_neg (by omega)]
  by_cases hbig : 2147483520 < n
  · rw [ensure_big h hbig (by unfold Refused at h1; omega)]
    rfl
  · obtain ⟨t, he, hs, ht⟩ := ensure_done h h0 h1 (by omega)
    have hb := hs.inv.block
    rw [ht] at hb
    have hl := hs.len
    rw [he, andThen_done]
    by_cases hi : I32 (t.len + n)
    · rw [if_neg (by simp [hi])]
      by_cases hp : (t.len : Int) + n ≤ t.buf.length
      · obtain ⟨b, hb', hbl, _⟩ := poke_some (buf := t.buf) (i := t.len) (xs := List.replicate n.toNat c) (by omega) (by simp; omega)
        rw [hb']
        show withBuf (poke b (t.len + n) [0]) _ = _
        unfold poke
        rw [if_neg (by simp; omega)]
        rfl
      · unfold poke
        rw [if_neg (by simp; omega)]
        rfl
    · rw [if_pos hi]

theorem char_cases {s : SB} (h : Inv s) {c : Nat} {n : Int} (hu : ¬ (0 ≤ n ∧ ¬ Refused s n ∧ (2147483520 < n ∨ block (grown s.cap n) < s.len + n))) :
    (∃ e, appendChar s c n = .threw e s ∧ (n < 0 ∨ Refused s n)) ∨
    ∃ t, appendChar s c n = .done t ∧ Inv t ∧ t.maxCap = s.maxCap ∧ (t.len : Int) = s.len + n ∧ (t.cap : Int) = grown s.cap n ∧ content t = content s ++ List.replicate n.toNat c := by
  by_cases h0 : n < 0
  · left
    exact ⟨_, by unfold appendChar; rw [if_pos h0], .inl h0⟩
  by_cases hr : Refused s n
  · left
    refine ⟨.argumentOutOfRange, ?_, .inr hr⟩
    unfold appendChar
    rw [if_neg h0, ensure_refused (by omega) hr]
    rfl
  right
  have h2 : ¬ (2147483520 < n ∨ block (grown s.cap n) < s.len + n) := fun h' => hu ⟨by omega, hr, h'⟩
  obtain ⟨t, he, hs, ht⟩ := ensure_done h (c := n) (by omega) hr (by omega)
  have hb := hs.inv.block
  rw [ht] at hb
  have hl := hs.len
  have hbl := hs.inv.buf_le
  unfold appendChar
  rw [if_neg h0, he, andThen_done, if_neg (by unfold I32; omega)]
  obtain ⟨b2, hb2, hl2, hg2⟩ := poke_some (buf := t.buf) (i := t.len) (xs := List.replicate n.toNat c) (by omega) (by rw [List.length_replicate]; omega)
  obtain ⟨b3, hb3, hl3, hg3⟩ := poke_some (buf := b2) (i := t.len + n) (xs := [0]) (by omega) (by simp only [List.length_singleton]; omega)
  simp only [hb2, hb3, withBuf]
  have hct := content_length h
  refine ⟨_, rfl, ⟨?_, hs.inv.capI, hs.inv.capH, ?_, ?_, hs.inv.max1, hs.inv.max2⟩, hs.max, by show ((t.len + n.toNat : Nat) : Int) = _; omega, ht, ?_⟩
  · show b3.length = _; rw [hl3, hl2]; exact hs.inv.size
  · show t.len + n.toNat + 1 ≤ b3.length; omega
  · show b3[b3.length - 1]? = _
    have hnul := hs.inv.nul
    rw [hg3]
    by_cases hc : (t.len + n).toNat ≤ b3.length - 1 ∧ b3.length - 1 < (t.len + n).toNat + [0].length
    · rw [if_pos hc]; simp only [List.length_singleton] at hc
      have : b3.length - 1 - (t.len + n).toNat = 0 := by omega
      rw [this]; rfl
    · rw [if_neg hc]; simp only [List.length_singleton] at hc
      rw [hg2, List.length_replicate, if_neg (by omega), hl3, hl2]; exact hnul
  · apply content_ext
    · show _ = t.len + n.toNat; rw [List.length_append, List.length_replicate]; omega
    · intro j hj
      have hj' : j < t.len + n.toNat := hj
      show b3[j]? = _
      rw [hg3, if_neg (by simp only [List.length_singleton]; omega), hg2, List.length_replicate]
      by_cases c1 : j < s.len
      · rw [if_neg (by omega), List.getElem?_append_left (by omega), ← hs.text, content_get, if_pos (by omega)]
      · rw [if_pos (by omega), List.getElem?_append_right (by omega)]; congr 1; omega

theorem char_fine {s : SB} (h : Inv s) {c : Nat} {n : Int} (hu : ¬ (0 ≤ n ∧ ¬ Refused s n ∧ (2147483520 < n ∨ block (grown s.cap n) < s.len + n))) : Fine s (appendChar s c n) := by
  rcases char_cases (c := c) h hu with ⟨e, he, _⟩ | ⟨t, he, hi, hm, _⟩
  · exact fine_threw h he
  · exact ⟨t, .inl he, hi, hm⟩

theorem block_one {cap : Int} (h : 0 ≤ cap) : block (grown cap 1) = block cap := by
  unfold block grown
  split <;> (try split) <;> omega

theorem line_exact {s : SB} (h : Inv s) : if block s.cap < s.len + 2 then appendLine s = .ub else Fine s (appendLine s) := by
  have hm := h.max1
  have one : ∀ {u : SB}, Inv u → ¬ Refused u 1 := by intro u hu; have := hu.max1; unfold Refused; omega
  by_cases h1 : block s.cap < s.len + 1
  · rw [if_pos (by omega)]
    unfold appendLine
    rw [char_undefined h (by omega) (one h) (.inr (by rw [block_one (by omega)]; omega))]
    rfl
  rcases char_cases (c := 13) (n := 1) h (by rw [block_one (by omega)]; omega) with ⟨e, _, hx⟩ | ⟨t, he, hi, hmx, htl, htc, _⟩
  · have := one h
    rcases hx with hx | hx
    · omega
    · exact absurd hx this
  have hbt : block t.cap = block s.cap := by rw [htc, block_one (by omega)]
  unfold appendLine
  rw [he, andThen_done]
  by_cases h2 : block s.cap < s.len + 2
  · rw [if_pos h2]
    exact char_undefined hi (by omega) (one hi) (.inr (by rw [block_one (by omega)]; omega))
  · rw [if_neg h2]
    obtain ⟨u, hu1, hu2, hu3⟩ := char_fine (c := 10) (n := 1) hi (by rw [block_one (by omega)]; omega)
    exact ⟨u, hu1, hu2, by rw [hu3, hmx]⟩

/-! ### Repeated insertion -/

theorem insert_exact {i : Int} {v : WStr} (hv : v ≠ []) : ∀ (k : Nat) (s : SB), Inv s →
    (InsertUndefined s.maxCap v.length i k s.len s.cap → insertLoop i v k s = .ub) ∧ (¬ InsertUndefined s.maxCap v.length i k s.len s.cap → Fine s (insertLoop i v k s))
  | 0, s, h => ⟨fun h' => h'.elim, fun _ => ⟨s, .inl rfl, h, rfl⟩⟩
  | k + 1, s, h => by
    have hl : v.length ≠ 0 := fun e => hv (List.length_eq_zero_iff.mp e)
    unfold insertLoop
    rw [if_neg hl]
    have hpos : (position s i ≤ s.len ↔ i ≤ s.len) ∧ (position s i < 0 ↔ i < -1) := by unfold position; split <;> omega
    by_cases hu : AddUndefined s v.length (position s i)
    · have hI : InsertUndefined s.maxCap v.length i (k + 1) s.len s.cap := by
        obtain ⟨h1, h2⟩ := hu
        refine ⟨hpos.1.mp h1, ?_⟩
        rcases h2 with h2 | ⟨h2, h3⟩
        · exact .inl h2
        · refine .inr ⟨h2, ?_⟩
          rcases h3 with h3 | h3
          · exact .inl h3
          · exact .inr (.inl (hpos.2.mp h3))
      refine ⟨fun _ => ?_, fun h' => absurd hI h'⟩
      rw [add_undefined h (by omega) (by simp; omega) hu]
      rfl
    · rcases add_cases (values := v ++ [0]) h (by omega) (by simp; omega) hu with ⟨e, he, hx⟩ | ⟨t, he, hi, hm, htl, htc, hx1, hx2, hx3⟩
      · rw [he]
        refine ⟨fun hI => ?_, fun _ => fine_threw h rfl⟩
        obtain ⟨g1, g2⟩ := hI
        unfold AddUndefined at hu
        rcases hx with hx | hx
        · omega
        · rcases g2 with g2 | ⟨g2, _⟩
          · exact absurd ⟨hpos.1.mpr g1, .inl g2⟩ hu
          · exact absurd hx g2
      · rw [he, andThen_done]
        have ih := insert_exact (i := i) hv k t hi
        rw [hm, htl, htc] at ih
        have hiff : InsertUndefined s.maxCap v.length i (k + 1) s.len s.cap ↔ InsertUndefined s.maxCap v.length i k (s.len + v.length) (grown s.cap (s.len + v.length)) := by
          constructor
          · rintro ⟨g1, g2 | ⟨_, g2 | g2 | g2⟩⟩
            · omega
            · omega
            · exact absurd ⟨hpos.1.mpr g1, .inr ⟨hx2, .inr (hpos.2.mpr g2)⟩⟩ hu
            · exact g2
          · intro g
            exact ⟨hpos.1.mp (by omega), .inr ⟨hx2, .inr (.inr g)⟩⟩
        rw [hiff]
        refine ⟨ih.1, fun h' => ?_⟩
        obtain ⟨u, hu1, hu2, hu3⟩ := ih.2 h'
        exact ⟨u, hu1, hu2, by rw [hu3, hm]⟩

/-! ### Replacing -/

theorem replace_exact {s : SB} (h : Inv s) {p : WStr} {r : Option WStr} {i n : Int} (hp : p ≠ []) (h1 : 0 ≤ i) (h2 : 0 ≤ n) (h3 : i + n ≤ s.len) {ys : WStr}
    (hr : Replaced p (r.getD []) (((content s).drop i.toNat).take n.toNat) ys) (hsm : p.length < 536870912 ∨ n < p.length) :
    ∃ d : Int, (s.len : Int) - n + ys.length = s.len + d ∧
      (2147483520 < s.len + d → replaceStr s (some p) r i n = if ¬ I32 d then .ub else (ensureRoomFor s d).andThen fun s =>
        replaceLoop p (r.getD []) (i + 1 + n - p.length - i).toNat i (i + 1 + n - p.length) s) := by
  have hl : p.length ≠ 0 := fun e => hp (List.length_eq_zero_iff.mp e)
  have hll := h.len_le
  have hlim := h.len_lim
  have hct := content_length h
  have hb : s.buf.take s.len = s.buf.take i.toNat ++ ((content s).drop i.toNat).take n.toNat ++ (content s).drop (i.toNat + n.toNat) := by
    have e1 : (content s).take i.toNat = s.buf.take i.toNat := by
      unfold content; rw [List.take_take]; congr 1; omega
    rw [← e1]
    show content s = _
    rw [List.append_assoc, ← List.drop_drop, List.take_append_drop, List.take_append_drop]
  have hpre : (s.buf.take i.toNat).length = i.toNat := by rw [List.length_take]; omega
  have hmid : (((content s).drop i.toNat).take n.toNat).length = n.toNat := by rw [List.length_take, List.length_drop]; omega
  obtain ⟨zs, k, hz, hc⟩ := countLoop_spec (rep := r.getD []) hl (i + 1 + n - p.length - i).toNat _ _ _ s.len 0 hb (by omega) (by rw [hmid]; omega)
  have hzy := Replaced.det hp hr hz.toReplaced
  subst hzy
  refine ⟨((r.getD []).length - p.length) * k, ?_, fun hbig => ?_⟩
  · have := hz.length
    rw [hmid] at this
    rw [this]
    omega
  · rw [hpre, hmid] at hc
    have e1 : (i.toNat : Int) = i := by omega
    have e2 : (n.toNat : Int) = n := by omega
    rw [e1, e2] at hc
    have hcs : countSubStrings s p i n = .ok k := by
      unfold countSubStrings
      simp only []
      rw [if_neg (by omega)]
      rw [show i + 1 + n - (p.length : Int) = i + n + 1 - p.length by omega] at *
      rw [hc]
      simp
    have hk : k ≠ 0 := by
      intro e; subst e
      simp at hbig
      omega
    have hd : (0 : Int) < (r.getD []).length - p.length := by
      rcases Int.lt_or_le 0 (((r.getD []).length : Int) - p.length) with h | h
      · exact h
      · have : (((r.getD []).length : Int) - p.length) * k ≤ 0 := Int.mul_nonpos_of_nonpos_of_nonneg h (by omega)
        omega
    unfold replaceStr
    rw [if_neg (by omega), if_neg (by omega)]
    simp only []
    rw [if_neg hl, hcs]
    simp only []
    rw [if_neg hk]
    simp only [gt_iff_lt]
    rw [if_pos hd]
    by_cases hI : I32 ((((r.getD []).length : Int) - p.length) * k)
    · rw [if_neg (by simp [hI]), if_neg (by simp [hI])]
    · rw [if_pos hI, if_pos hI]
      rfl

/-! ## The property -/

/-- Every call: undefined exactly when `Undefined`. -/
theorem step_exact {ov : Bool} {s : SB} (h : Inv s) (op : Op) : (Undefined ov s op → step ov s op = .ub) ∧ (¬ Undefined ov s op → Fine s (step ov s op)) := by
  have safe : ∀ {op}, MemSafe ov s op → Fine s (step ov s op) := fun hm => by
    obtain ⟨t, hg⟩ := step_good h hm
    exact ⟨t, hg.out, hg.inv, hg.max⟩
  have hcap := h.cap_lim
  have hlen := h.len_lim
  have hmax := h.max2
  have pe : position s s.len = s.len := by unfold position; split <;> omega
  have pm : position s (-1) = s.len := by unfold position; rw [if_pos rfl]
  have tc : ∀ (v : WStr) (n : Int), 0 ≤ takeCount v n := by intro v n; unfold takeCount; split <;> omega
  have arr : ∀ (k : Int) (a : ArrArg) (i n : Int),
      ((takeCount a.data n ≠ 0 ∧ max i 0 + takeCount a.data n ≤ a.data.length ∧ a.isChar = true ∧ a.oneDim = true ∧ AddUndefined s (takeCount a.data n) (position s k)) →
        insertArray s k (some a) i n = .ub) ∧
      (¬ (takeCount a.data n ≠ 0 ∧ max i 0 + takeCount a.data n ≤ a.data.length ∧ a.isChar = true ∧ a.oneDim = true ∧ AddUndefined s (takeCount a.data n) (position s k)) →
        Fine s (insertArray s k (some a) i n)) := by
    intro k a i n
    have hn := tc a.data n
    unfold insertArray
    simp only []
    have htc : (if n < 0 then (a.data.length : Int) else n) = takeCount a.data n := rfl
    have hst : (if i < 0 then (0 : Int) else i) = max i 0 := by split <;> omega
    rw [htc, hst]
    by_cases h0 : takeCount a.data n = 0
    · rw [if_pos h0]
      exact ⟨fun h' => absurd h0 h'.1, fun _ => ⟨s, .inl rfl, h, rfl⟩⟩
    rw [if_neg h0]
    by_cases h1 : takeCount a.data n > a.data.length - max i 0
    · rw [if_pos h1]
      exact ⟨fun h' => by omega, fun _ => fine_threw h rfl⟩
    rw [if_neg h1]
    by_cases h2 : a.isChar = false
    · rw [if_pos h2]
      exact ⟨fun h' => by rw [h2] at h'; simp at h', fun _ => fine_threw h rfl⟩
    rw [if_neg h2]
    by_cases h3 : a.oneDim = false
    · rw [if_pos h3]
      exact ⟨fun h' => by rw [h3] at h'; simp at h', fun _ => fine_threw h rfl⟩
    rw [if_neg h3, if_neg (by omega)]
    simp only [Bool.not_eq_false] at h2 h3
    refine ⟨fun h' => add_undefined h hn (by simp; omega) h'.2.2.2.2, fun h' => add_fine h hn (by simp; omega) fun hu => h' ⟨h0, by omega, h2, h3, hu⟩⟩
  cases op with
  | appendStr v i n =>
    cases v with
    | none =>
      refine ⟨fun hu => ?_, fun hu => ?_⟩
      · show appendStr s none i n = .ub
        unfold appendStr
        exact if_neg hu
      · refine fine_threw (e := .argumentOutOfRange) h ?_
        show appendStr s none i n = _
        unfold appendStr
        exact if_pos (Decidable.not_not.mp hu)
    | some v =>
      have hn := tc v n
      have key : step ov s (.appendStr (some v) i n) = if i < 0 then .threw .argumentOutOfRange s else if i > v.length - takeCount v n then .threw .argumentOutOfRange s
        else appendRaw s ((v ++ [0]).drop i.toNat) (takeCount v n) (-1) := rfl
      rw [key]
      by_cases h1 : i < 0
      · rw [if_pos h1]
        exact ⟨fun hu => by have := hu.1; omega, fun _ => fine_threw h rfl⟩
      rw [if_neg h1]
      by_cases h2 : i > v.length - takeCount v n
      · rw [if_pos h2]
        exact ⟨fun hu => by have := hu.2.1; omega, fun _ => fine_threw h rfl⟩
      rw [if_neg h2]
      refine ⟨fun hu => add_undefined h hn (by simp; omega) (by rw [pm]; exact hu.2.2), fun hu => add_fine h hn (by simp; omega) fun hu' => hu ⟨by omega, by omega, by rw [pm] at hu'; exact hu'⟩⟩
  | appendChar c n => exact ⟨fun hu => char_undefined h hu.1 hu.2.1 hu.2.2, fun hu => char_fine h hu⟩
  | appendText t =>
    refine ⟨fun hu => add_undefined h (by omega) (Int.le_refl _) (by rw [pm]; exact hu), fun hu => add_fine h (by omega) (Int.le_refl _) (by rw [pm]; exact hu)⟩
  | appendArray a i n =>
    cases a with
    | none => exact ⟨fun hu => hu.elim, fun _ => ⟨s, .inl rfl, h, rfl⟩⟩
    | some a =>
      have := arr s.len a i n
      rw [pe] at this
      exact this
  | appendLine =>
    have := line_exact h
    refine ⟨fun hu => ?_, fun hu => ?_⟩
    · rw [if_pos (show block s.cap < s.len + 2 from hu)] at this; exact this
    · rw [if_neg (show ¬ block s.cap < s.len + 2 from hu)] at this; exact this
  | appendLineStr v =>
    cases v with
    | none => exact ⟨fun _ => rfl, fun hu => absurd trivial hu⟩
    | some v =>
      have key : step ov s (.appendLineStr (some v)) = (appendRaw s (v ++ [0]) v.length (-1)).andThen appendLine := by
        show (appendStr s (some v) 0 (-1)).andThen appendLine = _
        have e : appendStr s (some v) 0 (-1) = appendRaw s (v ++ [0]) v.length (-1) := by
          unfold appendStr
          have e : (if (-1 : Int) < 0 then (v.length : Int) else -1) = v.length := if_pos (by omega)
          simp only [e]
          rw [if_neg (by omega), if_neg (by omega)]
          rfl
        rw [e]
      rw [key]
      by_cases hu : AddUndefined s v.length s.len
      · refine ⟨fun _ => ?_, fun hn => absurd (.inl hu) hn⟩
        rw [add_undefined h (by omega) (by simp; omega) (by rw [pm]; exact hu)]
        rfl
      · rcases add_cases (values := v ++ [0]) (n := v.length) (i := -1) h (by omega) (by simp; omega) (by rw [pm]; exact hu) with ⟨e, he, hx⟩ | ⟨t, he, hi, hm, htl, htc, _, hx, _⟩
        · rw [he]
          refine ⟨fun hU => ?_, fun _ => fine_threw h rfl⟩
          rw [pm] at hx
          rcases hU with hU | ⟨hU, _⟩
          · exact absurd hU hu
          · rcases hx with hx | hx
            · omega
            · exact absurd hx hU
        · rw [he, andThen_done]
          have hl := line_exact hi
          rw [htl, htc] at hl
          by_cases hb : block (grown s.cap (s.len + v.length)) < s.len + v.length + 2
          · rw [if_pos hb] at hl
            exact ⟨fun _ => hl, fun hU => absurd (.inr ⟨hx, hb⟩) hU⟩
          · rw [if_neg hb] at hl
            refine ⟨fun hU => ?_, fun _ => ?_⟩
            · rcases hU with hU | ⟨_, hU⟩
              · exact absurd hU hu
              · exact absurd hU hb
            · obtain ⟨u, hu1, hu2, hu3⟩ := hl
              exact ⟨u, hu1, hu2, by rw [hu3, hm]⟩
  | insertText i t =>
    exact ⟨fun hu => add_undefined h (by omega) (Int.le_refl _) hu, fun hu => add_fine h (by omega) (Int.le_refl _) hu⟩
  | insertStr i v n =>
    cases v with
    | none =>
      refine ⟨fun hu => ?_, fun hu => ⟨s, .inl ?_, h, rfl⟩⟩
      · show (if n ≤ 0 then Out.done s else .ub) = .ub
        rw [if_neg (by have : 0 < n := hu; omega)]
      · show (if n ≤ 0 then Out.done s else .ub) = .done s
        rw [if_pos (by have : ¬ 0 < n := hu; omega)]
    | some v =>
      by_cases hv : v = []
      · subst hv
        refine ⟨fun hu => absurd rfl hu.1, fun _ => ?_⟩
        show Fine s (insertLoop i [] n.toNat s)
        cases n.toNat with
        | zero => exact ⟨s, .inl rfl, h, rfl⟩
        | succ k => exact fine_threw h rfl
      · have := insert_exact (i := i) hv n.toNat s h
        exact ⟨fun hu => this.1 hu.2, fun hu => this.2 fun h' => hu ⟨hv, h'⟩⟩
  | insertArray k a i n =>
    cases a with
    | none => exact ⟨fun hu => hu.elim, fun _ => ⟨s, .inl rfl, h, rfl⟩⟩
    | some a => exact arr k a i n
  | remove i n =>
    refine ⟨fun hu => ?_, fun hu => ?_⟩
    · obtain ⟨h1, h2, h3, h4⟩ := hu
      show remove ov s i n = .ub
      unfold remove
      simp only []
      rw [if_neg (by omega), if_neg (by omega), if_neg (by omega), if_pos ⟨h3, by omega, h4⟩]
    · by_cases hx : n < 0 ∨ i < 0 ∨ n > s.len - i
      · refine fine_threw (e := .argumentOutOfRange) h ?_
        show remove ov s i n = _
        unfold remove
        by_cases h1 : n < 0
        · rw [if_pos h1]
        rw [if_neg h1]
        by_cases h2 : i < 0
        · rw [if_pos h2]
        rw [if_neg h2, if_pos (by omega)]
      · refine safe (op := .remove i n) ?_
        show ov = true ∨ _
        cases ov with
        | true => exact .inl rfl
        | false =>
          right; left
          have : ¬ (0 ≤ i ∧ 0 ≤ n ∧ false = false ∧ n < s.len - i - n) := hu
          simp only [true_and] at this
          omega
  | replaceChar o c i n => exact ⟨fun hu => hu.elim, fun _ => safe (op := .replaceChar o c i n) trivial⟩
  | replaceStr p r i n =>
    cases p with
    | none => exact ⟨fun hu => hu.elim, fun _ => safe (op := .replaceStr none r i n) trivial⟩
    | some p =>
      by_cases ha : 0 ≤ i ∧ 0 ≤ n ∧ i + n ≤ s.len ∧ p ≠ []
      case neg =>
        refine ⟨fun hu => absurd ⟨hu.1, hu.2.1, hu.2.2.1, hu.2.2.2.1⟩ ha, fun _ => fine_threw (e := .argumentOutOfRange) h ?_⟩
        show replaceStr s (some p) r i n = _
        unfold replaceStr
        by_cases h1 : i < 0 ∨ i > s.len
        · rw [if_pos h1]
        rw [if_neg h1]
        by_cases h2 : n < 0 ∨ i > s.len - n
        · rw [if_pos h2]
        rw [if_neg h2]
        simp only []
        rw [if_pos]
        have hp : ¬ p ≠ [] := fun hp => ha ⟨by omega, by omega, by omega, hp⟩
        rw [Decidable.not_not.mp hp]
        rfl
      obtain ⟨h1, h2, h3, hp⟩ := ha
      have hl : p.length ≠ 0 := fun e => hp (List.length_eq_zero_iff.mp e)
      by_cases hbig : 536870912 ≤ p.length ∧ (p.length : Int) ≤ n
      · refine ⟨fun _ => ?_, fun hu => absurd ⟨h1, h2, h3, hp, .inl hbig⟩ hu⟩
        show replaceStr s (some p) r i n = _
        unfold replaceStr
        rw [if_neg (by omega), if_neg (by omega)]
        simp only []
        rw [if_neg hl]
        have : countSubStrings s p i n = .ub := by
          unfold countSubStrings
          simp only []
          rw [if_pos ⟨by omega, hbig.1⟩]
        rw [this]
      have hsm : p.length < 536870912 ∨ n < p.length := by omega
      obtain ⟨ys, hys⟩ : ∃ ys, Replaced p (r.getD []) (((content s).drop i.toNat).take n.toNat) ys := SBProps.C28_replace_exists hp _
      obtain ⟨d, hd, hrep⟩ := replace_exact h hp h1 h2 h3 hys hsm
      have only : ∀ zs, Replaced p (r.getD []) (((content s).drop i.toNat).take n.toNat) zs → zs = ys := fun zs hz => Replaced.det hp hys hz
      by_cases ht : 2147483520 < s.len + d
      case neg =>
        refine ⟨fun hu => ?_, fun _ => safe (op := .replaceStr (some p) r i n) ⟨hsm, fun zs hz => ?_⟩⟩
        · rcases hu.2.2.2.2 with hu | ⟨zs, hz, hu⟩
          · exact absurd hu hbig
          · rw [only zs hz, hd] at hu
            omega
        · rw [only zs hz, hd]
          show _ ≤ (2147483520 : Int)
          omega
      have hrep := hrep ht
      have U : Undefined ov s (.replaceStr (some p) r i n) ↔ (2147483647 < s.len + d ∨ s.len + d ≤ s.maxCap) := by
        constructor
        · intro hu
          rcases hu.2.2.2.2 with hu | ⟨zs, hz, hu⟩
          · exact absurd hu hbig
          · rw [only zs hz, hd] at hu
            omega
        · intro hu
          refine ⟨h1, h2, h3, hp, .inr ⟨ys, hys, ?_⟩⟩
          rw [hd]
          omega
      rw [U]
      show (_ → replaceStr s (some p) r i n = .ub) ∧ (_ → Fine s (replaceStr s (some p) r i n))
      rw [hrep]
      refine ⟨fun hu => ?_, fun hu => ?_⟩
      · by_cases hI : I32 d
        · rw [if_neg (by simp [hI])]
          unfold ensureRoomFor
          by_cases hI2 : I32 (s.len + d)
          · rw [if_neg (by simp [hI2]), ensure_big h ht (by unfold I32 at hI2; omega)]
            rfl
          · rw [if_pos hI2]
            rfl
        · rw [if_pos hI]
      · rw [if_neg (by unfold I32; omega)]
        unfold ensureRoomFor
        rw [if_neg (by unfold I32; omega), ensure_refused (by omega) ⟨by omega, by omega⟩]
        exact fine_threw h rfl
  | setChars i c => exact ⟨fun hu => hu.elim, fun _ => safe (op := .setChars i c) trivial⟩
  | clear => exact ⟨fun hu => hu.elim, fun _ => safe (op := .clear) trivial⟩
  | setLength n =>
    refine ⟨fun hu => ?_, fun hu => safe (op := .setLength n) ?_⟩
    · obtain ⟨h1, h2⟩ := hu
      show setLength s n = .ub
      unfold setLength
      rw [if_neg (by omega), if_neg (by omega), if_neg (by omega), ensure_big h h1 h2]
      rfl
    · show n ≤ (2147483520 : Int) ∨ n > s.maxCap
      have : ¬ (2147483520 < n ∧ n ≤ s.maxCap) := hu
      omega
  | setCapacity n =>
    refine ⟨fun hu => ?_, fun hu => safe (op := .setCapacity n) ?_⟩
    · obtain ⟨h1, h2⟩ := hu
      have := ensure_big h h1 h2
      unfold ensureCapacity at this
      rw [if_neg (by omega), if_pos (by omega)] at this
      exact this
    · show n ≤ (2147483520 : Int) ∨ n > s.maxCap
      have : ¬ (2147483520 < n ∧ n ≤ s.maxCap) := hu
      omega
  | ensureCapacity n =>
    refine ⟨fun hu => ensure_big h hu.1 hu.2, fun hu => safe (op := .ensureCapacity n) ?_⟩
    show n ≤ (2147483520 : Int) ∨ n > s.maxCap
    have : ¬ (2147483520 < n ∧ n ≤ s.maxCap) := hu
    omega

theorem anyReach_inv {ov : Bool} {s : SB} (h : SBProps.AnyReach ov s) : Inv s := by
  induction h with
  | new hm h => exact (SBProps.create_good hm h).1
  | «from» h => exact (SBProps.createFrom_good h).1
  | @call s s' op _ ho ih =>
    obtain ⟨h1, h2⟩ := step_exact ih (ov := ov) op
    have hn : ¬ Undefined ov s op := by
      intro hu
      rw [h1 hu] at ho
      rcases ho with ho | ⟨_, ho⟩ <;> cases ho
    obtain ⟨t, ht, hi, _⟩ := h2 hn
    rw [SBProps.out_det ht ho]
    exact hi

theorem setCapacity_exact {s : SB} (h : Inv s) (hi : s.internal = true) (c : Int) : setCapacity s c = .ub ↔ 2147483520 < c ∧ c ≤ s.maxCap := by
  constructor
  · intro hu
    refine Decidable.byContradiction fun hn => ?_
    rcases setCapacity_spec (c := c) h (by show c ≤ (2147483520 : Int) ∨ c > s.maxCap; omega) with ⟨he, _⟩ | ⟨t, he, _⟩
    · rw [hu] at he; cases he
    · rw [hu] at he; cases he
  · intro ⟨h1, h2⟩
    have := ensure_big h h1 h2
    have := h.cap_lim
    unfold ensureCapacity at *
    rw [if_neg (by omega), if_pos (by omega)] at *
    assumption

/-- **C174**: in every history whatsoever a call is undefined exactly when `Undefined` says so, from the arguments and the numbers a program can read off the builder. -/
theorem C174_undefined_exact {ov : Bool} {s : SB} (h : SBProps.AnyReach ov s) (op : Op) : step ov s op = .ub ↔ Undefined ov s op := by
  obtain ⟨h1, h2⟩ := step_exact (anyReach_inv h) (ov := ov) op
  refine ⟨fun hu => Classical.byContradiction fun hn => ?_, h1⟩
  obtain ⟨t, ht, _⟩ := h2 hn
  rw [hu] at ht
  rcases ht with ht | ⟨_, ht⟩ <;> cases ht

/-- A full default builder: one more character is undefined; the same character in a builder of capacity 256 is not. -/
example : SBProps.AnyReach true SBProps.exAbc ∧ Undefined true SBProps.exAbc (.appendChar 97 126) ∧ ¬ Undefined true SBProps.exAbc (.appendChar 97 125) ∧
    ¬ Undefined true SBProps.exAbc (.appendChar 97 200) := by
  refine ⟨.from (v := some (w "abc")) (i := 0) (n := 3) (c := 128) (by decide +kernel), ?_, ?_, ?_⟩ <;>
    (unfold Undefined Refused block grown; decide +kernel)

/-- **C174**: every other call returns or throws a catchable exception, keeps MaxCapacity, and leaves a builder of which every character and the text can be read. -/
theorem C174_otherwise_usable {ov : Bool} {s : SB} (h : SBProps.AnyReach ov s) (op : Op) (hd : ¬ Undefined ov s op) :
    ∃ s', (step ov s op = .done s' ∨ ∃ e, step ov s op = .threw e s') ∧ s'.maxCap = s.maxCap ∧
      ∃ xs, toStr s' = .ok xs ∧ xs.length = s'.len ∧
        ∀ i : Int, getChars s' i = if i < 0 then .throw .indexOutOfRange else match xs[i.toNat]? with | some c => .ok c | none => .throw .indexOutOfRange := by
  obtain ⟨t, ht, hi, hm⟩ := (step_exact (anyReach_inv h) (ov := ov) op).2 hd
  have hll := hi.len_le
  refine ⟨t, ht, hm, content t, toStr_ok hi, ?_, fun i => ?_⟩
  · unfold content; simp; omega
  · unfold getChars
    by_cases h0 : i < 0
    · rw [if_pos (Or.inl h0), if_pos h0]
    rw [if_neg h0]
    by_cases h1 : i ≥ t.len
    · rw [if_pos (Or.inr h1)]
      have : (content t)[i.toNat]? = none := by unfold content; simp; omega
      rw [this]
    rw [if_neg (by omega), peek_some (by omega) (by omega) (by omega)]
    have hb : i.toNat < t.buf.length := by omega
    have e1 : (content t)[i.toNat]? = some t.buf[i.toNat] := by
      unfold content
      rw [List.getElem?_take_of_lt (by omega), List.getElem?_eq_getElem hb]
    have e2 : (t.buf.drop i.toNat).take (1 : Int).toNat = [t.buf[i.toNat]] := by
      rw [List.drop_eq_getElem_cons hb]
      rfl
    rw [e1, e2]

/-- Inserting "ab" three times at 0 is not undefined; at -2 it is. -/
example : ¬ Undefined true SBProps.exAbc (.insertStr 0 (some (w "ab")) 3) ∧ Undefined true SBProps.exAbc (.insertStr (-2) (some (w "ab")) 3) := by
  constructor
  · show ¬ (w "ab" ≠ [] ∧ InsertUndefined 2147483647 2 0 3 3 128)
    intro ⟨_, h⟩
    have e : grown 128 5 = 128 ∧ grown 128 7 = 128 := by decide
    simp [InsertUndefined, e.1, e.2] at h
  · show w "ab" ≠ [] ∧ InsertUndefined 2147483647 2 (-2) 3 3 128
    refine ⟨by decide, ?_⟩
    simp [InsertUndefined]

/-- **C174**: the constructor taking a capacity is undefined exactly when the capacity is acceptable but cannot be rounded up within an Int32. -/
theorem C174_create_exact (c m : Int) (hm : m ≤ 2147483647) : create c m = .ub ↔ 2147483520 < c ∧ c ≤ m := by
  unfold create
  by_cases h1 : c > m
  · rw [if_pos h1]; exact ⟨fun h => (by cases h), fun h => (by omega)⟩
  rw [if_neg h1]
  by_cases h2 : m < 1
  · rw [if_pos h2]; exact ⟨fun h => (by cases h), fun h => (by omega)⟩
  rw [if_neg h2]
  by_cases h3 : c < 0
  · rw [if_pos h3]; exact ⟨fun h => (by cases h), fun h => (by omega)⟩
  rw [if_neg h3]
  simp only []
  rw [setCapacity_exact (SBProps.inv_initial (by omega) hm) rfl]
  show 2147483520 < _ ∧ _ ≤ m ↔ _
  by_cases h4 : c = 0
  · subst h4
    rw [if_pos rfl]
    split <;> omega
  · rw [if_neg h4]

example : create 2147483600 2147483647 = .ub ∧ create 2147483600 2147483599 ≠ .ub := by
  constructor
  · rw [C174_create_exact _ _ (by omega)]; omega
  · rw [Ne, C174_create_exact _ _ (by omega)]; omega

/-- **C174**: the constructor taking a string. -/
theorem C174_createFrom_exact (v : Option WStr) (i n c : Int) :
    createFrom v i n c = .ub ↔ 0 ≤ i ∧ 0 ≤ n ∧ 0 ≤ c ∧ i + n ≤ (v.getD []).length ∧ 2147483520 < max c n ∧ max c n ≤ 2147483647 := by
  unfold createFrom
  simp only []
  generalize v.getD [] = x
  by_cases h1 : c < 0
  · rw [if_pos h1]; exact ⟨fun h => (by cases h), fun h => (by omega)⟩
  rw [if_neg h1]
  by_cases h2 : n < 0
  · rw [if_pos h2]; exact ⟨fun h => (by cases h), fun h => (by omega)⟩
  rw [if_neg h2]
  by_cases h3 : i < 0
  · rw [if_pos h3]; exact ⟨fun h => (by cases h), fun h => (by omega)⟩
  rw [if_neg h3]
  by_cases h4 : i > x.length - n
  · rw [if_pos h4]; exact ⟨fun h => (by cases h), fun h => (by omega)⟩
  rw [if_neg h4]
  have hinv : Inv initial := SBProps.inv_initial (m := 2147483647) (by omega) (by omega)
  generalize hk : max (if c = 0 then (128 : Int) else c) n = k
  have hk' : (2147483520 < k ∧ k ≤ 2147483647) ↔ (2147483520 < max c n ∧ max c n ≤ 2147483647) := by
    subst hk
    by_cases h0 : c = 0
    · subst h0; rw [if_pos rfl]; omega
    · rw [if_neg h0]
  have ex := setCapacity_exact hinv rfl k
  have em : initial.maxCap = 2147483647 := rfl
  rw [em] at ex
  constructor
  · intro hu
    refine ⟨by omega, by omega, by omega, by omega, hk'.mp (ex.mp ?_)⟩
    refine Decidable.byContradiction fun hn => ?_
    rcases setCapacity_spec (c := k) hinv (by
        show k ≤ (2147483520 : Int) ∨ k > initial.maxCap
        have : ¬ (2147483520 < k ∧ k ≤ 2147483647) := fun h => hn (ex.mpr h)
        rw [em]; omega) with ⟨he, _⟩ | ⟨t, he, hs, hcap⟩
    · rw [he] at hu; cases hu
    · rw [he, andThen_done] at hu
      by_cases h5 : i ≥ x.length
      · rw [if_pos h5] at hu; cases hu
      rw [if_neg h5] at hu
      have hb := hs.inv.block
      have : n ≤ t.cap := by have := hcap.2.2.1; omega
      unfold block at hb
      obtain ⟨b, hb1, _⟩ := poke_some (buf := t.buf) (i := 0) (xs := (x.drop i.toNat).take n.toNat) (by omega) (by simp; omega)
      rw [hb1] at hu
      cases hu
  · intro ⟨_, _, _, _, hu⟩
    rw [ex.mpr (hk'.mpr hu)]
    rfl

example : createFrom (some (w "abc")) 3 0 2147483600 = .ub ∧ createFrom (some (w "abc")) 4 0 2147483600 ≠ .ub := by
  have e : ((some (w "abc")).getD [] : WStr).length = 3 := rfl
  constructor
  · rw [C174_createFrom_exact, e]; omega
  · rw [Ne, C174_createFrom_exact, e]; omega

end Verif.SBModel
