import Verif.StringBuilderStep
set_option linter.unusedSimpArgs false
/-!
# Property theorems for StringBuilder (C25-C28, C63, C64)
-/
namespace Verif.SBProps
open SBModel SBSpec

/-- Builders a program can hold: made by a constructor, then put through any history of calls that stay in memory
(exceptions are caught and the history goes on). `ov`: overlapping `memcpy` copies like `memmove`. -/
inductive Reach (ov : Bool) : SB → Prop
  | new {c m : Int} {s : SB} : m ≤ 2147483647 → create c m = .done s → Reach ov s
  | from {v : Option WStr} {i n c : Int} {s : SB} : createFrom v i n c = .done s → Reach ov s
  | call {s s' : SB} {op : Op} : Reach ov s → MemSafe ov s op →
      (step ov s op = .done s' ∨ ∃ e, step ov s op = .threw e s') → Reach ov s'

/-- Builders reached by any history at all, including calls outside `MemSafe` that happened to return or throw. -/
inductive AnyReach (ov : Bool) : SB → Prop
  | new {c m : Int} {s : SB} : m ≤ 2147483647 → create c m = .done s → AnyReach ov s
  | from {v : Option WStr} {i n c : Int} {s : SB} : createFrom v i n c = .done s → AnyReach ov s
  | call {s s' : SB} {op : Op} : AnyReach ov s →
      (step ov s op = .done s' ∨ ∃ e, step ov s op = .threw e s') → AnyReach ov s'

/-- Histories in which the program keeps Capacity at or above Length and does not lengthen with `set_Length`. -/
inductive TidyReach (ov : Bool) : SB → Prop
  | new {c m : Int} {s : SB} : m ≤ 2147483647 → create c m = .done s → TidyReach ov s
  | from {v : Option WStr} {i n c : Int} {s : SB} : createFrom v i n c = .done s → TidyReach ov s
  | call {s s' : SB} {op : Op} : TidyReach ov s → MemSafe ov s op → CapSafe s op → NotGrown s op →
      (step ov s op = .done s' ∨ ∃ e, step ov s op = .threw e s') → TidyReach ov s'

theorem inv_initial {m : Int} (h1 : 1 ≤ m) (h2 : m ≤ 2147483647) : Inv { initial with maxCap := m } where
  size := by simp [initial]
  capI := by simp [initial]
  capH := by simp [initial]
  len_le := by simp [initial]
  nul := by simp [initial]
  max1 := h1
  max2 := h2

theorem inv_initial' : Inv initial := inv_initial (m := 2147483647) (by omega) (by omega)

theorem term_initial {m : Int} : ({ initial with maxCap := m } : SB).buf[({ initial with maxCap := m } : SB).len]? = some 0 := by
  simp [initial]

theorem setCapacity_lim {s t : SB} {c : Int} (h : setCapacity s c = .done t) : c ≤ limit ∨ c > s.maxCap ∨ c ≤ s.cap := by
  by_cases h2 : c > s.maxCap
  · exact Or.inr (Or.inl h2)
  by_cases h3 : c ≤ s.cap
  · exact Or.inr (Or.inr h3)
  by_cases h4 : c ≤ limit
  · exact Or.inl h4
  · exfalso
    simp only [limit] at h4
    unfold setCapacity at h
    have hr := roundUp_bounds (c := c) (by omega)
    rw [if_neg (by omega), if_neg h2, if_neg (by omega), if_neg (by omega), if_pos (by omega), if_pos (by omega)] at h
    cases h

theorem create_good {c m : Int} {s : SB} (hm : m ≤ 2147483647) (h : create c m = .done s) :
    Inv s ∧ content s = [] ∧ s.len = 0 ∧ s.maxCap = m ∧ s.buf[s.len]? = some 0 ∧ 0 ≤ c ∧ c ≤ m ∧ 1 ≤ m ∧ c ≤ s.cap := by
  unfold create at h
  by_cases h1 : c > m
  · rw [if_pos h1] at h; cases h
  rw [if_neg h1] at h
  by_cases h2 : m < 1
  · rw [if_pos h2] at h; cases h
  rw [if_neg h2] at h
  by_cases h3 : c < 0
  · rw [if_pos h3] at h; cases h
  rw [if_neg h3] at h
  simp only [] at h
  generalize hd : (if c = 0 then (if (128 : Int) < m then 128 else m) else c) = d at h
  have hd' : 0 ≤ d ∧ d ≤ m ∧ c ≤ d := by subst hd; split <;> (try split) <;> omega
  have hi := inv_initial (m := m) (by omega) hm
  have hl := setCapacity_lim h
  have hl2 : d ≤ limit ∨ d > m := by
    rcases hl with hl | hl | hl
    · exact Or.inl hl
    · exact Or.inr hl
    · left; have hl' : d ≤ (128 : Int) := hl
      unfold limit; omega
  rcases setCapacity_spec hi hl2 with ⟨he, _⟩ | ⟨t, he, hs, _, _, hc, _⟩
  · rw [he] at h; cases h
  · rw [he] at h; injection h with h; subst h
    have hln : t.len = 0 := hs.len
    refine ⟨hs.inv, ?_, hln, hs.max, hs.term term_initial, by omega, by omega, by omega, by omega⟩
    simp [content, hln]

theorem createFrom_good {v : Option WStr} {i n c : Int} {s : SB} (h : createFrom v i n c = .done s) :
    Inv s ∧ content s = ((v.getD []).drop i.toNat).take n.toNat ∧ s.len = n.toNat ∧ s.maxCap = 2147483647 ∧
      s.buf[s.len]? = some 0 ∧ 0 ≤ c ∧ 0 ≤ n ∧ 0 ≤ i ∧ i < (v.getD []).length ∧ i + n ≤ (v.getD []).length ∧ s.len ≤ s.cap ∧ c ≤ s.cap := by
  unfold createFrom at h
  simp only [] at h
  generalize hv : v.getD [] = x at *
  by_cases h1 : c < 0
  · rw [if_pos h1] at h; cases h
  rw [if_neg h1] at h
  by_cases h2 : n < 0
  · rw [if_pos h2] at h; cases h
  rw [if_neg h2] at h
  by_cases h3 : i < 0
  · rw [if_pos h3] at h; cases h
  rw [if_neg h3] at h
  by_cases h4 : i > x.length - n
  · rw [if_pos h4] at h; cases h
  rw [if_neg h4] at h
  generalize hd : max (if c = 0 then (128 : Int) else c) n = d at h
  have hd' : 0 ≤ d ∧ n ≤ d ∧ c ≤ d := by
    subst hd
    split <;> omega
  cases hsc : setCapacity initial d with
  | ub => rw [hsc] at h; cases h
  | threw e t => rw [hsc] at h; cases h
  | done t =>
    rw [hsc, andThen_done] at h
    by_cases h5 : i ≥ x.length
    · rw [if_pos h5] at h; cases h
    rw [if_neg h5] at h
    have hl := setCapacity_lim hsc
    have hl2 : d ≤ limit ∨ d > initial.maxCap := by
      rcases hl with hl | hl | hl
      · exact Or.inl hl
      · exact Or.inr hl
      · left; have hl' : d ≤ (128 : Int) := hl
        unfold limit; omega
    rcases setCapacity_spec inv_initial' hl2 with ⟨he, _⟩ | ⟨t', he, hs, _, _, hc, _⟩
    · rw [he] at hsc; cases hsc
    rw [he] at hsc; injection hsc with hsc; subst hsc
    have hcl := hs.inv.cap_le
    have hxl : ((x.drop i.toNat).take n.toNat).length = n.toNat := by simp; omega
    obtain ⟨b, hb, hbl, hbg⟩ := poke_some (buf := t'.buf) (i := 0) (xs := (x.drop i.toNat).take n.toNat) (by omega) (by omega)
    rw [hb] at h
    simp only [withBuf] at h
    injection h with h; subst h
    have hzero : ∀ j, j < t'.buf.length → t'.buf[j]? = some 0 := by
      intro j hj
      by_cases hd128 : d ≤ 128
      · have : t' = { initial with cap := d.toNat } := by
          unfold setCapacity at he
          have q1 : ¬ d > initial.maxCap := by show ¬ d > (2147483647 : Int); omega
          have q2 : ¬ (initial.internal = false ∧ d < initial.cap) := by simp [initial]
          have q3 : ((initial.cap : Int) ≥ d) := by show (128 : Int) ≥ d; omega
          rw [if_neg (by omega), if_neg q1, if_neg q2, if_pos q3] at he
          injection he with he; exact he.symm
        rw [this] at hj ⊢
        have hj' : j < (List.replicate 129 (0 : Nat)).length := hj
        rw [List.length_replicate] at hj'
        show (List.replicate 129 0)[j]? = some 0
        rw [List.getElem?_replicate, if_pos hj']
      · unfold setCapacity at he
        have q1 : ¬ d > initial.maxCap := by
          intro hq; rw [if_neg (by omega), if_pos hq] at he; cases he
        have q2 : ¬ (initial.internal = false ∧ d < initial.cap) := by simp [initial]
        have q3 : ¬ ((initial.cap : Int) ≥ d) := by show ¬ (128 : Int) ≥ d; omega
        rw [if_neg (by omega), if_neg q1, if_neg q2, if_neg q3, if_pos (by omega)] at he
        split at he
        · cases he
        · have hp : peek initial.buf 0 initial.len = some [] := by simp [peek, initial]
          rw [hp] at he
          simp only [poke] at he
          rw [if_pos (by simp; omega)] at he
          simp only [withBuf] at he
          injection he with he
          subst he
          simp only [Int.toNat_zero, List.take_zero, List.nil_append, List.length_nil, Nat.add_zero, List.drop_zero] at hj ⊢
          rw [List.length_replicate] at hj
          rw [List.getElem?_replicate, if_pos hj]
    refine ⟨⟨?_, hs.inv.capI, hs.inv.capH, ?_, ?_, hs.inv.max1, hs.inv.max2⟩, ?_, rfl, hs.max, ?_, by omega, by omega, by omega, by omega, by omega, ?_, ?_⟩
    · show b.length = _; rw [hbl]; exact hs.inv.size
    · show n.toNat + 1 ≤ b.length; omega
    · show b[b.length - 1]? = some 0
      rw [hbg, if_neg (by omega), hzero _ (by omega)]
    · apply content_ext
      · exact hxl
      · intro j hj
        have hj' : j < n.toNat := hj
        show b[j]? = _
        rw [hbg, if_pos (by omega)]; rfl
    · show b[n.toNat]? = some 0
      rw [hbg, if_neg (by omega), hzero _ (by omega)]
    · show n.toNat ≤ t'.cap; omega
    · show c ≤ (t'.cap : Int); omega

theorem out_det {o : Out} {s t : SB} (h1 : o = .done s ∨ ∃ e, o = .threw e s) (h2 : o = .done t ∨ ∃ e, o = .threw e t) : t = s := by
  rcases h1 with h1 | ⟨e, h1⟩ <;> rcases h2 with h2 | ⟨e', h2⟩ <;> rw [h1] at h2
  · injection h2 with h2; exact h2.symm
  · cases h2
  · cases h2
  · injection h2 with _ h2; exact h2.symm

theorem reach_inv {ov : Bool} {s : SB} (h : Reach ov s) : Inv s := by
  induction h with
  | new hm h => exact (create_good hm h).1
  | «from» h => exact (createFrom_good h).1
  | call _ hm ho ih =>
    obtain ⟨t, hg⟩ := step_good ih hm
    rw [← out_det ho hg.out]; exact hg.inv

/-- The state after a call (only used to name witnesses). -/
def after : Out → SB
  | .done s => s
  | .threw _ s => s
  | .ub => initial

/-- "abc" in a default builder. -/
def exAbc : SB := { initial with buf := [97, 98, 99] ++ List.replicate 126 0, len := 3 }

theorem exAbc_reach (ov : Bool) : Reach ov exAbc :=
  .from (v := some (w "abc")) (i := 0) (n := 3) (c := 128) (by decide +kernel)

/-! ## C25: memory safety -/

/-- **C25** (partial). In every history of covered calls no call reads or writes outside the builder's block (nor has
any other undefined behaviour). Missing: the calls excluded by `MemSafe`, which do (theorems below). -/
theorem C25_memory_safe_partial {ov : Bool} {s : SB} {op : Op} (h : Reach ov s) (hm : MemSafe ov s op) : step ov s op ≠ .ub := by
  obtain ⟨t, hg⟩ := step_good (reach_inv h) hm
  rcases hg.out with hh | ⟨e, hh⟩ <;> rw [hh] <;> simp

example : Reach true exAbc ∧ MemSafe true exAbc (.insertText 1 (w "xyz")) ∧
    (∃ s', step true exAbc (.insertText 1 (w "xyz")) = .done s') :=
  ⟨exAbc_reach _, ⟨by decide, by decide +kernel⟩, ⟨after (step true exAbc (.insertText 1 (w "xyz"))), by decide +kernel⟩⟩

/-- **C25**: reading (`ToString`, `get_Chars`) never leaves the block, in any such history. -/
theorem C25_reads_safe_partial {ov : Bool} {s : SB} (h : Reach ov s) (i : Int) : toStr s ≠ .ub ∧ getChars s i ≠ .ub := by
  have hi := reach_inv h
  have hll := hi.len_le
  refine ⟨by rw [toStr_ok hi]; simp, ?_⟩
  unfold getChars
  split
  · simp
  · rename_i h1
    rw [peek_some (by omega) (by omega) (by omega)]
    have : ((s.buf.drop i.toNat).take (1 : Int).toNat).length = 1 := by simp; omega
    match hq : ((s.buf.drop i.toNat).take (1 : Int).toNat), this with
    | [c], _ => simp

/-- **C25** is false of the code: `Append(Char)` (StringBuilder.cpp lines 261-271) checks room for the appended
characters only, not for the text already there. On every default-capacity builder holding 128 characters the next
`Append(Char)` writes past `internalMemory`. -/
theorem C25_append_char_refuted {ov : Bool} {s : SB} (h : Reach ov s) (hl : s.len = 128) (hc : s.cap = 128) (c : Nat) :
    step ov s (.appendChar c 1) = .ub := by
  have hi := reach_inv h
  have hint : s.internal = true := by
    cases hx : s.internal
    · have := (hi.capH hx).1; omega
    · rfl
  have hsz := hi.size
  rw [hint] at hsz
  simp at hsz
  have e1 : ensureCapacity s 1 = .done s := by
    unfold ensureCapacity; rw [if_neg (by omega), if_neg (by omega)]
  show appendChar s c 1 = .ub
  unfold appendChar
  rw [if_neg (by omega), e1, andThen_done, if_neg (by simp only [I32]; omega)]
  obtain ⟨b, hb, hbl, _⟩ := poke_some (buf := s.buf) (i := s.len) (xs := List.replicate (1 : Int).toNat c) (by omega)
    (by rw [List.length_replicate]; omega)
  rw [hb]
  simp only [withBuf]
  have : poke b (s.len + 1) [0] = none := by
    unfold poke; rw [if_neg (by simp only [List.length_singleton]; omega)]
  rw [this]

/-- Append `n` characters one at a time. -/
def appendChars (c : Nat) : Nat → SB → Out
  | 0, s => .done s
  | n + 1, s => (appendChar s c 1).andThen (appendChars c n)

/-- **C25** is false of the code, second form: on a fresh `new StringBuilder()` 128 single-character appends work and
every longer run of them is undefined behaviour. -/
theorem C25_append_run_refuted (c n : Nat) :
    (n ≤ 128 → ∃ s, appendChars c n initial = .done s ∧ toStr s = .ok (List.replicate n c)) ∧
    (128 < n → appendChars c n initial = .ub) := by
  have key : ∀ (k : Nat) (s : SB), Inv s → s.cap = 128 → s.len + k ≤ 128 →
      ∀ m, ∃ t, appendChars c (k + m) s = appendChars c m t ∧ Inv t ∧ t.cap = 128 ∧ t.len = s.len + k ∧
        content t = content s ++ List.replicate k c := by
    intro k
    induction k with
    | zero => intro s hi hc hl m; exact ⟨s, by rw [Nat.zero_add], hi, hc, rfl, by simp⟩
    | succ k ih =>
      intro s hi hc hl m
      rcases appendChar_spec (s := s) (c := c) (n := 1) hi (room1 (by omega)) with ⟨_, hx⟩ | ⟨t, he, _, htl, hcap, hce, hnc, hinv, hmax, htext, _⟩
      · have := hi.max1; omega
      · obtain ⟨u, hu, h1, h2, h3, h4⟩ := ih t hinv (by rw [hce (by omega)]; exact hc) (by omega) m
        refine ⟨u, ?_, h1, h2, by omega, ?_⟩
        · rw [← hu]
          have : k + 1 + m = (k + m) + 1 := by omega
          rw [this]
          show (appendChar s c 1).andThen _ = _
          rw [he, andThen_done]
        · rw [h4, htext, List.append_assoc]
          congr 1
  constructor
  · intro hn
    obtain ⟨t, ht, hi, _, _, htext⟩ := key n initial inv_initial' rfl (by show 0 + n ≤ 128; omega) 0
    refine ⟨t, ht, ?_⟩
    rw [toStr_ok hi, htext]; simp [content, initial]
  · intro hn
    obtain ⟨t, ht, hi, hc, hl, _⟩ := key 128 initial inv_initial' rfl (by show 0 + 128 ≤ 128; omega) (n - 128)
    have e : 128 + (n - 128) = n := by omega
    rw [e] at ht
    rw [ht]
    have e2 : n - 128 = (n - 129) + 1 := by omega
    rw [e2]
    show (appendChar t c 1).andThen _ = _
    have hl' : t.len = 128 := by rw [hl]; rfl
    have hub : appendChar t c 1 = .ub := by
      have hint : t.internal = true := by
        cases hx : t.internal
        · have := (hi.capH hx).1; omega
        · rfl
      have hsz := hi.size
      rw [hint] at hsz
      simp at hsz
      have e1 : ensureCapacity t 1 = .done t := by
        unfold ensureCapacity; rw [if_neg (by omega), if_neg (by omega)]
      unfold appendChar
      rw [if_neg (by omega), e1, andThen_done, if_neg (by simp only [I32]; omega)]
      obtain ⟨b, hb, hbl, _⟩ := poke_some (buf := t.buf) (i := t.len) (xs := List.replicate (1 : Int).toNat c) (by omega)
        (by rw [List.length_replicate]; omega)
      rw [hb]
      simp only [withBuf]
      have : poke b (t.len + 1) [0] = none := by
        unfold poke; rw [if_neg (by simp only [List.length_singleton]; omega)]
      rw [this]
    rw [hub]; rfl

/-- **C25** is false of the code, third form: `Insert` with an index below -1 moves memory from in front of the block
(StringBuilder.cpp lines 189-197 reject only too large indices); index -1 appends. -/
theorem C25_insert_negative_refuted {ov : Bool} {s : SB} (h : Reach ov s) {i : Int} (hi : i < -1) {t : WStr}
    (hl : s.len + t.length ≤ limit) (hroom : s.len + t.length ≤ s.maxCap) :
    step ov s (.insertText i t) = .ub := by
  have hinv := reach_inv h
  have hll := hinv.len_le
  have hw : (if i = -1 then (s.len : Int) else i) = i := if_neg (by omega)
  show appendRaw s t t.length i = .ub
  unfold appendRaw
  simp only [hw]
  rw [if_neg (by omega)]
  unfold ensureRoomFor
  have hb := hinv.buf_le
  have hl' := hl
  simp only [limit] at hl'
  rw [if_neg (by simp only [I32]; omega)]
  rcases ensureCapacity_spec (c := s.len + t.length) hinv (Or.inl hl) with ⟨he, hr⟩ | ⟨u, he, hs, _⟩
  · exfalso; omega
  · rw [he, andThen_done, if_neg (by omega), if_pos (by omega)]
    have : move u.buf (i + t.length) i (u.len - i) = none := by
      simp only [move, peek]; rw [if_neg (by omega)]
    rw [this]; rfl

example : ∃ i : Int, i < -1 ∧ exAbc.len + (w "z").length ≤ limit ∧ exAbc.len + (w "z").length ≤ exAbc.maxCap :=
  ⟨-2, by decide, by decide +kernel, by decide +kernel⟩

/-! ## C26: the text -/

/-- What a user sees of a call on a builder showing `xs`: either it returns, its arguments were acceptable and `ToString()`
is now as the list operation says; or it throws, `ToString()` is still `xs`, and its arguments were out of range or the
result would exceed MaxCapacity. -/
def Follows (s : SB) (op : Op) (xs : WStr) (o : Out) : Prop :=
  (∃ s' ys, o = .done s' ∧ toStr s' = .ok ys ∧ ArgsOk op xs ∧ Expected op xs ys) ∨
  (∃ e s', o = .threw e s' ∧ toStr s' = .ok xs ∧ (¬ ArgsOk op xs ∨ ¬ Room s op xs))

/-- **C26** (partial). In every history of covered calls, each call edits the text exactly as the corresponding list
operation, or throws leaving the text alone. Missing: the calls excluded by `MemSafe` and `Plain`. -/
theorem C26_text_partial {ov : Bool} {s : SB} {op : Op} (h : Reach ov s) (hm : MemSafe ov s op) (hp : Plain s op) :
    ∃ xs, toStr s = .ok xs ∧ Follows s op xs (step ov s op) := by
  have hi := reach_inv h
  obtain ⟨t, hg⟩ := step_good hi hm
  refine ⟨content s, toStr_ok hi, ?_⟩
  rcases hg.text hp with ⟨ho, ha, hx⟩ | ⟨⟨e, ho⟩, hx, hb⟩
  · exact Or.inl ⟨t, content t, ho, toStr_ok hg.inv, ha, hx⟩
  · exact Or.inr ⟨e, t, ho, by rw [toStr_ok hg.inv, hx], hb⟩

/-- **C26**: a call with acceptable arguments and room returns; one with unacceptable arguments throws. -/
theorem C26_throws_exactly_partial {ov : Bool} {s : SB} {op : Op} {xs : WStr} (h : Reach ov s) (hm : MemSafe ov s op) (hp : Plain s op)
    (hx : toStr s = .ok xs) :
    (ArgsOk op xs → Room s op xs → ∃ s', step ov s op = .done s') ∧ (¬ ArgsOk op xs → ∃ e s', step ov s op = .threw e s') := by
  obtain ⟨ys, hy, hf⟩ := C26_text_partial h hm hp
  rw [hx] at hy; injection hy with hy; subst hy
  rcases hf with ⟨s', zs, ho, _, ha, _⟩ | ⟨e, s', ho, _, hb⟩
  · exact ⟨fun _ _ => ⟨s', ho⟩, fun hn => absurd ha hn⟩
  · refine ⟨fun h1 h2 => ?_, fun _ => ⟨e, s', ho⟩⟩
    rcases hb with hb | hb
    · exact absurd h1 hb
    · exact absurd h2 hb

example : MemSafe true exAbc (.remove 1 1) ∧ Plain exAbc (.remove 1 1) ∧ toStr exAbc = .ok (w "abc") ∧
    ArgsOk (.remove 1 1) (w "abc") ∧ Expected (.remove 1 1) (w "abc") (w "ac") ∧
    (∃ s', step true exAbc (.remove 1 1) = .done s' ∧ toStr s' = .ok (w "ac")) :=
  ⟨Or.inl rfl, trivial, by decide +kernel, by simp only [ArgsOk]; decide +kernel, by simp only [Expected]; decide +kernel,
   after (step true exAbc (.remove 1 1)), by decide +kernel, by decide +kernel⟩

example : MemSafe true exAbc (.remove 2 5) ∧ Plain exAbc (.remove 2 5) ∧ ¬ ArgsOk (.remove 2 5) (w "abc") :=
  ⟨Or.inl rfl, trivial, by simp only [ArgsOk]; decide +kernel⟩

/-- **C26**: the constructors reject every invalid argument with ArgumentOutOfRangeException. -/
theorem C26_constructors_reject :
    (∀ c m : Int, c < 0 ∨ c > m ∨ m < 1 → ∃ s, create c m = .threw .argumentOutOfRange s) ∧
    (∀ (v : WStr) (i n c : Int), c < 0 ∨ n < 0 ∨ i < 0 ∨ i + n > v.length → ∃ s, createFrom (some v) i n c = .threw .argumentOutOfRange s) := by
  constructor
  · intro c m h
    unfold create
    by_cases h1 : c > m
    · exact ⟨_, if_pos h1⟩
    · rw [if_neg h1]
      by_cases h2 : m < 1
      · exact ⟨_, if_pos h2⟩
      · rw [if_neg h2]
        exact ⟨_, if_pos (by omega)⟩
  · intro v i n c h
    unfold createFrom
    simp only [Option.getD_some]
    by_cases h1 : c < 0
    · exact ⟨_, if_pos h1⟩
    rw [if_neg h1]
    by_cases h2 : n < 0
    · exact ⟨_, if_pos h2⟩
    rw [if_neg h2]
    by_cases h3 : i < 0
    · exact ⟨_, if_pos h3⟩
    rw [if_neg h3]
    exact ⟨_, if_pos (by omega)⟩

example : create 5 3 = .threw .argumentOutOfRange initial := by decide +kernel

/-- **C26**: the constructors start from the empty text, or from the requested part of a string. -/
theorem C26_constructors_partial :
    (∀ c m : Int, 0 ≤ c → c ≤ m → 1 ≤ m → m ≤ limit → ∃ s, create c m = .done s ∧ toStr s = .ok [] ∧ s.maxCap = m ∧ c ≤ s.cap) ∧
    (∀ (v : WStr) (i n c : Int), 0 ≤ i → 0 ≤ n → i < v.length → i + n ≤ v.length → 0 ≤ c → c ≤ limit → n ≤ limit →
      ∃ s, createFrom (some v) i n c = .done s ∧ toStr s = .ok ((v.drop i.toNat).take n.toNat)) := by
  constructor
  · intro c m h1 h2 h3 h4
    have h4' := h4
    simp only [limit] at h4'
    have hex : ∃ s, create c m = .done s := by
      unfold create
      rw [if_neg (by omega), if_neg (by omega), if_neg (by omega)]
      simp only []
      generalize hd : (if c = 0 then (if (128 : Int) < m then 128 else m) else c) = d
      have hd' : 0 ≤ d ∧ d ≤ m := by subst hd; split <;> (try split) <;> omega
      rcases setCapacity_spec (c := d) (inv_initial (m := m) (by omega) (by omega)) (Or.inl (by omega)) with ⟨he, hr⟩ | ⟨t, he, _⟩
      · exfalso
        have q : ({ initial with maxCap := m } : SB).internal = true := rfl
        rcases hr with hr | hr | ⟨hr, _⟩
        · omega
        · have : d > m := hr
          omega
        · rw [q] at hr; cases hr
      · exact ⟨t, he⟩
    obtain ⟨s, hs⟩ := hex
    have hg := create_good (by omega) hs
    exact ⟨s, hs, by rw [toStr_ok hg.1, hg.2.1], hg.2.2.2.1, hg.2.2.2.2.2.2.2.2⟩
  · intro v i n c h1 h2 h3 h4 h5 h6 h7
    have hex : ∃ s, createFrom (some v) i n c = .done s := by
      unfold createFrom
      simp only [Option.getD_some]
      rw [if_neg (by omega), if_neg (by omega), if_neg (by omega), if_neg (by omega)]
      generalize hd : max (if c = 0 then (128 : Int) else c) n = d
      have hd' : 0 ≤ d ∧ d ≤ limit ∧ n ≤ d := by
        simp only [limit] at *
        subst hd; split <;> omega
      rcases setCapacity_spec (c := d) inv_initial' (Or.inl hd'.2.1) with ⟨he, hr⟩ | ⟨t, he, hs, _, _, hc, _⟩
      · exfalso
        have q : initial.internal = true := rfl
        rcases hr with hr | hr | ⟨hr, _⟩
        · omega
        · have : d > (2147483647 : Int) := hr
          simp only [limit] at hd'; omega
        · rw [q] at hr; cases hr
      · rw [he, andThen_done, if_neg (by omega)]
        have hcl := hs.inv.cap_le
        obtain ⟨b, hb, _⟩ := poke_some (buf := t.buf) (i := 0) (xs := (v.drop i.toNat).take n.toNat) (by omega)
          (by simp only [List.length_take, List.length_drop]; omega)
        rw [hb]; exact ⟨_, rfl⟩
    obtain ⟨s, hs⟩ := hex
    have hg := createFrom_good hs
    exact ⟨s, hs, by rw [toStr_ok hg.1, hg.2.1]; rfl⟩

/-- **C26** is false of the code: `new StringBuilder("")` throws, because it takes the address of character 0. -/
theorem C26_empty_string_refuted : createFrom (some []) 0 0 128 = .threw .indexOutOfRange initial := by decide +kernel

/-- **C26** is false of the code: inserting an empty string throws although the index is valid. -/
theorem C26_insert_empty_refuted (i : Int) (s : SB) : insertStr s i (some []) 1 = .threw .indexOutOfRange s := by
  simp [insertStr, insertLoop]

/-- **C26** is false of the code: lengthening with `set_Length` brings back removed characters ("abc", Remove(0,3), then
Length = 2 shows a NUL followed by the old 'b'). -/
theorem C26_set_length_refuted : ∃ s1 s2, step true exAbc (.remove 0 3) = .done s1 ∧ step true s1 (.setLength 2) = .done s2 ∧
    toStr s2 = .ok [0, 98] :=
  ⟨after (step true exAbc (.remove 0 3)), after (step true (after (step true exAbc (.remove 0 3))) (.setLength 2)),
   by decide +kernel, by decide +kernel, by decide +kernel⟩

/-- **C26** is false of the code: a repeated `Insert` that runs into MaxCapacity throws with part of the work done. -/
theorem C26_insert_half_refuted : ∃ s s', create 5 5 = .done s ∧ step true s (.insertStr 0 (some (w "ab")) 3) = .threw .argumentOutOfRange s' ∧
    toStr s' = .ok (w "abab") :=
  ⟨after (create 5 5), after (step true (after (create 5 5)) (.insertStr 0 (some (w "ab")) 3)), by decide +kernel,
   by decide +kernel, by decide +kernel⟩

/-! ## C27: capacity -/

/-- **C27** (partial). Length <= Capacity in every history in which the program itself never sets Capacity below Length and
appends single characters only where they fit. -/
theorem C27_length_le_capacity_partial {ov : Bool} {s : SB} (h : TidyReach ov s) : Inv s ∧ s.len ≤ s.cap ∧ s.buf[s.len]? = some 0 := by
  induction h with
  | new hm h =>
    have hg := create_good hm h
    exact ⟨hg.1, by rw [hg.2.2.1]; exact Nat.zero_le _, hg.2.2.2.2.1⟩
  | «from» h =>
    have hg := createFrom_good h
    exact ⟨hg.1, hg.2.2.2.2.2.2.2.2.2.2.1, hg.2.2.2.2.1⟩
  | call _ hm hc hn ho ih =>
    obtain ⟨t, hg⟩ := step_good ih.1 hm
    have := out_det ho hg.out
    rw [← this]
    exact ⟨hg.inv, hg.cap hc ih.2.1, hg.term hn ih.2.1 ih.2.2⟩

example : TidyReach true exAbc ∧ CapSafe exAbc (.appendChar 120 5) ∧ MemSafe true exAbc (.appendChar 120 5) :=
  ⟨.from (v := some (w "abc")) (i := 0) (n := 3) (c := 128) (by decide +kernel), by simp only [CapSafe]; decide +kernel,
   Or.inr (Or.inr ⟨by decide +kernel, by decide +kernel⟩)⟩

/-- **C27**: `EnsureCapacity(n)` yields a capacity of at least `n`, never shrinks it, and keeps the text. -/
theorem C27_ensure_capacity {ov : Bool} {s s' : SB} {n : Int} (h : Reach ov s) (ho : step ov s (.ensureCapacity n) = .done s') :
    n ≤ s'.cap ∧ s.cap ≤ s'.cap ∧ toStr s' = toStr s := by
  have hi := reach_inv h
  have ho' : ensureCapacity s n = .done s' := ho
  by_cases hl : n ≤ limit ∨ n > s.maxCap
  · rcases ensureCapacity_spec hi hl with ⟨he, _⟩ | ⟨t, he, hs, _, h1, h2, _⟩
    · rw [he] at ho'; cases ho'
    · rw [he] at ho'; injection ho' with ho'; subst ho'
      exact ⟨h1, h2, by rw [toStr_ok hs.inv, toStr_ok hi, hs.text]⟩
  · unfold ensureCapacity at ho'
    by_cases h0 : n < 0
    · rw [if_pos h0] at ho'; cases ho'
    rw [if_neg h0] at ho'
    by_cases h1 : (s.cap : Int) < n
    · rw [if_pos h1] at ho'
      have := setCapacity_lim ho'
      omega
    · rw [if_neg h1] at ho'
      injection ho' with ho'; subst ho'
      exact ⟨by omega, Nat.le_refl _, rfl⟩

example : ∃ s', step true exAbc (.ensureCapacity 200) = .done s' ∧ s'.cap = 256 ∧ toStr s' = .ok (w "abc") :=
  ⟨after (step true exAbc (.ensureCapacity 200)), by decide +kernel, by decide +kernel, by decide +kernel⟩

/-- **C27**: `set_Capacity` keeps the text. -/
theorem C27_set_capacity_keeps_text {ov : Bool} {s s' : SB} {n : Int} (h : Reach ov s) (hn : n ≤ limit)
    (ho : step ov s (.setCapacity n) = .done s') : n ≤ s'.cap ∧ toStr s' = toStr s := by
  have hi := reach_inv h
  have ho' : setCapacity s n = .done s' := ho
  rcases setCapacity_spec hi (Or.inl hn) with ⟨he, _⟩ | ⟨t, he, hs, _, _, h1, _⟩
  · rw [he] at ho'; cases ho'
  · rw [he] at ho'; injection ho' with ho'; subst ho'
    exact ⟨h1, by rw [toStr_ok hs.inv, toStr_ok hi, hs.text]⟩

/-- Every outcome of a call satisfies `P`. -/
def OutAll (P : SB → Prop) : Out → Prop
  | .done s => P s
  | .threw _ s => P s
  | .ub => True

theorem OutAll.andThen {P : SB → Prop} {o : Out} {f : SB → Out} (ho : OutAll P o) (hf : ∀ s, P s → OutAll P (f s)) :
    OutAll P (o.andThen f) := by
  cases o with
  | done s => exact hf s ho
  | threw e s => exact ho
  | ub => trivial

theorem OutAll.withBuf {P : SB → Prop} {b : Option (List Nat)} {k : List Nat → Out} (hf : ∀ b, OutAll P (k b)) :
    OutAll P (SBModel.withBuf b k) := by
  cases b with
  | none => trivial
  | some b => exact hf b

theorem OutAll.ite {P : SB → Prop} {c : Prop} [Decidable c] {a b : Out} (ha : c → OutAll P a) (hb : ¬ c → OutAll P b) :
    OutAll P (if c then a else b) := by
  by_cases h : c
  · rw [if_pos h]; exact ha h
  · rw [if_neg h]; exact hb h

/-- MaxCapacity is `m` and Capacity at most `m` rounded up to a multiple of 128. -/
def CapBound (m : Int) (s : SB) : Prop := s.maxCap = m ∧ 1 ≤ m ∧ (s.cap : Int) ≤ max (roundUp m) 0

theorem roundUp_mono {a b : Int} (h : a ≤ b) : roundUp a ≤ roundUp b := by
  unfold roundUp; split <;> split <;> omega

theorem le_roundUp (a : Int) : a ≤ roundUp a := by unfold roundUp; split <;> omega

theorem setCapacity_bound {m c : Int} {s : SB} (h : CapBound m s) : OutAll (CapBound m) (setCapacity s c) := by
  obtain ⟨h1, h2, h3⟩ := h
  have hr := le_roundUp m
  unfold setCapacity
  refine OutAll.ite (fun _ => ⟨h1, h2, h3⟩) fun q1 => OutAll.ite (fun _ => ⟨h1, h2, h3⟩) fun q2 =>
    OutAll.ite (fun _ => ⟨h1, h2, h3⟩) fun q3 => OutAll.ite (fun _ => ⟨h1, h2, ?_⟩) fun q4 =>
    OutAll.ite (fun q5 => OutAll.ite (fun _ => trivial) fun q6 => ?_) fun q5 => OutAll.ite (fun _ => ⟨h1, h2, ?_⟩) fun _ => trivial
  · show (c.toNat : Int) ≤ _; omega
  · have := roundUp_mono (a := c) (b := m) (by omega)
    split
    · trivial
    · refine OutAll.withBuf fun b => ⟨h1, h2, ?_⟩
      show ((roundUp c).toNat : Int) ≤ _; omega
  · show (c.toNat : Int) ≤ _; omega

theorem ensureCapacity_bound {m c : Int} {s : SB} (h : CapBound m s) : OutAll (CapBound m) (ensureCapacity s c) := by
  unfold ensureCapacity
  exact OutAll.ite (fun _ => h) fun _ => OutAll.ite (fun _ => setCapacity_bound h) fun _ => h

theorem appendRaw_bound {m : Int} {s : SB} {v : WStr} {n x : Int} (h : CapBound m s) : OutAll (CapBound m) (appendRaw s v n x) := by
  unfold appendRaw
  simp only []
  refine OutAll.ite (fun _ => h) fun _ => OutAll.andThen ?_ fun t ht => OutAll.ite (fun _ => trivial) fun _ =>
    OutAll.withBuf fun _ => OutAll.withBuf fun _ => OutAll.withBuf fun _ => ht
  unfold ensureRoomFor
  exact OutAll.ite (fun _ => trivial) fun _ => ensureCapacity_bound h

theorem appendChar_bound {m : Int} {s : SB} {c : Nat} {n : Int} (h : CapBound m s) : OutAll (CapBound m) (appendChar s c n) := by
  unfold appendChar
  exact OutAll.ite (fun _ => h) fun _ => OutAll.andThen (ensureCapacity_bound h) fun t ht => OutAll.ite (fun _ => trivial) fun _ =>
    OutAll.withBuf fun _ => OutAll.withBuf fun _ => ht

theorem appendStr_bound {m : Int} {s : SB} {v : Option WStr} {i n : Int} (h : CapBound m s) : OutAll (CapBound m) (appendStr s v i n) := by
  unfold appendStr
  cases v with
  | none => exact OutAll.ite (fun _ => h) fun _ => trivial
  | some v => exact OutAll.ite (fun _ => h) fun _ => OutAll.ite (fun _ => h) fun _ => appendRaw_bound h

theorem insertArray_bound {m : Int} {s : SB} {k : Int} {a : Option ArrArg} {i n : Int} (h : CapBound m s) :
    OutAll (CapBound m) (insertArray s k a i n) := by
  unfold insertArray
  cases a with
  | none => exact h
  | some a =>
    exact OutAll.ite (fun _ => h) fun _ => OutAll.ite (fun _ => h) fun _ => OutAll.ite (fun _ => h) fun _ =>
      OutAll.ite (fun _ => h) fun _ => OutAll.ite (fun _ => h) fun _ => appendRaw_bound h

theorem insertLoop_bound {m : Int} {i : Int} {v : WStr} : ∀ (k : Nat) {s : SB}, CapBound m s → OutAll (CapBound m) (insertLoop i v k s)
  | 0, _, h => h
  | k + 1, _, h => by
    unfold insertLoop
    exact OutAll.ite (fun _ => h) fun _ => OutAll.andThen (appendRaw_bound h) fun t ht => insertLoop_bound k ht

theorem replaceLoop_bound {m : Int} {p r : WStr} : ∀ (k : Nat) {i e : Int} {s : SB}, CapBound m s → OutAll (CapBound m) (replaceLoop p r k i e s)
  | 0, i, e, s, h => by unfold replaceLoop; exact OutAll.ite (fun _ => trivial) fun _ => h
  | k + 1, i, e, s, h => by
    unfold replaceLoop
    refine OutAll.ite (fun _ => ?_) fun _ => h
    split
    · trivial
    · refine OutAll.ite (fun _ => ?_) fun _ => replaceLoop_bound k h
      exact OutAll.withBuf fun _ => OutAll.withBuf fun _ => OutAll.withBuf fun _ => replaceLoop_bound k h

theorem step_bound {ov : Bool} {m : Int} {s : SB} {op : Op} (h : CapBound m s) : OutAll (CapBound m) (step ov s op) := by
  have hline : ∀ {s : SB}, CapBound m s → OutAll (CapBound m) (appendLine s) := fun h =>
    OutAll.andThen (appendChar_bound h) fun t ht => appendChar_bound ht
  have hlen : ∀ (n : Int), OutAll (CapBound m) (setLength s n) := by
    intro n
    unfold setLength
    exact OutAll.ite (fun _ => h) fun _ => OutAll.ite (fun _ => h) fun _ => OutAll.ite (fun _ => OutAll.withBuf fun _ => h) fun _ =>
      OutAll.andThen (ensureCapacity_bound h) fun t ht => OutAll.ite (fun _ => OutAll.withBuf fun _ => ht) fun _ => ht
  cases op with
  | appendStr v i n => exact appendStr_bound h
  | appendChar c n => exact appendChar_bound h
  | appendText t => exact appendRaw_bound h
  | appendArray a i n => exact insertArray_bound h
  | appendLine => exact hline h
  | appendLineStr v => exact OutAll.andThen (appendStr_bound h) fun t ht => hline ht
  | insertText i t => exact appendRaw_bound h
  | insertStr i v n =>
    show OutAll _ (insertStr s i v n)
    unfold insertStr
    cases v with
    | none => exact OutAll.ite (fun _ => h) fun _ => trivial
    | some v => exact insertLoop_bound _ h
  | insertArray k a i n => exact insertArray_bound h
  | remove i n =>
    show OutAll _ (remove ov s i n)
    unfold remove
    exact OutAll.ite (fun _ => h) fun _ => OutAll.ite (fun _ => h) fun _ => OutAll.ite (fun _ => h) fun _ =>
      OutAll.ite (fun _ => trivial) fun _ => OutAll.withBuf fun _ => OutAll.withBuf fun _ => h
  | replaceChar o c i n =>
    show OutAll _ (replaceChar s o c i n)
    unfold replaceChar
    refine OutAll.ite (fun _ => h) fun _ => OutAll.ite (fun _ => h) fun _ => ?_
    split
    · trivial
    · exact OutAll.withBuf fun _ => h
  | replaceStr p r i n =>
    show OutAll _ (replaceStr s p r i n)
    unfold replaceStr
    refine OutAll.ite (fun _ => h) fun _ => OutAll.ite (fun _ => h) fun _ => ?_
    cases p with
    | none => exact h
    | some p =>
      refine OutAll.ite (fun _ => h) fun _ => ?_
      simp only []
      split
      · trivial
      · exact h
      · refine OutAll.ite (fun _ => h) fun _ => OutAll.andThen ?_ fun t ht => replaceLoop_bound _ ht
        refine OutAll.ite (fun _ => OutAll.ite (fun _ => trivial) fun _ => ?_) fun _ => h
        unfold ensureRoomFor
        exact OutAll.ite (fun _ => trivial) fun _ => ensureCapacity_bound h
  | setChars i c =>
    show OutAll _ (setChars s i c)
    unfold setChars
    exact OutAll.ite (fun _ => h) fun _ => OutAll.withBuf fun _ => h
  | clear => exact hlen 0
  | setLength n => exact hlen n
  | setCapacity n => exact setCapacity_bound h
  | ensureCapacity n => exact ensureCapacity_bound h

theorem anyReach_bound {ov : Bool} {s : SB} (h : AnyReach ov s) : ∃ m, m ≤ 2147483647 ∧ CapBound m s := by
  induction h with
  | @new c m s hm h =>
    have hg := create_good hm h
    refine ⟨m, hm, hg.2.2.2.1, by omega, ?_⟩
    have hcr := h
    unfold create at h
    rw [if_neg (by omega), if_neg (by omega), if_neg (by omega)] at h
    simp only [] at h
    generalize hd : (if c = 0 then (if (128 : Int) < m then 128 else m) else c) = d at h
    have hd' : 0 ≤ d ∧ d ≤ m := by subst hd; split <;> (try split) <;> omega
    have hr := le_roundUp m
    have hmono := roundUp_mono hd'.2
    unfold setCapacity at h
    have q : ({ initial with maxCap := m } : SB).internal = true := rfl
    rw [if_neg (by omega)] at h
    rw [if_neg (by show ¬ d > m; omega), if_neg (by rw [q]; simp)] at h
    by_cases h4 : (({ initial with maxCap := m } : SB).cap : Int) ≥ d
    · rw [if_pos h4] at h
      injection h with h; subst h
      show (d.toNat : Int) ≤ _; omega
    · rw [if_neg h4] at h
      have h4' : ¬ (128 : Int) ≥ d := h4
      rw [if_pos (by omega)] at h
      split at h
      · cases h
      · have hp : peek ({ initial with maxCap := m } : SB).buf 0 ({ initial with maxCap := m } : SB).len = some [] := by simp [peek, initial]
        rw [hp] at h
        simp only [poke] at h
        rw [if_pos (by simp; omega)] at h
        simp only [withBuf] at h
        injection h with h
        subst h
        show ((roundUp d).toNat : Int) ≤ _; omega
  | @«from» v i n c s h =>
    refine ⟨2147483647, by omega, ?_⟩
    unfold createFrom at h
    simp only [] at h
    have hb : CapBound 2147483647 initial := ⟨rfl, by omega, by show (128 : Int) ≤ _; unfold roundUp; omega⟩
    have : OutAll (CapBound 2147483647) (createFrom v i n c) := by
      unfold createFrom
      exact OutAll.ite (fun _ => hb) fun _ => OutAll.ite (fun _ => hb) fun _ => OutAll.ite (fun _ => hb) fun _ =>
        OutAll.ite (fun _ => hb) fun _ => OutAll.andThen (setCapacity_bound hb) fun t ht => OutAll.ite (fun _ => ht) fun _ =>
        OutAll.withBuf fun _ => ht
    unfold createFrom at this
    simp only [] at this
    rw [h] at this
    exact this
  | @call s0 s1 op _ ho ih =>
    obtain ⟨m, hm, hb⟩ := ih
    refine ⟨m, hm, ?_⟩
    have hs := step_bound (ov := ov) (op := op) hb
    rcases ho with ho | ⟨e, ho⟩ <;> rw [ho] at hs <;> exact hs

/-- **C27** (partial): in every history whatsoever Capacity stays below MaxCapacity + 128. -/
theorem C27_capacity_bound_partial {ov : Bool} {s : SB} (h : AnyReach ov s) : (s.cap : Int) < s.maxCap + 128 := by
  obtain ⟨m, _, h1, h2, h3⟩ := anyReach_bound h
  rw [h1]
  have : roundUp m < m + 128 := by unfold roundUp; split <;> omega
  omega

/-- **C27** (partial): when MaxCapacity is a multiple of 128, Capacity never exceeds it, in every history. -/
theorem C27_capacity_le_max_partial {ov : Bool} {s : SB} (h : AnyReach ov s) (hm : s.maxCap % 128 = 0) : (s.cap : Int) ≤ s.maxCap := by
  obtain ⟨m, _, h1, h2, h3⟩ := anyReach_bound h
  rw [h1] at hm ⊢
  have : roundUp m = m := by unfold roundUp; rw [if_neg (by omega)]; omega
  omega

example : ∃ s, create 200 256 = .done s ∧ AnyReach true s ∧ s.maxCap % 128 = 0 :=
  ⟨after (create 200 256), by decide +kernel, .new (c := 200) (m := 256) (by omega) (by decide +kernel), by decide +kernel⟩

/-- **C27** is false of the code: Capacity can exceed MaxCapacity (rounding up, StringBuilder.cpp lines 132-135), and then
so can Length without any exception. -/
theorem C27_max_capacity_refuted : ∃ s s', create 150 150 = .done s ∧ s.cap = 256 ∧
    step true s (.appendText (List.replicate 200 97)) = .done s' ∧ s'.len = 200 ∧ s'.maxCap = 150 :=
  ⟨after (create 150 150), after (step true (after (create 150 150)) (.appendText (List.replicate 200 97))),
   by decide +kernel, by decide +kernel, by decide +kernel, by decide +kernel, by decide +kernel⟩

/-- **C27** is false of the code: `set_Capacity` below the length is accepted and leaves Length > Capacity. -/
theorem C27_set_capacity_refuted : ∃ s', step true exAbc (.setCapacity 1) = .done s' ∧ s'.len = 3 ∧ s'.cap = 1 :=
  ⟨after (step true exAbc (.setCapacity 1)), by decide +kernel, by decide +kernel, by decide +kernel⟩

/-- **C27** is false of the code: a builder of capacity 2 takes five single characters without growing its capacity. -/
theorem C27_append_char_refuted : ∃ s s', create 2 100 = .done s ∧ appendChars 120 5 s = .done s' ∧ s'.len = 5 ∧ s'.cap = 2 :=
  ⟨after (create 2 100), after (appendChars 120 5 (after (create 2 100))), by decide +kernel, by decide +kernel,
   by decide +kernel, by decide +kernel⟩

/-! ## C28: Replace -/

/-- **C28**: whenever `Replace(old, new, start, count)` returns, the range was valid and the text is the old text with every
leftmost non-overlapping occurrence of `old` inside the range replaced; outside the range nothing changed. The side
conditions only exclude patterns of 2^29 characters or more and results above 2147483520 characters (Int32 overflow). -/
theorem C28_replace {ov : Bool} {s s' : SB} {p : WStr} {r : Option WStr} {i n : Int} {xs : WStr} (h : Reach ov s)
    (hx : toStr s = .ok xs) (hp : p.length < 536870912)
    (hfit : ∀ ys, Replaced p (r.getD []) ((xs.drop i.toNat).take n.toNat) ys → (xs.length : Int) - n + ys.length ≤ limit)
    (ho : step ov s (.replaceStr (some p) r i n) = .done s') :
    0 ≤ i ∧ 0 ≤ n ∧ i + n ≤ xs.length ∧ p ≠ [] ∧ ∃ ys, Replaced p (r.getD []) ((xs.drop i.toNat).take n.toNat) ys ∧
      toStr s' = .ok (xs.take i.toNat ++ ys ++ xs.drop (i.toNat + n.toNat)) := by
  have hi := reach_inv h
  rw [toStr_ok hi] at hx; injection hx with hx; subst hx
  rw [content_length hi] at hfit ⊢
  obtain ⟨t, hg⟩ := good_replaceStr hi (Or.inl hp) hfit
  have ho' : replaceStr s (some p) r i n = .done s' := ho
  rcases hg.text trivial with ⟨h1, h2, h3⟩ | ⟨⟨e, h1⟩, _⟩
  · rw [ho'] at h1; injection h1 with h1; subst h1
    obtain ⟨q1, q2, q3, q4, q5⟩ := h2
    obtain ⟨zs, hz, hz'⟩ := h3
    rw [content_length hi] at q3
    refine ⟨q1, q2, q3, fun hh => q5 (by rw [hh]), zs, hz, ?_⟩
    rw [toStr_ok hg.inv, hz']
  · rw [ho'] at h1; cases h1

example : ∃ s', step true exAbc (.replaceStr (some (w "b")) (some (w "xyz")) 0 3) = .done s' ∧ toStr s' = .ok (w "axyzc") :=
  ⟨after (step true exAbc (.replaceStr (some (w "b")) (some (w "xyz")) 0 3)), by decide +kernel, by decide +kernel⟩

example : Replaced (w "aa") (w "b") (w "aaa") (w "ba") :=
  .hit (t := w "a") (t' := w "a") (.miss (by decide +kernel) .nil)

/-- **C28**: with a valid range, a non-empty pattern and a result within MaxCapacity the call does return; otherwise it
throws and the text is unchanged. -/
theorem C28_replace_total {ov : Bool} {s : SB} {p : WStr} {r : Option WStr} {i n : Int} {xs : WStr} (h : Reach ov s)
    (hx : toStr s = .ok xs) (hp : p.length < 536870912)
    (hfit : ∀ ys, Replaced p (r.getD []) ((xs.drop i.toNat).take n.toNat) ys → (xs.length : Int) - n + ys.length ≤ limit) :
    (0 ≤ i → 0 ≤ n → i + n ≤ xs.length → p ≠ [] →
      (∀ ys, Replaced p (r.getD []) ((xs.drop i.toNat).take n.toNat) ys → (xs.length : Int) - n + ys.length ≤ s.maxCap) →
      ∃ s', step ov s (.replaceStr (some p) r i n) = .done s') ∧
    (¬ (0 ≤ i ∧ 0 ≤ n ∧ i + n ≤ xs.length ∧ p ≠ []) →
      ∃ e s', step ov s (.replaceStr (some p) r i n) = .threw e s' ∧ toStr s' = .ok xs) := by
  have hi := reach_inv h
  rw [toStr_ok hi] at hx; injection hx with hx; subst hx
  rw [content_length hi] at hfit ⊢
  have hct := content_length hi
  obtain ⟨t, hg⟩ := good_replaceStr hi (Or.inl hp) hfit
  rcases hg.text trivial with ⟨h1, h2, h3⟩ | ⟨⟨e, h1⟩, h2, h3⟩
  · refine ⟨fun _ _ _ _ _ => ⟨t, h1⟩, fun hn => ?_⟩
    exfalso; apply hn
    obtain ⟨q1, q2, q3, q4, q5⟩ := h2
    exact ⟨q1, q2, by rw [content_length hi] at q3; exact q3, fun hh => q5 (by rw [hh])⟩
  · refine ⟨fun a1 a2 a3 a4 a5 => ?_, fun _ => ⟨e, t, h1, by rw [toStr_ok hg.inv, h2]⟩⟩
    exfalso
    rcases h3 with h3 | h3
    · exact h3 ⟨a1, a2, by omega, by simp, by simpa using a4⟩
    · apply h3
      simp only [Room, Expected]
      rintro ys ⟨zs, hz, rfl⟩
      have := a5 zs hz
      simp only [List.length_append, List.length_take, List.length_drop]
      omega

/-- **C28**: the result is determined: at most one text is the replacement of `xs`, so `Replaced` pins down the call. -/
theorem C28_replace_unique {p r xs ys zs : WStr} (hp : p ≠ []) (h1 : Replaced p r xs ys) (h2 : Replaced p r xs zs) : ys = zs :=
  Replaced.det hp h2 h1

/-- **C28**: and there always is one. -/
theorem C28_replace_exists {p r : WStr} (hp : p ≠ []) (xs : WStr) : ∃ ys, Replaced p r xs ys := by
  have hp' : p.length ≠ 0 := fun hh => hp (List.length_eq_zero_iff.mp hh)
  obtain ⟨ys, k, hr, _⟩ := countLoop_spec (buf := xs) (pat := p) (rep := r) hp' (xs.length + 1) [] xs [] xs.length 0
    (by simp) (by omega) (by omega)
  exact ⟨ys, hr.toReplaced⟩

/-- **C28**: a text without the pattern is unchanged. -/
theorem C28_replace_absent {p r xs ys : WStr} (h : Replaced p r xs ys) (hn : ¬ p <:+: xs) : ys = xs := by
  induction h with
  | nil => rfl
  | hit _ _ => exact absurd (List.infix_append' [] p _ |> fun hh => by simpa using hh) hn
  | @miss x t t' _ _ ih =>
    rw [ih (fun hh => hn (hh.trans (List.suffix_cons x t).isInfix))]

/-! ## C63: Equals -/

theorem wcsEq_spec : ∀ (a b : List Nat), (∃ k : Nat, a[k]? = some 0) → (∃ k : Nat, b[k]? = some 0) →
    ∃ r, wcsEq a b = some r ∧ (r = true ↔ a.takeWhile (· ≠ 0) = b.takeWhile (· ≠ 0))
  | [], _, ⟨k, hk⟩, _ => by simp at hk
  | _ :: _, [], _, ⟨k, hk⟩ => by simp at hk
  | x :: a, y :: b, ⟨k, hk⟩, ⟨l, hl⟩ => by
    unfold wcsEq
    by_cases hxy : x = y
    · rw [if_pos hxy]
      subst hxy
      by_cases h0 : x = 0
      · rw [if_pos h0]; exact ⟨true, rfl, by simp [h0, List.takeWhile_cons]⟩
      · rw [if_neg h0]
        have hk' : ∃ k : Nat, a[k]? = some 0 := by
          cases k with
          | zero => simp at hk; exact absurd hk h0
          | succ k => exact ⟨k, by simpa using hk⟩
        have hl' : ∃ k : Nat, b[k]? = some 0 := by
          cases l with
          | zero => simp at hl; exact absurd hl h0
          | succ k => exact ⟨k, by simpa using hl⟩
        obtain ⟨r, h1, h2⟩ := wcsEq_spec a b hk' hl'
        refine ⟨r, h1, ?_⟩
        rw [h2]; simp [List.takeWhile_cons, h0]
    · rw [if_neg hxy]
      refine ⟨false, rfl, ?_⟩
      simp only [Bool.false_eq_true, false_iff]
      intro hh
      simp only [List.takeWhile_cons] at hh
      by_cases hx0 : x = 0 <;> by_cases hy0 : y = 0
      · omega
      · simp [hx0, hy0] at hh
      · simp [hx0, hy0] at hh
      · simp [hx0, hy0] at hh; exact hxy hh.1

theorem takeWhile_content {s : SB} (h : s.buf[s.len]? = some 0) (hz : 0 ∉ content s) : s.buf.takeWhile (· ≠ 0) = content s := by
  have hlt : s.len < s.buf.length := by
    rcases Nat.lt_or_ge s.len s.buf.length with hh | hh
    · exact hh
    · rw [List.getElem?_eq_none hh] at h; cases h
  have hget : s.buf[s.len] = 0 := by
    rw [List.getElem?_eq_getElem hlt] at h; injection h
  have hsplit : s.buf = content s ++ (0 :: s.buf.drop (s.len + 1)) := by
    unfold content
    conv => lhs; rw [← List.take_append_drop s.len s.buf]
    rw [List.drop_eq_getElem_cons hlt, hget]
  rw [hsplit, List.takeWhile_append_of_pos]
  · simp [List.takeWhile_cons]
  · intro x hx
    simp only [ne_eq, decide_not, Bool.not_eq_eq_eq_not, Bool.not_true, decide_eq_false_iff_not]
    intro h0; exact hz (h0 ▸ hx)

/-- **C63** (partial). For two builders of tidy histories whose texts contain no NUL, `Equals` is true exactly when
Capacity, MaxCapacity and text agree. Missing: texts with embedded NULs (compared only up to the first) and histories that
lengthen with `set_Length`. -/
theorem C63_equals_partial {ov : Bool} {s t : SB} {xs ys : WStr} (hs : TidyReach ov s) (ht : TidyReach ov t) (hx : toStr s = .ok xs)
    (hy : toStr t = .ok ys) (hx0 : 0 ∉ xs) (hy0 : 0 ∉ ys) :
    ∃ b, equals s (some t) = .ok b ∧ (b = true ↔ s.cap = t.cap ∧ s.maxCap = t.maxCap ∧ xs = ys) := by
  obtain ⟨is, _, ts⟩ := C27_length_le_capacity_partial hs
  obtain ⟨it, _, tt⟩ := C27_length_le_capacity_partial ht
  rw [toStr_ok is] at hx; injection hx with hx; subst hx
  rw [toStr_ok it] at hy; injection hy with hy; subst hy
  unfold equals
  simp only []
  by_cases hc : t.cap ≠ s.cap ∨ t.maxCap ≠ s.maxCap
  · rw [if_pos hc]
    refine ⟨false, rfl, ?_⟩
    simp only [Bool.false_eq_true, false_iff]
    rintro ⟨h1, h2, _⟩
    rcases hc with hc | hc
    · exact hc h1.symm
    · exact hc h2.symm
  · rw [if_neg hc]
    obtain ⟨r, h1, h2⟩ := wcsEq_spec t.buf s.buf ⟨_, tt⟩ ⟨_, ts⟩
    rw [h1]
    refine ⟨r, rfl, ?_⟩
    rw [h2, takeWhile_content tt hy0, takeWhile_content ts hx0]
    constructor
    · intro hh; exact ⟨by omega, by omega, hh.symm⟩
    · rintro ⟨_, _, hh⟩; exact hh.symm

/-- **C63**: null is not equal to a builder. -/
theorem C63_equals_null (s : SB) : equals s none = .ok false := by unfold equals; rfl

/-- **C63** is false of the code: two builders with different texts (differing after an embedded NUL) are "equal". -/
theorem C63_equals_nul_refuted : ∃ s t, createFrom (some [97, 0, 98]) 0 3 128 = .done s ∧ createFrom (some [97, 0, 99]) 0 3 128 = .done t ∧
    equals s (some t) = .ok true ∧ toStr s ≠ toStr t :=
  ⟨after (createFrom (some [97, 0, 98]) 0 3 128), after (createFrom (some [97, 0, 99]) 0 3 128), by decide +kernel,
   by decide +kernel, by decide +kernel, by decide +kernel⟩

/-! ## C64: reading parts -/

/-- **C64**: the indexer returns exactly the character at the index, and throws IndexOutOfRange exactly outside the text. -/
theorem C64_get_chars {ov : Bool} {s : SB} {xs : WStr} (h : Reach ov s) (hx : toStr s = .ok xs) (i : Int) :
    (0 ≤ i ∧ i < xs.length → ∃ c, getChars s i = .ok c ∧ xs[i.toNat]? = some c) ∧
    (¬ (0 ≤ i ∧ i < xs.length) → getChars s i = .throw .indexOutOfRange) := by
  have hi := reach_inv h
  have hll := hi.len_le
  rw [toStr_ok hi] at hx; injection hx with hx; subst hx
  rw [content_length hi]
  unfold getChars
  constructor
  · intro hr
    rw [if_neg (by omega), peek_some (by omega) (by omega) (by omega)]
    have hlt : i.toNat < s.buf.length := by omega
    have e : (s.buf.drop i.toNat).take (1 : Int).toNat = [s.buf[i.toNat]] := by
      show (s.buf.drop i.toNat).take 1 = _
      rw [List.drop_eq_getElem_cons hlt, List.take_succ_cons, List.take_zero]
    rw [e]
    exact ⟨_, rfl, by rw [content_get, if_pos (by omega), List.getElem?_eq_getElem hlt]⟩
  · intro hr; rw [if_pos (by omega)]

/-- **C64**: `ToString(start, length)` is the requested slice for a range with start inside the text. -/
theorem C64_to_string_range {ov : Bool} {s : SB} {xs : WStr} (h : Reach ov s) (hx : toStr s = .ok xs) (i n : Int)
    (h0 : 0 ≤ i) (h1 : i < xs.length) (h2 : 0 ≤ n) (hI : I32 (i + n)) :
    (i + n ≤ xs.length → toStrRange s i n = .ok ((xs.drop i.toNat).take n.toNat)) ∧
    (i + n > xs.length → toStrRange s i n = .throw .indexOutOfRange) := by
  have hi := reach_inv h
  have hll := hi.len_le
  rw [toStr_ok hi] at hx; injection hx with hx; subst hx
  rw [content_length hi] at h1 ⊢
  unfold toStrRange
  rw [if_neg (by omega), if_neg (by exact fun hh => hh hI)]
  constructor
  · intro hr
    rw [if_neg (by omega)]
    have hnul : (s.buf.drop i.toNat)[s.buf.length - 1 - i.toNat]? = some 0 := by
      rw [List.getElem?_drop, ← hi.nul]; congr 1; omega
    obtain ⟨m, hm, _⟩ := wcslen_some _ _ hnul
    unfold newString
    rw [hm]
    simp only []
    rw [if_neg (by omega), if_neg (by omega), peek_some (by omega) (by omega) (by rw [List.length_drop]; omega)]
    simp only []
    congr 1
    apply List.ext_getElem?
    intro j
    rw [List.getElem?_take, List.getElem?_take]
    split
    · rw [List.getElem?_drop, List.getElem?_drop, List.getElem?_drop, content_get, if_pos (by omega)]; congr 1; omega
    · rfl
  · intro hr; rw [if_pos (by omega)]

example : toStr exAbc = .ok (w "abc") ∧ toStrRange exAbc 1 2 = .ok (w "bc") ∧ getChars exAbc 2 = .ok 99 := by decide +kernel

/-- **C64** is false of the code: the empty range at the end of the text, `ToString(Length, 0)`, throws. -/
theorem C64_empty_tail_refuted : toStrRange exAbc 3 0 = .throw .indexOutOfRange := by decide +kernel

end Verif.SBProps
