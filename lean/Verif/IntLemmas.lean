import Verif.IntSpec
set_option linter.unusedSimpArgs false
namespace Verif.IntVal

theorem skipSpace_eq (L : Locale) (s : WStr) (tail : List Nat) :
    skipSpace L (s ++ 0 :: tail) s.length
      = .ok (s.dropWhile L.isSpace ++ 0 :: tail, ((s.dropWhile L.isSpace).length : Int)) := by
  induction s with
  | nil => simp [skipSpace]
  | cons c s ih =>
    simp only [List.cons_append, skipSpace, List.length_cons]
    by_cases hc : c = 0
    · subst hc
      simp [List.dropWhile_cons, L.nul_not_space]
    · rw [if_pos (by refine ⟨hc, ?_⟩; push_cast; omega)]
      by_cases hs : L.isSpace c
      · rw [if_pos hs, List.dropWhile_cons, if_pos hs]
        have : ((s.length + 1 : Nat) : Int) - 1 = s.length := by push_cast; omega
        rw [this, ih]
      · rw [if_neg hs, List.dropWhile_cons, if_neg hs]
        simp

/-- Sign character of a text, if any. -/
def signOf (t : WStr) : Int := match t with | 45 :: _ => -1 | _ => 1
/-- The text after an optional sign. -/
def afterSign (t : WStr) : WStr := match t with | 45 :: r => r | 43 :: r => r | _ => t

theorem readSign_eq (t : WStr) (tail : List Nat) :
    readSign (t ++ 0 :: tail) t.length
      = .ok (afterSign t ++ 0 :: tail, ((afterSign t).length : Int), signOf t) := by
  cases t with
  | nil => simp [readSign, afterSign, signOf]
  | cons c t =>
    simp only [List.cons_append, readSign, List.length_cons]
    by_cases hc : c = 0
    · subst hc
      simp [afterSign, signOf]
    · rw [if_pos (by refine ⟨hc, ?_⟩; push_cast; omega)]
      by_cases h1 : c = 45
      · subst h1; simp [afterSign, signOf]
      · rw [if_neg h1]
        by_cases h2 : c = 43
        · subst h2; simp [afterSign, signOf]
        · rw [if_neg h2]
          have e1 : afterSign (c :: t) = c :: t := by
            unfold afterSign; split
            · rename_i h; simp at h; omega
            · rename_i h; simp at h; omega
            · rfl
          have e2 : signOf (c :: t) = 1 := by
            unfold signOf; split
            · rename_i h; simp at h; omega
            · rfl
          rw [e1, e2]; simp

theorem wrapU64_step (a : Nat) (c : Nat) (hc : 48 ≤ c) :
    wrapU64 (10 * wrapU64 (a : Int) + c - 48) = wrapU64 ((10 * a + (c - 48) : Nat) : Int) := by
  unfold wrapU64
  have : ((c - 48 : Nat) : Int) = c - 48 := by omega
  push_cast
  rw [this]
  omega

theorem readDigits_eq (t : WStr) (tail : List Nat) (a : Nat) (g : Bool) :
    readDigits (t ++ 0 :: tail) t.length (wrapU64 a) g
      = .ok (t.dropWhile isDigit ++ 0 :: tail, ((t.dropWhile isDigit).length : Int),
          wrapU64 (((t.takeWhile isDigit).foldl (fun acc c => 10 * acc + (c - 48)) a : Nat) : Int),
          g || !(t.takeWhile isDigit).isEmpty) := by
  induction t generalizing a g with
  | nil => simp [readDigits]
  | cons c t ih =>
    simp only [List.cons_append, readDigits, List.length_cons]
    by_cases hc : c = 0
    · subst hc
      have : isDigit 0 = false := by decide
      simp [List.dropWhile_cons, List.takeWhile_cons, this]
    · rw [if_pos (by refine ⟨hc, ?_⟩; push_cast; omega)]
      by_cases hd : isDigit c
      · rw [if_pos hd, List.dropWhile_cons, if_pos hd, List.takeWhile_cons, if_pos hd]
        have : ((t.length + 1 : Nat) : Int) - 1 = t.length := by push_cast; omega
        rw [this, wrapU64_step a c ((isDigit_iff c).mp hd).1, ih]
        simp
      · rw [if_neg hd, List.dropWhile_cons, if_neg hd, List.takeWhile_cons, if_neg hd]
        simp

theorem readDigits_eq0 (t : WStr) (tail : List Nat) (g : Bool) :
    readDigits (t ++ 0 :: tail) t.length 0 g
      = .ok (t.dropWhile isDigit ++ 0 :: tail, ((t.dropWhile isDigit).length : Int),
          wrapU64 (((t.takeWhile isDigit).foldl (fun acc c => 10 * acc + (c - 48)) 0 : Nat) : Int),
          g || !(t.takeWhile isDigit).isEmpty) := by
  have h := readDigits_eq t tail 0 g
  have h0 : wrapU64 ((0 : Nat) : Int) = 0 := by decide
  rw [h0] at h
  exact h

/-- The text after leading white space and sign. -/
def body (L : Locale) (s : WStr) : WStr := afterSign (s.dropWhile L.isSpace)
/-- Does the next character allow the number to end here? -/
def endOk (L : Locale) (r : WStr) : Bool := match r with | [] => true | c :: _ => L.isSpace c

/-- `TryParseInternal` in closed form, for any memory that holds the text and a NUL: no undefined behaviour. -/
theorem tryParseInternal_eq (L : Locale) (s : WStr) (tail : List Nat) :
    tryParseInternal L (s ++ 0 :: tail) s.length = .ok
      { good := !((body L s).takeWhile isDigit).isEmpty && endOk L ((body L s).dropWhile isDigit)
        value := wrapU64 (numeral ((body L s).takeWhile isDigit))
        sign := signOf (s.dropWhile L.isSpace) } := by
  unfold tryParseInternal
  rw [skipSpace_eq]
  simp only [Res.bind_ok]
  rw [readSign_eq]
  simp only [Res.bind_ok]
  rw [readDigits_eq0]
  simp only [Res.bind_ok]
  change _ = Res.ok _
  unfold body numeral
  generalize afterSign (s.dropWhile L.isSpace) = t
  cases hr : t.dropWhile isDigit with
  | nil => simp [endOk, L.nul_not_space]
  | cons c r =>
    simp only [List.cons_append, endOk, List.length_cons]
    by_cases hs : L.isSpace c = true
    · simp [hs]
    · have hs' : L.isSpace c = false := by simpa using hs
      rw [if_pos ⟨by push_cast; omega, hs'⟩]
      simp [hs']

theorem takeWhile_all_append {p : Nat → Bool} {a b : WStr} (h : ∀ c ∈ a, p c = true) :
    (a ++ b).takeWhile p = a ++ b.takeWhile p := by
  induction a with
  | nil => rfl
  | cons c a ih =>
    have hc := h c (by simp)
    rw [List.cons_append, List.takeWhile_cons, if_pos hc, ih (fun x hx => h x (by simp [hx]))]
    rfl

theorem dropWhile_all_append {p : Nat → Bool} {a b : WStr} (h : ∀ c ∈ a, p c = true) :
    (a ++ b).dropWhile p = b.dropWhile p := by
  induction a with
  | nil => rfl
  | cons c a ih =>
    have hc := h c (by simp)
    rw [List.cons_append, List.dropWhile_cons, if_pos hc, ih (fun x hx => h x (by simp [hx]))]

theorem dropWhile_head_neg {p : Nat → Bool} {c : Nat} {a : WStr} (h : p c = false) :
    (c :: a).dropWhile p = c :: a := by
  rw [List.dropWhile_cons, if_neg (by simp [h])]

/-- Decoding of a numeral followed by something that is not a digit. -/
theorem tryParseInternal_numeral (L : Locale) (ws sg ds r : WStr) (tail : List Nat)
    (hws : ∀ c ∈ ws, L.isSpace c = true) (hne : ds ≠ []) (hds : ∀ c ∈ ds, isDigit c = true)
    (hsg : sg = [] ∨ sg = [43] ∨ sg = [45]) (hr : r = [] ∨ ∃ c r', r = c :: r' ∧ isDigit c = false) :
    tryParseInternal L ((ws ++ sg ++ ds ++ r) ++ 0 :: tail) ((ws ++ sg ++ ds ++ r).length : Nat) = .ok
      { good := endOk L r, value := wrapU64 (numeral ds), sign := if sg = [45] then -1 else 1 } := by
  rw [tryParseInternal_eq]
  obtain ⟨d, ds', rfl⟩ : ∃ d ds', ds = d :: ds' := by
    cases ds with
    | nil => exact absurd rfl hne
    | cons d ds' => exact ⟨d, ds', rfl⟩
  have hd := hds d (by simp)
  have hdr := (isDigit_iff d).mp hd
  have hsp : L.isSpace d = false := L.digit_not_space d hdr.1 hdr.2
  have hdw : ((ws ++ sg ++ d :: ds' ++ r)).dropWhile L.isSpace = sg ++ d :: ds' ++ r := by
    rw [List.append_assoc, List.append_assoc, dropWhile_all_append hws]
    rcases hsg with h | h | h <;> subst h
    · simp [hsp]
    · simp [L.plus_not_space]
    · simp [L.minus_not_space]
  have hb : body L (ws ++ sg ++ d :: ds' ++ r) = (d :: ds') ++ r := by
    unfold body; rw [hdw]
    rcases hsg with h | h | h <;> subst h
    · simp only [List.nil_append, List.cons_append]
      unfold afterSign; split
      · rename_i h; simp at h; omega
      · rename_i h; simp at h; omega
      · rfl
    · simp [afterSign]
    · simp [afterSign]
  have hsn : signOf (sg ++ d :: ds' ++ r) = if sg = [45] then -1 else 1 := by
    rcases hsg with h | h | h <;> subst h
    · simp only [List.nil_append, List.cons_append]
      unfold signOf; split
      · rename_i h; simp at h; omega
      · simp
    · simp [signOf]
    · simp [signOf]
  have hrt : r.takeWhile isDigit = [] := by
    rcases hr with h | ⟨c, r', h, hc⟩ <;> subst h <;> simp [*]
  have hrd : r.dropWhile isDigit = r := by
    rcases hr with h | ⟨c, r', h, hc⟩ <;> subst h <;> simp [*]
  rw [hdw, hsn, hb, takeWhile_all_append hds, dropWhile_all_append hds, hrt, hrd]
  simp

theorem isDigit_not_space (L : Locale) {c : Nat} (h : L.isSpace c = true) : isDigit c = false := by
  by_cases hd : isDigit c = true
  · have := (isDigit_iff c).mp hd
    rw [L.digit_not_space c this.1 this.2] at h
    exact absurd h (by simp)
  · simpa using hd

/-- Success of the scanner is exactly the `PrefixText` grammar. -/
theorem good_iff (L : Locale) (s : WStr) :
    (!((body L s).takeWhile isDigit).isEmpty && endOk L ((body L s).dropWhile isDigit)) = true ↔ PrefixText L s := by
  constructor
  · intro h
    rw [Bool.and_eq_true] at h
    obtain ⟨h1, h2⟩ := h
    have hne : (body L s).takeWhile isDigit ≠ [] := by simpa using h1
    have hall : ∀ c ∈ (body L s).takeWhile isDigit, isDigit c = true := by
      intro c hc; exact (List.all_eq_true.mp (List.all_takeWhile (p := isDigit) (l := body L s))) c hc
    have hws : ∀ c ∈ s.takeWhile L.isSpace, L.isSpace c = true := by
      intro c hc; exact (List.all_eq_true.mp (List.all_takeWhile (p := L.isSpace) (l := s))) c hc
    obtain ⟨sg, hsg, hb⟩ : ∃ sg, (sg = [] ∨ sg = [43] ∨ sg = [45]) ∧ s.dropWhile L.isSpace = sg ++ body L s := by
      unfold body afterSign
      split
      · rename_i r h; exact ⟨[45], by simp, by simpa using h⟩
      · rename_i r h; exact ⟨[43], by simp, by simpa using h⟩
      · exact ⟨[], by simp, by simp⟩
    refine ⟨s.takeWhile L.isSpace ++ sg ++ (body L s).takeWhile isDigit, (body L s).dropWhile isDigit,
      (if sg = [45] then -(numeral ((body L s).takeWhile isDigit) : Int) else numeral ((body L s).takeWhile isDigit)),
      ?_, ?_, ?_⟩
    · rw [List.append_assoc, List.takeWhile_append_dropWhile, List.append_assoc, ← hb,
        List.takeWhile_append_dropWhile]
    · refine ⟨_, sg, _, rfl, hws, hne, hall, ?_⟩
      rcases hsg with h | h | h <;> subst h <;> simp
    · cases hr : (body L s).dropWhile isDigit with
      | nil => left; rfl
      | cons c r => right; rw [hr] at h2; exact ⟨c, r, rfl, h2⟩
  · rintro ⟨p, r, v, rfl, ⟨ws, sg, ds, rfl, hws, hne, hds, hv⟩, hr⟩
    have hsg : sg = [] ∨ sg = [43] ∨ sg = [45] := by
      rcases hv with h | h | h
      · left; exact h.1
      · right; left; exact h.1
      · right; right; exact h.1
    have hr' : r = [] ∨ ∃ c r', r = c :: r' ∧ isDigit c = false := by
      rcases hr with h | ⟨c, r', h, hc⟩
      · left; exact h
      · right; exact ⟨c, r', h, isDigit_not_space L hc⟩
    have e1 := tryParseInternal_eq L (ws ++ sg ++ ds ++ r) []
    rw [tryParseInternal_numeral L ws sg ds r [] hws hne hds hsg hr'] at e1
    injection e1 with e1
    injection e1 with e1
    rw [← e1]
    rcases hr with h | ⟨c, r', h, hc⟩ <;> subst h <;> simp [endOk, *]

end Verif.IntVal
