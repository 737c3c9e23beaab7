import Verif.FloatTextProps
/-!
# C128-C131 continued: the texts of infinities and NaN, hexadecimal texts, the null string
-/
namespace Verif.FloatText
open Verif.FltModel Verif.FltSpec Verif.FltProps Verif.Rnd Verif.FloatTextSpec

variable {F : Fmt}

/-- **C128**: the text of an infinity is `INF` or `-INF`, that of a NaN is `NAN` or, with the sign bit, `-NAN`. -/
theorem C128_special (F : Fmt) (hl : Lib F) (b : Nat) :
    (classOf F b = .infinite → toString F b = .ok (if neg F b = true then w "-INF" else w "INF")) ∧
    (classOf F b = .nan → toString F b = .ok (if neg F b = true then w "-NAN" else w "NAN")) := by
  have hf := facts hl
  constructor
  · intro h
    have hi : mag F b = F.I := (class_inf hf b).1 h
    unfold toString format
    rw [if_neg (show ¬ F.I < mag F b by omega), if_pos hi]
    cases neg F b <;> rfl
  · intro h
    have hi : F.I < mag F b := by
      have := (nan_class hf b).2 h
      unfold nan at this
      simpa using this
    unfold toString format
    rw [if_pos hi]
    cases neg F b <;> rfl

example : classOf dbl 0xFFF0000000000000 = .infinite ∧ toString dbl 0xFFF0000000000000 = .ok (w "-INF") ∧ toString sgl 0x7FC00000 = .ok (w "NAN") := by decide +kernel

theorem scan_word (L : Locale) (F : Fmt) (c : Nat) (s t : WStr) (h : scanSigned t = (scanSigned (c :: s))) (h0 : t = c :: s) (hc : L.isSpace c = false) (hz : ∀ x ∈ t, x ≠ 0) :
    scan L F t = (scanSigned t).map fun p => pack F p.1 (place F p.2) := by
  unfold scan
  have e : t.takeWhile (· != 0) = t := by
    clear h h0
    induction t with
    | nil => rfl
    | cons x t ih => rw [List.takeWhile_cons, if_pos (by simpa using hz x (List.mem_cons_self ..)), ih (fun y hy => hz y (List.mem_cons_of_mem _ hy))]
  rw [e]
  subst h0
  rw [List.dropWhile_cons, if_neg (by rw [hc]; decide)]

/-- **C129**: the texts of the infinities are read back as themselves, that of a NaN as a NaN (the letters and the minus sign are no white space in the locale). -/
theorem C129_special (L : Locale) (hI : L.isSpace 73 = false) (hN : L.isSpace 78 = false) (hm : L.isSpace 45 = false) (F : Fmt) (hl : Lib F) (b : Nat) (hb : b < 2 * F.S) (t : WStr) (ht : toString F b = .ok t) :
    (classOf F b = .infinite → parse L F (some t) = .ok b) ∧
    (classOf F b = .nan → ∃ c, parse L F (some t) = .ok c ∧ classOf F c = .nan) := by
  have hf := facts hl
  obtain ⟨s1, s2⟩ := C128_special F hl b
  have nm : F.I < F.I + F.M / 2 := by rcases hl with rfl | rfl <;> decide
  constructor
  · intro h
    have hi : mag F b = F.I := (class_inf hf b).1 h
    have e := s1 h
    rw [ht] at e
    injection e with e
    rw [parse_some]
    have hbb : pack F (neg F b) F.I = b := by
      unfold pack neg
      have h2 : b % F.S = F.I := hi
      have h3 := Nat.div_add_mod b F.S
      by_cases c : F.S ≤ b
      · have : b / F.S = 1 := Nat.div_eq_of_lt_le (by omega) (by omega)
        rw [this, h2] at h3
        simp only [c, decide_true, if_true]
        omega
      · have : b / F.S = 0 := Nat.div_eq_of_lt (by omega)
        rw [this, h2] at h3
        simp only [c, decide_false, Bool.false_eq_true, if_false]
        omega
    cases hn : neg F b
    · rw [hn] at e hbb
      have e' : t = w "INF" := e
      rw [scan_word L F 73 (w "NF") t (by rw [e']; rfl) e' hI (by rw [e']; decide), e']
      exact congrArg Res.ok hbb
    · rw [hn] at e hbb
      have e' : t = w "-INF" := e
      rw [scan_word L F 45 (w "INF") t (by rw [e']; rfl) e' hm (by rw [e']; decide), e']
      exact congrArg Res.ok hbb
  · intro h
    have e := s2 h
    rw [ht] at e
    injection e with e
    rw [parse_some]
    have key : ∀ s : Bool, classOf F (pack F s (F.I + F.M / 2)) = .nan := by
      intro s
      rcases hl with rfl | rfl <;> cases s <;> decide
    cases hn : neg F b
    · rw [hn] at e
      have e' : t = w "NAN" := e
      rw [scan_word L F 78 (w "AN") t (by rw [e']; rfl) e' hN (by rw [e']; decide), e']
      exact ⟨_, rfl, key false⟩
    · rw [hn] at e
      have e' : t = w "-NAN" := e
      rw [scan_word L F 45 (w "NAN") t (by rw [e']; rfl) e' hm (by rw [e']; decide), e']
      exact ⟨_, rfl, key true⟩

example : cLocale.isSpace 73 = false ∧ cLocale.isSpace 78 = false ∧ cLocale.isSpace 45 = false ∧ parse cLocale dbl (some (w "-INF")) = .ok 0xFFF0000000000000 := by decide +kernel

/-- **C131**: given null, `TryParseInternal` throws ArgumentNullException and `TryParse` returns false; for no string does either throw. -/
theorem C131_null (L : Locale) (F : Fmt) (old : Nat) (s : Option WStr) :
    (tryParseString L F s = .throw .argumentNull ↔ s = none) ∧ (tryParse L F old s = .ok (false, old) → s = none) ∧ (s = none → tryParse L F old s = .ok (false, old)) := by
  cases s with
  | none => exact ⟨⟨fun _ => rfl, fun _ => rfl⟩, fun _ => rfl, fun _ => rfl⟩
  | some s =>
    obtain ⟨h1, h2, h3⟩ := C131_agree_partial L F old s 0
    refine ⟨⟨?_, fun h => by cases h⟩, ?_, fun h => by cases h⟩
    · rw [h2]
      intro h
      have e : tryParse L F old (some s) = tryParseInternal L F (s ++ [0]) s.length := rfl
      rw [e] at h
      unfold tryParseInternal at h
      rw [IntVal.skipSpace_eq L s []] at h
      have h : (match scan L F (s.dropWhile L.isSpace ++ [0]) with
        | none => Res.ub
        | some b => Res.ok (true, b)) = .throw .argumentNull := h
      split at h <;> cases h
    · intro h
      have := h3 _ h
      cases this

example : tryParseString cLocale dbl none = .throw .argumentNull := rfl

/-- The value of a hexadecimal digit: `0`-`9`, `a`-`f`, `A`-`F`. -/
inductive HexDigit : Nat → Nat → Prop where
  | digit (n : Nat) (h : n < 10) : HexDigit (48 + n) n
  | small (n : Nat) (h : n < 6) : HexDigit (97 + n) (10 + n)
  | capital (n : Nat) (h : n < 6) : HexDigit (65 + n) (10 + n)

/-- A sequence of hexadecimal digits and its number, the last digit counting 1. -/
inductive HexNum : WStr → Nat → Prop
  | nil : HexNum [] 0
  | snoc (s : WStr) (n c v : Nat) : HexNum s n → HexDigit c v → HexNum (s ++ [c]) (16 * n + v)

theorem hexDigit_iff (c v : Nat) : HexDigit c v ↔ isHex c = true ∧ hexVal c = v := by
  constructor
  · intro h
    cases h with
    | digit _ h =>
      have e : isDigit (48 + v) = true := by unfold isDigit; simp; omega
      unfold isHex hexVal
      rw [e]; simp
    | small n h =>
      have e : isDigit (97 + n) = false := by unfold isDigit; simp; omega
      have l : lower (97 + n) = 97 + n := by unfold lower; rw [if_neg (by omega)]
      unfold isHex hexVal
      rw [e, l]; simp; omega
    | capital n h =>
      have e : isDigit (65 + n) = false := by unfold isDigit; simp; omega
      have l : lower (65 + n) = 97 + n := by unfold lower; rw [if_pos (by omega)]; omega
      unfold isHex hexVal
      rw [e, l]; simp; omega
  · rintro ⟨h, rfl⟩
    by_cases d : isDigit c = true
    · have e : hexVal c = c - 48 := by unfold hexVal; rw [if_pos d]
      unfold isDigit at d
      simp at d
      have := HexDigit.digit (c - 48) (by omega)
      rw [e]
      rwa [show 48 + (c - 48) = c by omega] at this
    · have e : hexVal c = lower c - 87 := by unfold hexVal; rw [if_neg d]
      unfold isHex at h
      rw [Bool.not_eq_true] at d
      rw [d] at h
      simp at h
      rw [e]
      unfold lower at h ⊢
      split at h
      · rename_i q
        rw [if_pos q]
        have := HexDigit.capital (c - 65) (by omega)
        rw [show 65 + (c - 65) = c by omega] at this
        rw [show c + 32 - 87 = 10 + (c - 65) by omega]
        exact this
      · rename_i q
        rw [if_neg q]
        have := HexDigit.small (c - 97) (by omega)
        rw [show 97 + (c - 97) = c by omega] at this
        rw [show c - 87 = 10 + (c - 97) by omega]
        exact this

theorem hexNum_val {s : WStr} {n : Nat} (h : HexNum s n) : (∀ c ∈ s, isHex c = true) ∧ digitsVal 16 hexVal s = n := by
  induction h with
  | nil => exact ⟨by simp, rfl⟩
  | snoc s n c v _ hd ih =>
    obtain ⟨a, b⟩ := (hexDigit_iff c v).1 hd
    refine ⟨?_, ?_⟩
    · intro x hx
      rw [List.mem_append] at hx
      rcases hx with hx | hx
      · exact ih.1 x hx
      · rw [List.mem_singleton] at hx; subst hx; exact a
    · unfold digitsVal at ih ⊢
      rw [List.foldl_append, ih.2]
      simp [b]

/-- **C130 (refuted)**: every text `0x` or `0X` with hexadecimal digits, an optional point and further digits is accepted as the number it is in base 16; .NET raises FormatException. -/
theorem C130_hex_refuted (L : Locale) (h48 : L.isSpace 48 = false) (F : Fmt) (hl : Lib F) (x : Nat) (ip fp fd : WStr) (n : Nat) (hx : x = 120 ∨ x = 88) (hfp : (fp = [] ∧ fd = []) ∨ fp = 46 :: fd)
    (hn : HexNum (ip ++ fd) n) (hne : ip ++ fd ≠ []) :
    ∃ b, parse L F (some (48 :: x :: (ip ++ fp))) = .ok b ∧ Rounded F ((n : ℚ) / 16 ^ fd.length) b := by
  obtain ⟨hh, hv⟩ := hexNum_val hn
  have d46 : isHex 46 = false := by decide
  have tw : ∀ (a b : WStr), (∀ c ∈ a, isHex c = true) → (∀ c r, b = c :: r → isHex c = false) → (a ++ b).takeWhile isHex = a ∧ (a ++ b).dropWhile isHex = b := by
    intro a b ha hb
    induction a with
    | nil =>
      cases b with
      | nil => exact ⟨rfl, rfl⟩
      | cons c r => simp [hb c r rfl]
    | cons c a ih =>
      obtain ⟨p, q⟩ := ih (fun c hc => ha c (List.mem_cons_of_mem _ hc))
      simp [ha c (List.mem_cons_self ..), p, q]
  obtain ⟨t1, t2⟩ := tw ip fp (fun c hc => hh c (List.mem_append_left _ hc)) (by
    intro c r e
    rcases hfp with ⟨e1, _⟩ | e1
    · rw [e1] at e; cases e
    · rw [e1] at e; injection e with e1 _; rw [← e1]; exact d46)
  obtain ⟨t3, t4⟩ := tw fd [] (fun c hc => hh c (List.mem_append_right _ hc)) (by intro c r e; cases e)
  rw [List.append_nil] at t3 t4
  have e1 : scanHex (ip ++ fp) = some (.hex n (0 - 4 * fd.length)) := by
    unfold scanHex
    simp only [t1, t2]
    have : fracPart isHex fp = (fd, []) := by
      rcases hfp with ⟨e1, e2⟩ | e1
      · rw [e1, e2]; rfl
      · rw [e1]; show (fd.takeWhile isHex, fd.dropWhile isHex) = _; rw [t3, t4]
    rw [this]
    rw [if_neg (by intro ⟨a, b⟩; apply hne; rw [a]; exact b)]
    simp only [hv]
    rfl
  have e2 : scanBody (48 :: x :: (ip ++ fp)) = scanHex (ip ++ fp) := by
    have e : startsWith (48 :: x :: (ip ++ fp)) (w "0x") = true := by
      show (lower 48 == 48 && (lower x == 120 && startsWith (ip ++ fp) [])) = true
      have : startsWith (ip ++ fp) [] = true := by cases ip ++ fp <;> rfl
      rw [this]
      rcases hx with rfl | rfl <;> decide
    unfold scanBody
    rw [if_neg (by intro h; cases h), if_neg (by intro h; cases h), if_neg (by intro h; cases h), if_pos e]
    rfl
  have e3 : scanSigned (48 :: x :: (ip ++ fp)) = some (false, .hex n (0 - 4 * fd.length)) := by
    show (scanBody (48 :: x :: (ip ++ fp))).map _ = _
    rw [e2, e1]; rfl
  have hz : ∀ c ∈ 48 :: x :: (ip ++ fp), c ≠ 0 := by
    intro c hc h0
    subst h0
    have z0 : isHex 0 = false := by decide
    simp only [List.mem_cons, List.mem_append] at hc
    rcases hc with hc | hc | hc | hc
    · cases hc
    · omega
    · have := hh 0 (List.mem_append_left _ hc); rw [z0] at this; cases this
    · rcases hfp with ⟨e1, _⟩ | e1
      · rw [e1] at hc; cases hc
      · rw [e1, List.mem_cons] at hc
        rcases hc with hc | hc
        · cases hc
        · have := hh 0 (List.mem_append_right _ hc); rw [z0] at this; cases this
  refine ⟨pack F false (place F (.hex n (0 - 4 * fd.length))), ?_, ?_⟩
  · rw [parse_some, scan_word L F 48 (x :: (ip ++ fp)) _ rfl rfl h48 hz, e3]; rfl
  · have hp : place F (.hex n (0 - 4 * fd.length)) = roundMag F (n * 2 ^ places F) (2 ^ (4 * fd.length)) := by
      show roundMag F (n * 2 ^ (0 - 4 * (fd.length : Int)).toNat * 2 ^ places F) (2 ^ (-(0 - 4 * (fd.length : Int))).toNat) = _
      rw [show (0 - 4 * (fd.length : Int)).toNat = 0 by omega, show (-(0 - 4 * (fd.length : Int))).toNat = 4 * fd.length by omega, pow_zero, mul_one]
    rw [hp]
    have h := rounded_of_near hl false _ (by positivity) _ (near_roundMag (lib_bin hl) (n * 2 ^ places F) (2 ^ (4 * fd.length)) (by positivity))
    have e : (if false = true then (-1 : ℚ) else 1) * (((n * 2 ^ places F : Nat) : ℚ) / ((2 ^ (4 * fd.length) : Nat) : ℚ) / 2 ^ places F) = (n : ℚ) / 16 ^ fd.length := by
      have hP : (2 : ℚ) ^ places F ≠ 0 := by positivity
      push_cast
      rw [pow_mul, show ((2 : ℚ) ^ 4) = 16 by norm_num]
      generalize (2 : ℚ) ^ places F = P at *
      rw [one_mul]
      field_simp
    rw [e] at h
    exact h

/-- `0x1F.8` is 31.5. -/
example : HexNum (w "1F" ++ w "8") 504 ∧ parse cLocale dbl (some (w "0x1F.8")) = .ok 0x403F800000000000 := by
  refine ⟨?_, by decide +kernel⟩
  have h1 := HexNum.snoc [] 0 49 1 .nil (.digit 1 (by decide))
  have h2 := HexNum.snoc _ _ 70 15 h1 (.capital 5 (by decide))
  exact HexNum.snoc _ _ 56 8 h2 (.digit 8 (by decide))

end Verif.FloatText
