import Verif.JoinExact
import Verif.SBObject
set_option linter.unusedSimpArgs false
set_option linter.unusedVariables false
/-!
# C197: exactly when Join with a character separator is undefined

No new code is modelled. `Append(Char)` never enlarges the block, which always ends at a multiple of 128 characters, so a separator behind a full block is written outside it.
-/
namespace Verif.StrProps
open SBModel SBProps SBSpec StrSpec StrModel

/-- The text before some separator fills the builder's block: its length is a positive multiple of 128. -/
def FullBefore (c : Nat) (parts : List WStr) : Prop :=
  ∃ k, 0 < k ∧ k < parts.length ∧ 0 < (joined [c] (parts.take k)).length ∧ (joined [c] (parts.take k)).length % 128 = 0

/-! ## Proof -/

/-- The number of characters of the separated further parts. -/
def tailLen : List WStr → Nat
  | [] => 0
  | p :: t => 1 + p.length + tailLen t

theorem joined_tail (c : Nat) (p : WStr) (t : List WStr) : joined [c] (p :: t) = p ++ t.flatMap (fun q => c :: q) := by
  induction t generalizing p with
  | nil => simp [joined]
  | cons q t ih => rw [joined, ih q]; simp

theorem joined_length (c : Nat) (p : WStr) (t : List WStr) : (joined [c] (p :: t)).length = p.length + tailLen t := by
  induction t generalizing p with
  | nil => simp [joined, tailLen]
  | cons q t ih => rw [joined, List.length_append, List.length_append, ih q, tailLen]; simp; omega

/-- The loop fails at one of the further parts, `len` characters being there. -/
def Bad : Nat → List (Option WStr) → Prop
  | _, [] => False
  | len, o :: t => (0 < len ∧ len % 128 = 0) ∨ match o with
    | none => True
    | some p => 2147483520 < len + 1 + p.length ∨ Bad (len + 1 + p.length) t

theorem bad_iff : ∀ (t : List (Option WStr)) (len : Nat), len ≤ 2147483520 →
    (Bad len t ↔ none ∈ t ∨ 2147483520 < len + tailLen (t.map (·.getD [])) ∨
      ∃ k, k < t.length ∧ 0 < len + tailLen ((t.map (·.getD [])).take k) ∧ (len + tailLen ((t.map (·.getD [])).take k)) % 128 = 0)
  | [], len, h => by simp [Bad, tailLen]; omega
  | none :: t, len, h => by simp [Bad]
  | some p :: t, len, h => by
    rw [Bad]
    have hk : (∃ k, k < (some p :: t).length ∧ 0 < len + tailLen (((some p :: t).map (·.getD [])).take k) ∧ (len + tailLen (((some p :: t).map (·.getD [])).take k)) % 128 = 0) ↔
        (0 < len ∧ len % 128 = 0) ∨ ∃ k, k < t.length ∧ 0 < len + 1 + p.length + tailLen ((t.map (·.getD [])).take k) ∧ (len + 1 + p.length + tailLen ((t.map (·.getD [])).take k)) % 128 = 0 := by
      have he : ∀ k, len + tailLen (((some p :: t).map (·.getD [])).take (k + 1)) = len + 1 + p.length + tailLen ((t.map (·.getD [])).take k) := by
        intro k; simp [tailLen]; omega
      constructor
      · rintro ⟨k, h1, h2, h3⟩
        cases k with
        | zero => left; simpa [tailLen] using And.intro h2 h3
        | succ k => right; rw [he] at h2 h3; exact ⟨k, by simpa using h1, h2, h3⟩
      · rintro (h1 | ⟨k, h1, h2, h3⟩)
        · exact ⟨0, by simp, by simpa [tailLen] using h1.1, by simpa [tailLen] using h1.2⟩
        · exact ⟨k + 1, by simpa using h1, by rw [he]; exact h2, by rw [he]; exact h3⟩
    rw [hk]
    have hl : tailLen ((some p :: t).map (·.getD [])) = 1 + p.length + tailLen (t.map (·.getD [])) := by simp [tailLen]
    rw [hl]
    have hn : none ∈ some p :: t ↔ none ∈ t := by simp
    rw [hn]
    by_cases hb : 2147483520 < len + 1 + p.length
    · exact ⟨fun _ => .inr (.inl (by omega)), fun _ => .inr (.inl hb)⟩
    · have ih := bad_iff t (len + 1 + p.length) (by omega)
      have e : len + (1 + p.length + tailLen (t.map (·.getD []))) = len + 1 + p.length + tailLen (t.map (·.getD [])) := by omega
      rw [e]
      simp only [hb, false_or, ih]
      constructor
      · rintro (h | h | h | h)
        · exact .inr (.inr (.inl h))
        · exact .inl h
        · exact .inr (.inl h)
        · exact .inr (.inr (.inr h))
      · rintro (h | h | h | h)
        · exact .inr (.inl h)
        · exact .inr (.inr (.inl h))
        · exact .inl h
        · exact .inr (.inr (.inr h))

/-- The state of the loop: the block is the least one that holds the text. -/
structure Tight (s : SB) : Prop where
  inv : Inv s
  max : s.maxCap = 2147483647
  cap : (s.cap : Int) = if s.len ≤ 128 then 128 else ((s.len : Int) + 127) / 128 * 128

theorem tight_obj {s : SB} (h : Inv s) (hm : s.maxCap = 2147483647) (hc : (s.cap : Int) = if s.len ≤ 128 then 128 else ((s.len : Int) + 127) / 128 * 128) (p : WStr) :
    (2147483520 < s.len + p.length ∧ appendObj s (some p) = .ub) ∨
    (s.len + p.length ≤ 2147483520 ∧ ∃ t, appendObj s (some p) = .done t ∧ Tight t ∧ t.len = s.len + p.length ∧ content t = content s ++ p) := by
  have hll := h.len_lim
  by_cases hb : 2147483520 < s.len + p.length
  · refine .inl ⟨hb, ?_⟩
    exact appendStr_over h hm (by unfold limit; omega)
  · refine .inr ⟨by omega, ?_⟩
    obtain ⟨s1, h1, i1, c1, l1, m1, _⟩ := appendStr_ok (v := p) h (show (s.len : Int) + p.length ≤ limit by unfold limit; omega) hm
    refine ⟨s1, h1, ⟨i1, m1, ?_⟩, by omega, c1⟩
    have hu : ¬ AddUndefined s p.length (position s (-1)) := by
      unfold AddUndefined Refused position; rw [if_pos rfl]; omega
    have hE : appendObj s (some p) = appendRaw s p p.length (-1) := appendObj_text
    rcases add_cases h (values := p) (n := p.length) (i := -1) (by omega) (by omega) hu with ⟨e, he, _⟩ | ⟨t, he, _, _, htl, htc, _⟩
    · rw [← hE] at he
      have := he.symm.trans h1
      cases this
    · rw [← hE] at he
      have := he.symm.trans h1
      injection this with this
      subst this
      rw [htc, hc]
      unfold grown
      have : ((t.len : Int)) = s.len + p.length := htl
      split <;> split <;> (try split) <;> (try split) <;> omega

theorem tight_sep {s : SB} (h : Tight s) (c : Nat) :
    ((0 < s.len ∧ s.len % 128 = 0) ∧ appendChar s c 1 = .ub) ∨
    (¬ (0 < s.len ∧ s.len % 128 = 0) ∧ ∃ t, appendChar s c 1 = .done t ∧ Tight t ∧ t.len = s.len + 1 ∧ content t = content s ++ [c]) := by
  have hc := h.cap
  have hb : block (s.cap : Int) = s.cap := by unfold block; rw [hc]; split <;> omega
  have hg : grown s.cap 1 = s.cap := by unfold grown; rw [if_pos (by rw [hc]; split <;> omega)]
  have hr : ¬ Refused s 1 := by unfold Refused; rw [h.max]; omega
  by_cases hf : 0 < s.len ∧ s.len % 128 = 0
  · refine .inl ⟨hf, char_undefined h.inv (by omega) hr (.inr ?_)⟩
    rw [hg, hb, hc]
    split <;> omega
  · refine .inr ⟨hf, ?_⟩
    have hfit : (s.len : Int) + 1 ≤ s.cap := by rw [hc]; split <;> omega
    rcases char_cases h.inv (c := c) (n := 1) (by rw [hg, hb]; omega) with ⟨_, _, hx | hx⟩ | ⟨t, he, hi, hm, hl, hcap, htx⟩
    · omega
    · exact absurd hx hr
    · refine ⟨t, he, ⟨hi, hm.trans h.max, ?_⟩, by omega, htx⟩
      rw [hcap, hg, hc]
      split <;> split <;> omega

theorem joinLoop_char (c : Nat) : ∀ (t : List (Option WStr)) (s : SB), Tight s →
    (Bad s.len t ∧ joinLoop (fun s => appendChar s c 1) false t s = .ub) ∨
    (¬ Bad s.len t ∧ ∃ s', joinLoop (fun s => appendChar s c 1) false t s = .done s' ∧ Inv s' ∧ content s' = content s ++ (t.map (·.getD [])).flatMap (fun q => c :: q))
  | [], s, h => .inr ⟨by simp [Bad], s, rfl, h.inv, by simp⟩
  | o :: t, s, h => by
    have hstep : joinLoop (fun s => appendChar s c 1) false (o :: t) s = (appendChar s c 1).andThen fun s => (appendObj s o).andThen (joinLoop (fun s => appendChar s c 1) false t) := rfl
    rw [hstep]
    rcases tight_sep h c with ⟨hf, he⟩ | ⟨hf, s1, he, h1, l1, c1⟩
    · exact .inl ⟨.inl hf, by rw [he]; rfl⟩
    rw [he, andThen_done]
    cases o with
    | none => exact .inl ⟨.inr trivial, rfl⟩
    | some p =>
      rcases tight_obj h1.inv h1.max h1.cap p with ⟨hb, he2⟩ | ⟨hb, s2, he2, h2, l2, c2⟩
      · exact .inl ⟨.inr (.inl (by omega)), by rw [he2]; rfl⟩
      rw [he2, andThen_done]
      have e : s2.len = s.len + 1 + p.length := by omega
      rcases joinLoop_char c t s2 h2 with ⟨a1, a2⟩ | ⟨a1, s', a2, a3, a4⟩
      · exact .inl ⟨.inr (.inr (e ▸ a1)), a2⟩
      · refine .inr ⟨?_, s', a2, a3, by rw [a4, c2, c1]; simp⟩
        rintro (h' | h' | h')
        · exact hf h'
        · omega
        · exact a1 (e ▸ h')

theorem joinChar_range (c : Nat) (range : List (Option WStr)) :
    build (joinLoop (fun s => appendChar s c 1) true range initial) =
      (open Classical in if none ∈ range ∨ 2147483520 < (joined [c] (range.map (·.getD []))).length ∨ FullBefore c (range.map (·.getD [])) then .ub
       else .ok (joined [c] (range.map (·.getD [])))) := by
  obtain ⟨e1, e2, e3⟩ := initial_facts
  cases range with
  | nil =>
    rw [if_neg (by simp [joined, FullBefore])]
    show toStr initial = _
    rw [toStr_ok inv_initial', e1]; rfl
  | cons o t =>
    have hs : joinLoop (fun s => appendChar s c 1) true (o :: t) initial = (appendObj initial o).andThen (joinLoop (fun s => appendChar s c 1) false t) := rfl
    rw [hs]
    cases o with
    | none => rw [if_pos (.inl (by simp))]; rfl
    | some p =>
      have hF : FullBefore c ((some p :: t).map (·.getD [])) ↔
          ∃ k, k < t.length ∧ 0 < p.length + tailLen ((t.map (·.getD [])).take k) ∧ (p.length + tailLen ((t.map (·.getD [])).take k)) % 128 = 0 := by
        unfold FullBefore
        have he : ∀ k, (joined [c] (((some p :: t).map (·.getD [])).take (k + 1))).length = p.length + tailLen ((t.map (·.getD [])).take k) := by
          intro k; rw [List.map_cons, List.take_succ_cons, joined_length]; rfl
        constructor
        · rintro ⟨k, h0, h1, h2, h3⟩
          cases k with
          | zero => omega
          | succ k => rw [he] at h2 h3; exact ⟨k, by simpa using h1, h2, h3⟩
        · rintro ⟨k, h1, h2, h3⟩
          exact ⟨k + 1, by omega, by simpa using h1, by rw [he]; exact h2, by rw [he]; exact h3⟩
      have hL : (joined [c] ((some p :: t).map (·.getD []))).length = p.length + tailLen (t.map (·.getD [])) := by
        rw [List.map_cons, joined_length]; rfl
      rw [hF, hL]
      rcases tight_obj inv_initial' e3 (by decide) p with ⟨hb, he⟩ | ⟨hb, s, he, h1, l1, c1⟩
      · rw [e2] at hb
        rw [he, if_pos (.inr (.inl (by omega)))]; rfl
      rw [e2] at hb l1
      rw [he, andThen_done]
      have l1' : s.len = p.length := by omega
      have hbi := bad_iff t p.length (by omega)
      have hn : none ∈ some p :: t ↔ none ∈ t := by simp
      rw [← hn] at hbi
      rcases joinLoop_char c t s h1 with ⟨a1, a2⟩ | ⟨a1, s', a2, a3, a4⟩
      · rw [l1'] at a1
        rw [a2, if_pos (hbi.mp a1)]; rfl
      · rw [l1'] at a1
        rw [a2, if_neg (fun h => a1 (hbi.mpr h))]
        show toStr s' = _
        rw [toStr_ok a3, a4, c1, e1, List.map_cons, joined_tail]; simp

open Classical in
/-- **C197**, `Join(character, array, start, count)` for all arguments, a negative count meaning to the end: ArgumentNullException for a null array, the empty string for an empty array, RankException for a matrix,
ArgumentNullException for a range that is not inside the array. Undefined exactly for a range that is not empty in an array that is not of references, for a null element in the range, for a result of more than
2147483520 characters, and when the text before some separator has a positive multiple of 128 characters; otherwise the elements with the character between them. -/
theorem C197_join_char_exact (c : Nat) (values : Option ObjArr) (i n : Int) :
    joinChar c values i n = match values with
      | none => .throw .argumentNull
      | some a =>
        if a.items = [] then .ok []
        else if a.oneDim = false then .throw .rank
        else if i < 0 ∨ (0 ≤ n ∧ a.items.length < i + n) then .throw .argumentNull
        else
          let range := (a.items.drop i.toNat).take (if n < 0 then a.items.length else n.toNat)
          let text := joined [c] (range.map (·.getD []))
          if (range ≠ [] ∧ a.refs = false) ∨ none ∈ range ∨ 2147483520 < text.length ∨ FullBefore c (range.map (·.getD [])) then .ub
          else .ok text := by
  cases values with
  | none => rfl
  | some a =>
    unfold joinChar joinWith
    simp only []
    by_cases h0 : a.items = []
    · rw [if_pos (List.length_eq_zero_iff.mpr h0), if_pos h0]
    rw [if_neg (fun h => h0 (List.length_eq_zero_iff.mp h)), if_neg h0]
    by_cases hd : a.oneDim = false
    · rw [if_pos hd, if_pos hd]
    rw [if_neg hd, if_neg hd]
    by_cases hi : i < 0
    · rw [if_pos hi, if_pos (show _ ∨ _ from .inl hi)]
    rw [if_neg hi]
    by_cases hr : 0 ≤ n ∧ (a.items.length : Int) < i + n
    · rw [if_pos (show _ ∨ _ from .inr hr), if_pos (by split <;> omega)]
    rw [if_neg (show ¬ (i < 0 ∨ _) from fun h => h.elim hi hr), if_neg (show ¬ (if n < 0 then (a.items.length : Int) - i else n) > (a.items.length : Int) - i by split <;> omega)]
    have hw : (a.items.drop i.toNat).take (if n < 0 then (a.items.length : Int) - i else n).toNat = (a.items.drop i.toNat).take (if n < 0 then a.items.length else n.toNat) := by
      by_cases hn : n < 0
      · rw [if_pos hn, if_pos hn, List.take_of_length_le (by simp; omega), List.take_of_length_le (by simp)]
      · rw [if_neg hn, if_neg hn]
    have hne : (0 < (if n < 0 then (a.items.length : Int) - i else n)) ↔ (a.items.drop i.toNat).take (if n < 0 then a.items.length else n.toNat) ≠ [] := by
      rw [← List.length_pos_iff, ← hw, List.length_take, List.length_drop]
      split <;> omega
    rw [hw]
    simp only [hne]
    generalize (a.items.drop i.toNat).take (if n < 0 then a.items.length else n.toNat) = range
    by_cases h1 : range ≠ [] ∧ a.refs = false
    · rw [if_pos h1, if_pos (show _ ∨ _ from .inl h1)]
    rw [if_neg h1, joinChar_range]
    by_cases h2 : none ∈ range ∨ 2147483520 < (joined [c] (range.map (·.getD []))).length ∨ FullBefore c (range.map (·.getD []))
    · rw [if_pos h2, if_pos (show _ ∨ _ from .inr h2)]
    · rw [if_neg h2, if_neg (show ¬ (_ ∨ _) from fun h => h.elim h1 h2)]

/-- The text before the separator has 128 characters: undefined; with 127 or 129 it is joined. -/
example : FullBefore 44 [List.replicate 128 97, w "b"] ∧
    joinChar 44 (some ⟨true, true, [some (List.replicate 128 97), some (w "b")]⟩) 0 (-1) = .ub ∧
    joinChar 44 (some ⟨true, true, [some (List.replicate 127 97), some (w "b")]⟩) 0 (-1) = .ok (List.replicate 127 97 ++ w ",b") ∧
    joinChar 44 (some ⟨true, true, [some (List.replicate 129 97), some (w "b")]⟩) 0 (-1) = .ok (List.replicate 129 97 ++ w ",b") ∧
    joinChar 44 (some ⟨true, true, [some [], some (w "b")]⟩) 0 (-1) = .ok (w ",b") :=
  ⟨⟨1, by decide +kernel⟩, by decide +kernel, by decide +kernel, by decide +kernel, by decide +kernel⟩

end Verif.StrProps
