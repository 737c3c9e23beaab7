import Verif.LineModel
/-!
# C123: an `if` is written as a statement where it is one, and as an expression where its value is used
-/
namespace Verif.Line
open Verif.Fmt

/-! ### Specification: what the formatter says about the current line -/

/-- Calls of the formatter that print text. -/
inductive Call | text (t : WStr) | char (c : Nat) | newline | line (t : WStr) | indented (t : WStr) | indentedLine (t : WStr) | up | down
deriving DecidableEq, Repr

/-- The text of the current line, without its indentation, after a sequence of calls. -/
def lineText : List Call → WStr → WStr
  | [], cur => cur
  | .text t :: r, cur => lineText r (cur ++ t)
  | .char c :: r, cur => lineText r (cur ++ [c])
  | .newline :: r, _ => lineText r []
  | .line _ :: r, _ => lineText r []
  | .indented t :: r, _ => lineText r t
  | .indentedLine _ :: r, _ => lineText r []
  | .up :: r, cur => lineText r cur
  | .down :: r, cur => lineText r cur

/-- The last text printed ended a line. -/
def fresh : List Call → Bool → Bool
  | [], b => b
  | .text _ :: r, _ => fresh r false
  | .char _ :: r, _ => fresh r false
  | .newline :: r, _ => fresh r true
  | .line _ :: r, _ => fresh r true
  | .indented _ :: r, _ => fresh r false
  | .indentedLine _ :: r, _ => fresh r true
  | .up :: r, b => fresh r b
  | .down :: r, b => fresh r b

/-- One call. -/
def call (nl : WStr) (s : St) : Call → Res St
  | .text t => .ok (append s t)
  | .char c => .ok (appendChar s c)
  | .newline => .ok (newline nl s)
  | .line t => .ok (appendLine nl s t)
  | .indented t => appendIndented s t
  | .indentedLine t => appendIndentedLine nl s t
  | .up => .ok (upIndent s)
  | .down => .ok (downIndent s)

/-- Calls in order. -/
def calls (nl : WStr) (s : St) : List Call → Res St
  | [] => .ok s
  | c :: r => call nl s c >>= fun s => calls nl s r

theorem bind_ok_inv {α β : Type} {x : Res α} {f : α → Res β} {b : β} (h : (x >>= f) = .ok b) : ∃ a, x = .ok a ∧ f a = .ok b := by
  cases x with
  | ok a => exact ⟨a, rfl, h⟩
  | throw e => cases h
  | ub => cases h

theorem indent_inv {s s' : St} (h : indent s = .ok s') :
    ∃ n, s' = { s with out := s.out ++ List.replicate n 9, onNewline := false, chars := false } := by
  unfold indent at h
  by_cases hc : 0 ≤ s.indent ∧ s.indent ≤ 22
  · rw [if_pos hc, Res.ok.injEq] at h
    refine ⟨s.indent.toNat, ?_⟩
    rw [← h]
    have : tabs.take s.indent.toNat = List.replicate s.indent.toNat 9 := by
      unfold tabs; rw [List.take_replicate, Nat.min_eq_left (by omega)]
    simp only [append, this]
  · rw [if_neg hc] at h; cases h

theorem indented_inv {s s' : St} {t : WStr} (h : appendIndented s t = .ok s') :
    ∃ n, s' = { s with out := s.out ++ List.replicate n 9 ++ t, onNewline := false, chars := !t.isEmpty } := by
  unfold appendIndented at h
  obtain ⟨a, ha, hb⟩ := bind_ok_inv h
  obtain ⟨n, hn⟩ := indent_inv ha
  refine ⟨n, ?_⟩
  rw [Res.ok.injEq] at hb
  subst hn; rw [← hb]
  cases t <;> simp [append]

theorem calls_inv (nl : WStr) : ∀ (l : List Call) (s s' : St) (cur : WStr), calls nl s l = .ok s' → s.chars = !cur.isEmpty → cur <:+ s.out →
    s'.chars = !(lineText l cur).isEmpty ∧ s'.onNewline = fresh l s.onNewline ∧ lineText l cur <:+ s'.out := by
  intro l
  induction l with
  | nil =>
    intro s s' cur h hc hs
    rw [calls, Res.ok.injEq] at h
    subst h
    exact ⟨hc, rfl, hs⟩
  | cons c r ih =>
    intro s s' cur h hc hs
    rw [calls] at h
    obtain ⟨s1, h1, h2⟩ := bind_ok_inv h
    cases c with
    | text t =>
      rw [call, Res.ok.injEq] at h1
      rw [lineText, fresh]
      subst h1
      refine ih _ _ _ h2 ?_ ?_
      · cases t <;> simp [append, hc]
      · obtain ⟨p, hp⟩ := hs
        exact ⟨p, by simp [append, ← hp]⟩
    | char c =>
      rw [call, Res.ok.injEq] at h1
      rw [lineText, fresh]
      subst h1
      refine ih _ _ _ h2 ?_ ?_
      · simp [appendChar]
      · obtain ⟨p, hp⟩ := hs
        exact ⟨p, by simp [appendChar, ← hp]⟩
    | newline =>
      rw [call, Res.ok.injEq] at h1
      rw [lineText, fresh]
      subst h1
      exact ih _ _ [] h2 rfl List.nil_suffix
    | line t =>
      rw [call, Res.ok.injEq] at h1
      rw [lineText, fresh]
      subst h1
      exact ih _ _ [] h2 rfl List.nil_suffix
    | indented t =>
      rw [call] at h1
      rw [lineText, fresh]
      obtain ⟨n, hn⟩ := indented_inv h1
      subst hn
      exact ih _ _ t h2 rfl (List.suffix_append _ _)
    | indentedLine t =>
      rw [call, appendIndentedLine] at h1
      rw [lineText, fresh]
      obtain ⟨a, ha, hb⟩ := bind_ok_inv h1
      rw [Res.ok.injEq] at hb
      subst hb
      exact ih _ _ [] h2 rfl List.nil_suffix
    | up =>
      rw [call, Res.ok.injEq] at h1
      rw [lineText, fresh]
      subst h1
      exact ih (upIndent s) _ _ h2 hc hs
    | down =>
      rw [call, Res.ok.injEq] at h1
      rw [lineText, fresh]
      subst h1
      exact ih (downIndent s) _ _ h2 hc hs

/-- **C123**, the formatter: after any sequence of calls on a new formatter, `CharactersAddedToLine` says whether the current line has text beside its indentation, `IsOnNewline` whether a line has just been
ended (not so in a new formatter). -/
theorem C123_flags (nl : WStr) (l : List Call) (s : St) (h : calls nl initial l = .ok s) :
    (s.chars = true ↔ lineText l [] ≠ []) ∧ (s.onNewline = fresh l false) ∧ lineText l [] <:+ s.out := by
  obtain ⟨h1, h2, h3⟩ := calls_inv nl l initial s [] h rfl List.nil_suffix
  refine ⟨?_, h2, h3⟩
  rw [h1]
  cases lineText l [] <;> simp

example : ∃ s, calls [10] initial [.line [65], .up, .indented [], .text [66], .char 67] = .ok s ∧
    lineText [.line [65], .up, .indented [], .text [66], .char 67] [] = [66, 67] ∧ s.out = [65, 10, 9, 66, 67] := ⟨_, rfl, rfl, rfl⟩

/-! ### Specification: the text of expressions and statements -/

mutual
/-- The text of an instruction whose value is used. -/
def valueText : I → WStr
  | .text t => t
  | .nop => []
  | .seq a b => valueText a ++ valueText b
  | .cond c t f => [40] ++ flat c ++ (w " ? (" ++ valueText t ++ w ") : (" ++ valueText f ++ w ")") ++ [41]
  | .block _ => []
  | .done => []
  | .stmt _ _ => []
/-- The same without the outer parentheses of a conditional: `c ? (t) : (f)`, where `c` has none either (see C60). -/
def flat : I → WStr
  | .cond c t f => flat c ++ (w " ? (" ++ valueText t ++ w ") : (" ++ valueText f ++ w ")")
  | .text t => t
  | .nop => []
  | .seq a b => valueText a ++ valueText b
  | .block _ => []
  | .done => []
  | .stmt _ _ => []
end

/-- The condition between the parentheses of an `if` statement: for a conditional, its innermost condition (this is wrong, see C104). -/
def testText : I → WStr
  | .cond c _ _ => testText c
  | x => valueText x

/-- Something whose value can be used. -/
def Val : I → Prop
  | .text _ => True
  | .nop => True
  | .seq a b => Val a ∧ Val b
  | .cond c t f => Val c ∧ Val t ∧ Val f
  | _ => False

/-- The text begins with that of a conditional. -/
def lead : I → Bool
  | .seq a b => lead a || (valueText a).isEmpty && lead b
  | .cond _ _ _ => true
  | _ => false

/-- The instructions of a block. -/
def isSeq : I → Bool
  | .done => true
  | .stmt _ _ => true
  | _ => false

/-- Statements: `if`, blocks, and expressions that do not begin with a conditional. -/
def Stm : I → Prop
  | .cond c t f => Val c ∧ (Stm t ∧ isSeq t = false) ∧ Stm f ∧ isSeq f = false
  | .block b => Stm b ∧ isSeq b = true
  | .done => True
  | .stmt a rest => (Stm a ∧ isSeq a = false) ∧ Stm rest ∧ isSeq rest = true
  | .seq a b => Val a ∧ Val b ∧ lead (.seq a b) = false
  | .text _ => True
  | .nop => True

/-- `;` after an expression with text. -/
def semi : I → WStr
  | .cond _ _ _ => []
  | .block _ => []
  | x => if (valueText x).isEmpty then [] else [59]

/-- The C++ statement(s) for a statement, without the `;`. -/
def body : I → WStr
  | .cond c t f => w "if (" ++ testText c ++ w "){" ++ (body t ++ if notBlock t then [59] else []) ++ w "}" ++
      (if f = .nop then [] else w "else {" ++ (body f ++ if notBlock f then [59] else []) ++ w "}")
  | .block b => body b
  | .done => []
  | .stmt a rest => body a ++ semi a ++ body rest
  | .text t => t
  | .nop => []
  | .seq a b => valueText (.seq a b)

/-- Without tabs and line ends, which are white space in C++ (the texts of literals contain none, C54). -/
def squeeze (t : WStr) : WStr := t.filter fun c => c ≠ 9 ∧ c ≠ 10 ∧ c ≠ 13

/-! ### Proofs -/

theorem squeeze_append (a b : WStr) : squeeze (a ++ b) = squeeze a ++ squeeze b := List.filter_append ..

theorem squeeze_tabs (n : Nat) : squeeze (List.replicate n 9) = [] := by
  unfold squeeze
  rw [List.filter_eq_nil_iff]
  intro a ha
  rw [(List.mem_replicate.1 ha).2]
  decide

/-- In the middle of a line. -/
def Mid (s : St) : Prop := s.chars = true ∧ s.onNewline = false
/-- The state after printing `t` in the middle of a line. -/
def plus (s : St) (t : WStr) : St := { s with out := s.out ++ t }

theorem plus_nil (s : St) : plus s [] = s := by simp [plus]
theorem plus_plus (s : St) (a b : WStr) : plus (plus s a) b = plus s (a ++ b) := by simp [plus]
theorem plus_mid {s : St} (h : Mid s) (t : WStr) : Mid (plus s t) := h
theorem append_mid {s : St} (h : Mid s) (t : WStr) : append s t = plus s t := by
  obtain ⟨h1, h2⟩ := h
  cases s
  simp_all [append, plus]

theorem qm_eq : qm = w " ? (" := by decide +kernel
theorem colon_eq : colon = w ") : (" := by decide +kernel
theorem rp_eq : rp = w ")" := by decide +kernel

theorem mid_both (nl : WStr) : ∀ (i : I), Val i → ∀ s, Mid s →
    go nl .visit i s = .ok (plus s (valueText i)) ∧ go nl (.build true) i s = .ok (plus s (flat i)) := by
  intro i
  induction i with
  | text t => intro _ s h; simp only [go, valueText, flat, append_mid h, and_self]
  | nop => intro _ s h; simp only [go, valueText, flat, plus_nil, and_self]
  | seq a b iha ihb =>
    intro hv s h
    simp only [go, valueText, flat, (iha hv.1 s h).1, Res.bind_ok, (ihb hv.2 _ (plus_mid h _)).1, plus_plus, and_self]
  | cond c t f ihc iht ihf =>
    intro hv s h
    have key : ∀ s, Mid s → (go nl (.build true) c s >>= fun s => go nl .visit t (append s qm) >>= fun s => go nl .visit f (append s colon) >>= fun s => .ok (append s rp))
        = .ok (plus s (flat (.cond c t f))) := by
      intro s h
      rw [(ihc hv.1 s h).2]
      simp only [Res.bind_ok, append_mid (plus_mid h _), plus_plus]
      rw [(iht hv.2.1 _ (plus_mid h _)).1]
      simp only [Res.bind_ok, append_mid (plus_mid h _), plus_plus]
      rw [(ihf hv.2.2 _ (plus_mid h _)).1]
      simp only [Res.bind_ok, append_mid (plus_mid h _), plus_plus]
      rw [flat, qm_eq, colon_eq, rp_eq]
      simp only [List.append_assoc]
    constructor
    · rw [go, if_pos h.1, append_mid h]
      have hm := plus_mid h [40]
      rw [(ihc hv.1 _ hm).2]
      simp only [Res.bind_ok, append_mid (plus_mid h _), plus_plus]
      rw [(iht hv.2.1 _ (plus_mid h _)).1]
      simp only [Res.bind_ok, append_mid (plus_mid h _), plus_plus]
      rw [(ihf hv.2.2 _ (plus_mid h _)).1]
      simp only [Res.bind_ok, append_mid (plus_mid h _), plus_plus]
      rw [valueText, qm_eq, colon_eq, rp_eq]
      simp only [List.append_assoc]
      rfl
    · rw [go]
      simp only [if_true]
      exact key s h
  | block b _ => intro hv; exact hv.elim
  | done => intro hv; exact hv.elim
  | stmt a r _ _ => intro hv; exact hv.elim

/-- **C123**, values: wherever a line has text already, an instruction whose value is used is written as an expression, the conditionals in it as `c ? (t) : (f)`. -/
theorem C123_value (nl : WStr) (i : I) (hv : Val i) (s : St) (h : s.chars = true) (h2 : s.onNewline = false) :
    go nl .visit i s = .ok { s with out := s.out ++ valueText i } := (mid_both nl i hv s ⟨h, h2⟩).1

theorem test_mid (nl : WStr) : ∀ (i : I), Val i → ∀ s, Mid s → go nl (.build false) i s = .ok (plus s (testText i)) := by
  intro i
  induction i with
  | text t => intro _ s h; simp only [go, testText, valueText, append_mid h]
  | nop => intro _ s h; simp only [go, testText, valueText, plus_nil]
  | seq a b iha ihb =>
    intro hv s h
    have := (mid_both nl (.seq a b) hv s h).1
    rw [go] at this ⊢
    exact this
  | cond c t f ihc iht ihf =>
    intro hv s h
    rw [go, ihc hv.1 s h, testText]
    rfl
  | block b _ => intro hv; exact hv.elim
  | done => intro hv; exact hv.elim
  | stmt a r _ _ => intro hv; exact hv.elim

/-- At the start of a line, after the indentation. -/
def Start (s : St) : Prop := s.chars = false ∧ s.onNewline = false
/-- The state after printing `t` there. -/
def first (s : St) (t : WStr) : St := { s with out := s.out ++ t, chars := !t.isEmpty }

theorem first_start {s : St} (h : Start s) : first s [] = s := by
  obtain ⟨h1, h2⟩ := h
  cases s
  simp_all [first]
theorem append_start {s : St} (h : Start s) (t : WStr) : append s t = first s t := by
  obtain ⟨h1, h2⟩ := h
  cases s
  cases t <;> simp_all [append, first]
theorem first_mid {s : St} (h : Start s) {t : WStr} (ht : t ≠ []) : Mid (first s t) := ⟨by cases t <;> simp_all [first], h.2⟩
theorem first_plus (s : St) {a : WStr} (ha : a ≠ []) (b : WStr) : plus (first s a) b = first s (a ++ b) := by
  cases a with
  | nil => exact absurd rfl ha
  | cons x y => simp [first, plus]

theorem start_val (nl : WStr) : ∀ (i : I), Val i → lead i = false → ∀ s, Start s → go nl .visit i s = .ok (first s (valueText i)) := by
  intro i
  induction i with
  | text t => intro _ _ s h; simp only [go, valueText, append_start h]
  | nop => intro _ _ s h; simp only [go, valueText, first_start h]
  | seq a b iha ihb =>
    intro hv hl s h
    simp only [lead, Bool.or_eq_false_iff, Bool.and_eq_false_iff] at hl
    simp only [go, valueText, iha hv.1 hl.1 s h, Res.bind_ok]
    cases ha : valueText a with
    | nil =>
      rw [first_start h, List.nil_append]
      refine ihb hv.2 ?_ s h
      rcases hl.2 with h' | h'
      · rw [ha] at h'; cases h'
      · exact h'
    | cons x y =>
      rw [← ha]
      have hne : valueText a ≠ [] := by rw [ha]; exact List.cons_ne_nil _ _
      rw [(mid_both nl b hv.2 _ (first_mid h hne)).1, first_plus s hne]
  | cond c t f _ _ _ => intro _ hl; cases hl
  | block b _ => intro hv; exact hv.elim
  | done => intro hv; exact hv.elim
  | stmt a r _ _ => intro hv; exact hv.elim

theorem open_inv {nl : WStr} (hn : squeeze nl = []) {s s' : St} (h : openBrace nl s = .ok s') :
    squeeze s'.out = squeeze s.out ++ [123] ∧ s'.chars = false ∧ s'.onNewline = true := by
  unfold openBrace at h
  obtain ⟨a, ha, hb⟩ := bind_ok_inv h
  rw [Res.ok.injEq] at hb
  subst hb
  unfold appendIndentedLine at ha
  obtain ⟨b, hb, hc⟩ := bind_ok_inv ha
  obtain ⟨n, hn'⟩ := indent_inv hb
  rw [Res.ok.injEq] at hc
  subst hc
  subst hn'
  refine ⟨?_, rfl, rfl⟩
  by_cases hl : s.onNewline = true
  · simp only [hl, if_true, upIndent, appendLine, newline, append, squeeze_append, squeeze_tabs, hn, List.append_nil]
    rfl
  · simp only [hl, upIndent, appendLine, newline, append, squeeze_append, squeeze_tabs, hn, List.append_nil]
    simp [squeeze_append, hn]
    rfl

theorem c59 (l : WStr) : squeeze (59 :: l) = 59 :: squeeze l := by simp [squeeze]
theorem c125 (l : WStr) : squeeze (125 :: l) = 125 :: squeeze l := by simp [squeeze]

theorem close_inv {nl : WStr} (hn : squeeze nl = []) {s s' : St} (h : closeBrace nl s false = .ok s') :
    squeeze s'.out = squeeze s.out ++ [125] ∧ s'.chars = false ∧ s'.onNewline = true := by
  unfold closeBrace at h
  obtain ⟨a, ha, hb⟩ := bind_ok_inv h
  obtain ⟨n, hn'⟩ := indented_inv ha
  rw [Res.ok.injEq] at hb
  subst hb
  subst hn'
  refine ⟨?_, rfl, rfl⟩
  by_cases hl : s.onNewline = true
  · simp [hl, downIndent, newline, append, squeeze_append, squeeze_tabs, c125, hn]
  · simp [hl, downIndent, newline, append, squeeze_append, squeeze_tabs, c125, hn]

theorem blank_inv {s s' : St} {t : WStr} (h : appendIndented s t = .ok s') : squeeze s'.out = squeeze s.out ++ squeeze t ∧ s'.onNewline = false ∧ s'.chars = !t.isEmpty := by
  obtain ⟨n, hn⟩ := indented_inv h
  subst hn
  exact ⟨by simp [squeeze_append, squeeze_tabs], rfl, rfl⟩

theorem brace_inv {nl : WStr} (hn : squeeze nl = []) (t : I)
    (ih : ∀ s s', Start s → go nl .visit t s = .ok s' → squeeze s'.out = squeeze s.out ++ squeeze (body t)) {s s3 s' : St}
    (h1 : (openBrace nl s >>= fun s => appendIndented s [] >>= fun s => go nl .visit t s) = .ok s3)
    (h2 : closeBrace nl (if notBlock t then append s3 [59] else s3) false = .ok s') :
    squeeze s'.out = squeeze s.out ++ squeeze (w "{" ++ (body t ++ if notBlock t then [59] else []) ++ w "}") ∧ s'.chars = false ∧ s'.onNewline = true := by
  obtain ⟨s1, e1, h1⟩ := bind_ok_inv h1
  obtain ⟨s2, e2, e3⟩ := bind_ok_inv h1
  obtain ⟨o1, o2, o3⟩ := open_inv hn e1
  obtain ⟨b1, b2, b3⟩ := blank_inv e2
  have g := ih s2 s3 ⟨b3, b2⟩ e3
  obtain ⟨c1, c2, c3⟩ := close_inv hn h2
  refine ⟨?_, c2, c3⟩
  rw [c1]
  have e123 : squeeze (w "{") = [123] := by decide +kernel
  have e125 : squeeze (w "}") = [125] := by decide +kernel
  have e59 : squeeze [59] = [59] := by decide +kernel
  have e0 : squeeze [] = [] := rfl
  cases hb : notBlock t with
  | true =>
    simp only [if_true, append, squeeze_append, g, b1, o1, e123, e125, e0, List.append_nil, List.append_assoc]
  | false =>
    simp only [Bool.false_eq_true, if_false, squeeze_append, g, b1, o1, e123, e125, e0, List.append_nil, List.append_assoc]

theorem if_mid (s : St) : Mid (append (append s [105, 102, 32]) [40]) := ⟨rfl, rfl⟩

theorem semi_not {i : I} (h1 : ∀ c t f, i ≠ .cond c t f) (h2 : ∀ b, i ≠ .block b) : (semi i).isEmpty = (valueText i).isEmpty := by
  cases i <;> simp_all [semi] <;> split <;> simp_all

theorem stm_ok {nl : WStr} (hn : squeeze nl = []) : ∀ (i : I), Stm i → ∀ s s', s.chars = false → (isSeq i = false → s.onNewline = false) →
    go nl .visit i s = .ok s' → squeeze s'.out = squeeze s.out ++ squeeze (body i) ∧ s'.chars = !(semi i).isEmpty := by
  intro i
  induction i with
  | text t =>
    intro _ s s' h1 h2 h
    rw [start_val nl (.text t) trivial rfl s ⟨h1, h2 rfl⟩, Res.ok.injEq] at h
    subst h
    refine ⟨by simp [first, squeeze_append, body, valueText], ?_⟩
    rw [semi_not (by simp) (by simp)]; rfl
  | nop =>
    intro _ s s' h1 h2 h
    rw [start_val nl .nop trivial rfl s ⟨h1, h2 rfl⟩, Res.ok.injEq] at h
    subst h
    exact ⟨by simp [first, body, valueText]; rfl, rfl⟩
  | seq a b _ _ =>
    intro hs s s' h1 h2 h
    rw [start_val nl (.seq a b) ⟨hs.1, hs.2.1⟩ hs.2.2 s ⟨h1, h2 rfl⟩, Res.ok.injEq] at h
    subst h
    refine ⟨by simp [first, squeeze_append, body], ?_⟩
    rw [semi_not (by simp) (by simp)]; rfl
  | block b ih =>
    intro hs s s' h1 h2 h
    rw [go] at h
    obtain ⟨g1, g2⟩ := ih hs.1 s s' h1 (fun e => by rw [hs.2] at e; cases e) h
    refine ⟨g1, ?_⟩
    rw [g2]
    have := hs.2
    cases b <;> simp_all [isSeq, semi, valueText]
  | done =>
    intro _ s s' h1 _ h
    rw [go, Res.ok.injEq] at h
    subst h
    exact ⟨by simp [body, squeeze], h1⟩
  | stmt a r iha ihr =>
    intro hs s s' h1 _ h
    rw [go] at h
    obtain ⟨s1, e1, h⟩ := bind_ok_inv h
    obtain ⟨s2, e2, h⟩ := bind_ok_inv h
    have hst : Start s1 ∧ squeeze s1.out = squeeze s.out := by
      by_cases hl : s.onNewline = true
      · rw [if_pos hl] at e1
        obtain ⟨b1, b2, b3⟩ := blank_inv e1
        exact ⟨⟨b3, b2⟩, by simpa [squeeze] using b1⟩
      · rw [if_neg hl, Res.ok.injEq] at e1
        subst e1
        exact ⟨⟨h1, by simpa using hl⟩, rfl⟩
    obtain ⟨g1, g2⟩ := iha hs.1.1 s1 s2 hst.1.1 (fun _ => hst.1.2) e2
    obtain ⟨r1, r2⟩ := ihr hs.2.1 _ s' rfl (fun e => by rw [hs.2.2] at e; cases e) h
    constructor
    · rw [r1, body]
      have key : squeeze (appendLine nl (if s2.chars = true then append s2 [59] else s2) []).out = squeeze s.out ++ squeeze (body a ++ semi a) := by
        rw [squeeze_append (body a)]
        cases hc : (semi a).isEmpty with
        | true =>
          rw [hc] at g2
          have : semi a = [] := by simpa using hc
          simp [g2, appendLine, newline, append, squeeze_append, hn, g1, hst.2, this]
          rfl
        | false =>
          rw [hc] at g2
          have : semi a = [59] := by
            cases a <;> simp_all [semi]
          simp [g2, appendLine, newline, append, squeeze_append, c59, hn, g1, hst.2, this]
          rfl
      rw [key, squeeze_append (body a ++ semi a), List.append_assoc]
    · rw [r2]
      have := hs.2.2
      cases r <;> simp_all [isSeq, semi, valueText]
  | cond c t f _ iht ihf =>
    intro hs s s' h1 h2 h
    obtain ⟨hvc, ⟨hst, hqt⟩, hsf, hqf⟩ := hs
    rw [go, if_neg (by rw [h1]; decide)] at h
    rw [test_mid nl c hvc _ (if_mid s)] at h
    simp only [Res.bind_ok] at h
    obtain ⟨a1, e1, h⟩ := bind_ok_inv h
    obtain ⟨a2, e2, h⟩ := bind_ok_inv h
    obtain ⟨a3, e3, h⟩ := bind_ok_inv h
    obtain ⟨a4, e4, h⟩ := bind_ok_inv h
    have b := brace_inv hn t (fun s s' hS hg => (iht hst s s' hS.1 (fun _ => hS.2) hg).1) (s3 := a3) (by rw [e1]; simp only [Res.bind_ok]; rw [e2]; simp only [Res.bind_ok]; exact e3) e4
    have hd : squeeze (append (plus (append (append s [105, 102, 32]) [40]) (testText c)) rp).out = squeeze s.out ++ squeeze (w "if (" ++ testText c ++ w ")") := by
      have : w "if (" = [105, 102, 32] ++ [40] := by decide +kernel
      rw [this, ← rp_eq]
      simp [append, plus, squeeze_append]
    have hsemi : semi (.cond c t f) = [] := rfl
    have w1 : w "){" = w ")" ++ w "{" := by decide +kernel
    by_cases hf : f = .nop
    · rw [if_pos hf, Res.ok.injEq] at h
      subst h
      refine ⟨?_, by rw [b.2.1, hsemi]; rfl⟩
      rw [b.1, hd, body, if_pos hf, List.append_nil, w1]
      simp only [squeeze_append, List.append_assoc]
    · rw [if_neg hf] at h
      obtain ⟨a5, e5, h⟩ := bind_ok_inv h
      obtain ⟨a6, e6, h⟩ := bind_ok_inv h
      obtain ⟨a7, e7, h⟩ := bind_ok_inv h
      obtain ⟨a8, e8, h⟩ := bind_ok_inv h
      have b' := brace_inv hn f (fun s s' hS hg => (ihf hsf s s' hS.1 (fun _ => hS.2) hg).1) (s3 := a8) (by rw [e6]; simp only [Res.bind_ok]; rw [e7]; simp only [Res.bind_ok]; exact e8) h
      obtain ⟨c1, _, _⟩ := blank_inv e5
      refine ⟨?_, by rw [b'.2.1, hsemi]; rfl⟩
      have w2 : w "else {" = [101, 108, 115, 101, 32] ++ w "{" := by decide +kernel
      rw [b'.1, c1, b.1, hd, body, if_neg hf, w1, w2]
      simp only [squeeze_append, List.append_assoc]

/-- **C123** (partial: no statement begins with a conditional whose value is used). The instructions of a block are written as statements, whenever the formatter does not run out of indentation (C56): an `if` in
statement position as `if (test){...}else {...}`, every other instruction with text as the expression followed by one `;`, an instruction without text as nothing; up to white space.
Missing: statements that begin with a conditional (`C123_start_refuted`); the test of an `if` whose condition is itself a conditional is wrong (C104). -/
theorem C123_block_partial (nl : WStr) (hn : squeeze nl = []) (b : I) (hb : Stm (.block b)) (s s' : St) (h1 : s.chars = false) (h : go nl .visit b s = .ok s') :
    squeeze s'.out = squeeze s.out ++ squeeze (body b) :=
  (stm_ok hn b hb.1 s s' h1 (fun e => by rw [hb.2] at e; cases e) h).1

/-- `if (b) { x = c ? (1) : (2); } else return; f();` -/
def sample : I := .stmt (.cond (.text (w "b")) (.block (.stmt (.seq (.text (w "x = ")) (.cond (.text (w "c")) (.text (w "1")) (.text (w "2")))) .done)) (.text (w "return")))
  (.stmt .nop (.stmt (.text (w "f()")) .done))
example : Stm (.block sample) ∧ ∃ s', go [10] .visit sample { initial with onNewline := true } = .ok s' ∧
    s'.out = w "if (b)\n{\n\tx = (c ? (1) : (2));\n}\nelse \n{\n\treturn;\n}\n\n\nf();\n" := by
  have hin : Stm (.seq (.text (w "x = ")) (.cond (.text (w "c")) (.text (w "1")) (.text (w "2")))) := ⟨trivial, ⟨trivial, trivial, trivial⟩, by decide +kernel⟩
  refine ⟨⟨⟨⟨⟨trivial, ⟨⟨⟨⟨hin, rfl⟩, trivial, rfl⟩, rfl⟩, rfl⟩, trivial, rfl⟩, rfl⟩, ⟨⟨trivial, rfl⟩, ⟨⟨trivial, rfl⟩, trivial, rfl⟩, rfl⟩, rfl⟩, rfl⟩, ?_⟩
  refine ⟨{ initial with onNewline := true, out := w "if (b)\n{\n\tx = (c ? (1) : (2));\n}\nelse \n{\n\treturn;\n}\n\n\nf();\n" }, ?_, rfl⟩
  decide +kernel

/-- The text printed. -/
def printed (r : Res St) : WStr := match r with | .ok s => s.out | _ => []

theorem bind_pre {x : Res St} {f : St → Res St} {a s' : St} (h : (x >>= f) = .ok s') (h1 : ∀ b, x = .ok b → a.out <+: b.out) (h2 : ∀ b, f b = .ok s' → b.out <+: s'.out) : a.out <+: s'.out := by
  obtain ⟨b, e1, e2⟩ := bind_ok_inv h
  exact (h1 b e1).trans (h2 b e2)

theorem append_pre (s : St) (t : WStr) : s.out <+: (append s t).out := List.prefix_append _ _
theorem indented_pre {s s' : St} {t : WStr} (h : appendIndented s t = .ok s') : s.out <+: s'.out := by
  obtain ⟨n, hn⟩ := indented_inv h
  subst hn
  simp only [List.append_assoc]
  exact List.prefix_append _ _
theorem line_pre (nl : WStr) (s : St) : s.out <+: (if s.onNewline then s else newline nl s).out := by
  split
  · exact List.prefix_refl _
  · exact List.prefix_append _ _
theorem open_pre {nl : WStr} {s s' : St} (h : openBrace nl s = .ok s') : s.out <+: s'.out := by
  unfold openBrace appendIndentedLine at h
  refine (line_pre nl s).trans ?_
  obtain ⟨b, e1, e2⟩ := bind_ok_inv h
  obtain ⟨c, e3, e4⟩ := bind_ok_inv e1
  obtain ⟨n, hn⟩ := indent_inv e3
  rw [Res.ok.injEq] at e2 e4
  subst e2; subst e4; subst hn
  simp only [upIndent, appendLine, newline, append, List.append_assoc]
  exact List.prefix_append _ _
theorem close_pre {nl : WStr} {s s' : St} (h : closeBrace nl s false = .ok s') : s.out <+: s'.out := by
  unfold closeBrace at h
  refine (line_pre nl s).trans ?_
  obtain ⟨b, e1, e2⟩ := bind_ok_inv h
  obtain ⟨n, hn⟩ := indented_inv e1
  rw [Res.ok.injEq] at e2
  subst e2; subst hn
  simp only [Bool.false_eq_true, if_false, downIndent, newline, append, List.append_assoc]
  exact List.prefix_append _ _
theorem semi_pre (s : St) (b : Bool) (t : WStr) : s.out <+: (if b then append s t else s).out := by
  split
  · exact append_pre _ _
  · exact List.prefix_refl _

/-- A visit only adds text. -/
theorem go_pre (nl : WStr) : ∀ (i : I) (m : Mode) (s s' : St), go nl m i s = .ok s' → s.out <+: s'.out := by
  intro i
  induction i with
  | text t => intro m s s' h; rw [go, Res.ok.injEq] at h; subst h; exact append_pre _ _
  | nop => intro m s s' h; rw [go, Res.ok.injEq] at h; subst h; exact List.prefix_refl _
  | seq a b iha ihb => intro m s s' h; rw [go] at h; exact bind_pre h (iha _ _) (fun b => ihb _ b _)
  | block b ih => intro m s s' h; rw [go] at h; exact ih _ _ _ h
  | done => intro m s s' h; rw [go, Res.ok.injEq] at h; subst h; exact List.prefix_refl _
  | stmt a r iha ihr =>
    intro m s s' h
    rw [go] at h
    refine bind_pre h (fun b e => ?_) fun b e => bind_pre e (iha _ _) fun c e => ?_
    · split at e
      · exact indented_pre e
      · rw [Res.ok.injEq] at e; subst e; exact List.prefix_refl _
    · exact ((semi_pre c c.chars _).trans (by simp only [appendLine, newline, append, List.append_assoc]; exact List.prefix_append _ _)).trans (ihr _ _ _ e)
  | cond c t f ihc iht ihf =>
    intro m s s' h
    have tail : ∀ (b s' : St) (k : St → St), (∀ x : St, x.out <+: (k x).out) →
        (go nl .visit t (append b qm) >>= fun s => go nl .visit f (append s colon) >>= fun s => .ok (k s)) = .ok s' → b.out <+: s'.out := by
      intro b s' k hk e
      refine (append_pre b qm).trans (bind_pre e (iht _ _) fun d e => (append_pre d colon).trans (bind_pre e (ihf _ _) fun g e => ?_))
      rw [Res.ok.injEq] at e; subst e; exact hk g
    cases m with
    | build just =>
      rw [go] at h
      refine bind_pre h (ihc _ _) fun b e => ?_
      split at e
      · exact tail b s' (fun x => append x rp) (fun x => append_pre x rp) e
      · rw [Res.ok.injEq] at e; subst e; exact List.prefix_refl _
    | visit =>
      rw [go] at h
      split at h
      · exact (append_pre s [40]).trans (bind_pre h (ihc _ _) fun b e => tail b s' (fun x => append (append x rp) rp) (fun x => (append_pre x rp).trans (append_pre _ rp)) e)
      · refine ((append_pre s _).trans (append_pre _ [40])).trans (bind_pre h (ihc _ _) fun b e => (append_pre b rp).trans (bind_pre e (fun _ => open_pre) fun b e => bind_pre e (fun _ => indented_pre) fun b e =>
          bind_pre e (iht _ _) fun b e => (semi_pre b _ [59]).trans (bind_pre e (fun _ => close_pre) fun b e => ?_)))
        split at e
        · rw [Res.ok.injEq] at e; subst e; exact List.prefix_refl _
        · exact bind_pre e (fun _ => indented_pre) fun b e => bind_pre e (fun _ => open_pre) fun b e => bind_pre e (fun _ => indented_pre) fun b e =>
            bind_pre e (ihf _ _) fun b e => (semi_pre b _ [59]).trans (close_pre e)

theorem lead_head : ∀ (i : I), lead i = true → (valueText i).head? = some 40 := by
  intro i
  induction i with
  | seq a b iha ihb =>
    intro h
    simp only [lead, Bool.or_eq_true, Bool.and_eq_true] at h
    rw [valueText]
    rcases h with h | ⟨h1, h2⟩
    · have := iha h
      cases hx : valueText a with
      | nil => rw [hx] at this; cases this
      | cons x y => rw [hx] at this; exact this
    · rw [List.isEmpty_iff.1 h1]; exact ihb h2
  | cond c t f _ _ _ => intro _; rw [valueText]; rfl
  | text t => intro h; cases h
  | nop => intro h; cases h
  | block b _ => intro h; cases h
  | done => intro h; cases h
  | stmt a r _ _ => intro h; cases h

theorem lead_if (nl : WStr) : ∀ (i : I), Val i → lead i = true → ∀ s s', Start s → go nl .visit i s = .ok s' → (s.out ++ [105]) <+: s'.out := by
  intro i
  induction i with
  | seq a b iha ihb =>
    intro hv hl s s' h e
    rw [go] at e
    obtain ⟨s1, e1, e2⟩ := bind_ok_inv e
    simp only [lead, Bool.or_eq_true, Bool.and_eq_true] at hl
    cases ha : lead a with
    | true => exact (iha hv.1 ha s s1 h e1).trans (go_pre nl b _ _ _ e2)
    | false =>
      rw [ha] at hl
      rcases hl with hl | ⟨h1, h2⟩
      · cases hl
      · rw [start_val nl a hv.1 ha s h, Res.ok.injEq, List.isEmpty_iff.1 h1, first_start h] at e1
        subst e1
        exact ihb hv.2 h2 s s' h e2
  | cond c t f _ _ _ =>
    intro hv _ s s' h e
    rw [go, if_neg (by rw [h.1]; decide)] at e
    obtain ⟨s1, e1, e⟩ := bind_ok_inv e
    have hp : (append (append s [105, 102, 32]) [40]).out <+: s'.out := by
      have e' : go nl .visit (.cond c t f) s = .ok s' := by
        rw [go, if_neg (by rw [h.1]; decide), e1]; exact e
      refine (go_pre nl c _ _ _ e1).trans ((append_pre s1 rp).trans (bind_pre e (fun _ => open_pre) fun b e => bind_pre e (fun _ => indented_pre) fun b e =>
          bind_pre e (go_pre nl t _ _) fun b e => (semi_pre b _ [59]).trans (bind_pre e (fun _ => close_pre) fun b e => ?_)))
      split at e
      · rw [Res.ok.injEq] at e; subst e; exact List.prefix_refl _
      · exact bind_pre e (fun _ => indented_pre) fun b e => bind_pre e (fun _ => open_pre) fun b e => bind_pre e (fun _ => indented_pre) fun b e =>
          bind_pre e (go_pre nl f _ _) fun b e => (semi_pre b _ [59]).trans (close_pre e)
    refine List.IsPrefix.trans ?_ hp
    simp only [append, List.append_assoc]
    exact ⟨[102, 32] ++ [40], by simp⟩
  | text t => intro _ h; cases h
  | nop => intro _ h; cases h
  | block b _ => intro _ h; cases h
  | done => intro _ h; cases h
  | stmt a r _ _ => intro _ h; cases h

/-- **C123** (partial, but exact): an expression statement is written as an expression exactly when it does not begin with a conditional. -/
theorem C123_start_partial (nl : WStr) (i : I) (hv : Val i) (s s' : St) (h1 : s.chars = false) (h2 : s.onNewline = false) (h : go nl .visit i s = .ok s') :
    s'.out = s.out ++ valueText i ↔ lead i = false := by
  constructor
  · intro he
    cases hl : lead i with
    | false => rfl
    | true =>
      obtain ⟨r, hr⟩ := lead_if nl i hv hl s s' ⟨h1, h2⟩ h
      have hh := lead_head i hl
      rw [he, List.append_assoc, List.append_cancel_left_eq] at hr
      rw [← hr] at hh
      cases hh
  · intro hl
    rw [start_val nl i hv hl s ⟨h1, h2⟩, Res.ok.injEq] at h
    subst h
    rfl

example : let i : I := .seq (.text (w "x->f(")) (.seq (.cond (.text (w "b")) (.text (w "1")) (.text (w "2"))) (.text (w ")")))
    Val i ∧ lead i = false ∧ ∃ s', go [10] .visit i initial = .ok s' := ⟨⟨trivial, ⟨trivial, trivial, trivial⟩, trivial⟩, by decide +kernel, _, rfl⟩

/-- **C123** is false of the code: `(b ? x : y).f();` as a statement becomes an `if` statement followed by `->f();`. -/
theorem C123_start_refuted : let i : I := .seq (.cond (.text (w "b")) (.text (w "x")) (.text (w "y"))) (.text (w "->f()"))
    valueText i = w "(b ? (x) : (y))->f()" ∧
    printed (go [10] .visit (.stmt i .done) { initial with onNewline := true }) = w "if (b)\n{\n\tx;\n}\nelse \n{\n\ty;\n}\n->f();\n" := by
  decide +kernel

end Verif.Line
