import Verif.FmtModel
import Verif.CppLexSpec
/-!
# C56, C80, C81: layout, namespaces and files written by the formatter
-/
namespace Verif.FmtLayoutProps
open Verif.Fmt

/-! ## Specification: the text of a nested document -/

/-- What the visitors print: a line of text, or a brace block (optionally closed with "};") of nested documents. -/
inductive Doc
  | line (text : WStr)
  | block (semi : Bool) (body : List Doc)

/-- `d` tabs. -/
def tab (d : Nat) : WStr := List.replicate d 9

mutual
/-- The pretty-printed text of a document at nesting depth `d`. -/
def render (nl : WStr) (d : Nat) : Doc → WStr
  | .line t => tab d ++ t ++ nl
  | .block semi body => tab d ++ [123] ++ nl ++ renderAll nl (d + 1) body ++ tab d ++ [125] ++ (if semi then [59] else []) ++ nl
/-- The pretty-printed text of a sequence of documents. -/
def renderAll (nl : WStr) (d : Nat) : List Doc → WStr
  | [] => []
  | x :: xs => render nl d x ++ renderAll nl d xs
end

mutual
/-- Deepest indentation used by a document. -/
def depth : Doc → Nat
  | .line _ => 0
  | .block _ body => depthAll body
/-- Deepest indentation used by a sequence of documents that stands inside a block (so a line in it needs one more level). -/
def depthAll : List Doc → Nat
  | [] => 0
  | x :: xs => Nat.max (depth x + 1) (depthAll xs)
end

/-! ## The calls the visitors make -/

mutual
/-- The calls that print a document: `AppendIndentedLine`, or `AddOpenBrace`, the body, `AddCloseBrace`. -/
def emit (nl : WStr) (s : St) : Doc → Res St
  | .line t => appendIndentedLine nl s t
  | .block semi body => openBrace nl s >>= fun s => emitAll nl s body >>= fun s => closeBrace nl s semi
/-- The calls for a sequence of documents. -/
def emitAll (nl : WStr) (s : St) : List Doc → Res St
  | [] => .ok s
  | x :: xs => emit nl s x >>= fun s => emitAll nl s xs
end

/-- The formatter is at the start of a line at depth `d`. -/
def AtLine (s : St) (d : Nat) : Prop := s.onNewline = true ∧ s.chars = false ∧ s.indent = d

/-- The state after the text `t` was printed and the formatter is again at the start of a line. -/
def wrote (s : St) (t : WStr) : St := { s with out := s.out ++ t }

theorem tabs_take (d : Nat) (h : d ≤ 22) : tabs.take d = tab d := by
  unfold tabs tab; rw [List.take_replicate, Nat.min_eq_left h]

theorem indent_ok (s : St) (d : Nat) (hd : s.indent = d) (h : d ≤ 22) :
    indent s = .ok { s with out := s.out ++ tab d, onNewline := false, chars := false } := by
  unfold indent
  rw [if_pos (by omega)]
  have : s.indent.toNat = d := by omega
  rw [this, tabs_take d h]; rfl

/-- `Substring` throws as soon as more than 22 tabs are needed. -/
theorem indent_throw (s : St) (h : s.indent < 0 ∨ 22 < s.indent) : indent s = .throw .argumentOutOfRange := by
  unfold indent; rw [if_neg (by omega)]

theorem line_ok (nl : WStr) (s : St) (d : Nat) (h : AtLine s d) (hd : d ≤ 22) (t : WStr) :
    appendIndentedLine nl s t = .ok (wrote s (tab d ++ t ++ nl)) := by
  obtain ⟨h1, h2, h3⟩ := h
  unfold appendIndentedLine
  rw [indent_ok s d h3 hd]
  simp [appendLine, newline, append, wrote, h1, h2]

theorem open_ok (nl : WStr) (s : St) (d : Nat) (h : AtLine s d) (hd : d ≤ 22) :
    openBrace nl s = .ok (upIndent (wrote s (tab d ++ [123] ++ nl))) := by
  unfold openBrace
  simp only [h.1, if_true]
  rw [line_ok nl s d h hd]; rfl

theorem close_ok (nl : WStr) (s : St) (d : Nat) (h : AtLine s (d + 1)) (hd : d ≤ 22) (semi : Bool) :
    closeBrace nl s semi = .ok (downIndent (wrote s (tab d ++ [125] ++ (if semi then [59] else []) ++ nl))) := by
  obtain ⟨h1, h2, h3⟩ := h
  unfold closeBrace appendIndented
  simp only [h1, if_true]
  rw [indent_ok (downIndent s) d (by simp only [downIndent]; omega) hd]
  cases semi <;> simp [newline, append, wrote, downIndent, h1, h2]

theorem wrote_atLine {s : St} {d : Nat} (h : AtLine s d) (t : WStr) : AtLine (wrote s t) d := h
theorem wrote_wrote (s : St) (a b : WStr) : wrote (wrote s a) b = wrote s (a ++ b) := by simp [wrote]

mutual
theorem emit_ok (nl : WStr) (s : St) (d : Nat) (h : AtLine s d) (x : Doc) (hd : d + depth x ≤ 22) :
    emit nl s x = .ok (wrote s (render nl d x)) := by
  match x with
  | .line t => rw [emit, render]; exact line_ok nl s d h (by omega) t
  | .block semi body =>
    rw [emit, render, open_ok nl s d h (by omega)]
    simp only [Res.bind_ok]
    have h2 : AtLine (upIndent (wrote s (tab d ++ [123] ++ nl))) (d + 1) := ⟨h.1, h.2.1, by simp [upIndent, wrote, h.2.2]⟩
    rw [emitAll_ok nl _ (d + 1) h2 body (by simp only [depth] at hd; omega)]
    simp only [Res.bind_ok]
    rw [close_ok nl _ d (wrote_atLine h2 _) (by omega)]
    simp [wrote, upIndent, downIndent]
theorem emitAll_ok (nl : WStr) (s : St) (d : Nat) (h : AtLine s d) (xs : List Doc) (hd : d + depthAll xs ≤ 23) :
    emitAll nl s xs = .ok (wrote s (renderAll nl d xs)) := by
  match xs with
  | [] => simp [emitAll, renderAll, wrote]
  | x :: xs =>
    simp only [depthAll, Nat.max_def] at hd
    rw [emitAll, renderAll, emit_ok nl s d h x (by split at hd <;> omega)]
    simp only [Res.bind_ok]
    rw [emitAll_ok nl _ d (wrote_atLine h _) xs (by split at hd <;> omega), wrote_wrote]
end

theorem bind_throw_of {α β : Type} {x : Res α} {e : Exc} (h : x = .throw e) (f : α → Res β) : (x >>= f) = .throw e := by rw [h]; rfl

mutual
theorem emit_throw (nl : WStr) (s : St) (d : Nat) (h : AtLine s d) (x : Doc) (hd : 22 < d + depth x) :
    emit nl s x = .throw .argumentOutOfRange := by
  match x with
  | .line t =>
    rw [emit]
    exact bind_throw_of (indent_throw s (by have := h.2.2; simp only [depth] at hd; omega)) _
  | .block semi body =>
    rw [emit]
    by_cases h0 : 22 < d
    · unfold openBrace
      simp only [h.1, if_true]
      exact bind_throw_of (bind_throw_of (bind_throw_of (indent_throw s (by have := h.2.2; omega)) _) _) _
    · rw [open_ok nl s d h (by omega)]
      simp only [Res.bind_ok]
      have h2 : AtLine (upIndent (wrote s (tab d ++ [123] ++ nl))) (d + 1) := ⟨h.1, h.2.1, by simp [upIndent, wrote, h.2.2]⟩
      exact bind_throw_of (emitAll_throw nl _ (d + 1) h2 body (by simp only [depth] at hd; omega) (by omega)) _
theorem emitAll_throw (nl : WStr) (s : St) (d : Nat) (h : AtLine s d) (xs : List Doc) (hd : 23 < d + depthAll xs) (h0 : d ≤ 23) :
    emitAll nl s xs = .throw .argumentOutOfRange := by
  match xs with
  | [] => simp only [depthAll] at hd; omega
  | x :: xs =>
    simp only [depthAll, Nat.max_def] at hd
    rw [emitAll]
    by_cases hx : 22 < d + depth x
    · exact bind_throw_of (emit_throw nl s d h x hx) _
    · rw [emit_ok nl s d h x (by omega)]
      simp only [Res.bind_ok]
      exact emitAll_throw nl _ d (wrote_atLine h _) xs (by split at hd <;> omega) h0
end

/-- **C56**: a document whose deepest line needs at most 22 tabs is printed exactly as specified (indentation by nesting depth, one
brace per line, braces in pairs), and printing leaves the formatter at the start of a line at the same depth. -/
theorem C56_layout_partial (nl : WStr) (s : St) (d : Nat) (h : AtLine s d) (x : Doc) (hd : d + depth x ≤ 22) :
    ∃ s', emit nl s x = .ok s' ∧ s'.out = s.out ++ render nl d x ∧ AtLine s' d ∧ s'.ns = s.ns ∧ s'.disk = s.disk ∧ s'.file = s.file :=
  ⟨_, emit_ok nl s d h x hd, rfl, h, rfl, rfl, rfl⟩

/-- A method with an `if` block inside a class inside a namespace. -/
example : let s : St := { initial with onNewline := true }
    (emit (w "\n") s (.block true [.line (w "public:"), .block false [.line (w "x;"), .block false [.line (w "y;")]]])).bind
      (fun s' => .ok s'.out) = .ok (w "{\n\tpublic:\n\t{\n\t\tx;\n\t\t{\n\t\t\ty;\n\t\t}\n\t}\n};\n") := by decide +kernel

/-- **C56** refuted without the depth bound: the translation of anything nested deeper than 22 levels is abandoned with an
ArgumentOutOfRangeException. -/
theorem C56_depth_refuted (nl : WStr) (s : St) (d : Nat) (h : AtLine s d) (x : Doc) (hd : 22 < d + depth x) :
    emit nl s x = .throw .argumentOutOfRange := emit_throw nl s d h x hd

/-- `n` nested blocks. -/
def nest : Nat → Doc
  | 0 => .line (w "x;")
  | n + 1 => .block false [nest n]

example (nl : WStr) : emit nl { initial with onNewline := true } (nest 23) = .throw .argumentOutOfRange :=
  C56_depth_refuted nl _ 0 ⟨rfl, rfl, rfl⟩ _ (by decide +kernel)

/-! ## Arbitrary sequences of calls -/

/-- The public operations that print (Formatter.cs). -/
inductive Op
  | text (t : WStr) | newline | line (t : WStr) | indentedLine (t : WStr) | indented (t : WStr)
  | openBrace | closeBrace (semi : Bool) | nameSpace (v : WStr) | closeNamespace | name (n : WStr) | literal (t : WStr)
  | chr (c : Nat) | indentedName (n : WStr)

/-- Running one operation. -/
def step (ci : CharInfo) (nl : WStr) (s : St) : Op → Res St
  | .text t => .ok (append s t)
  | .newline => .ok (Fmt.newline nl s)
  | .line t => .ok (appendLine nl s t)
  | .indentedLine t => appendIndentedLine nl s t
  | .indented t => appendIndented s t
  | .openBrace => Fmt.openBrace nl s
  | .closeBrace semi => Fmt.closeBrace nl s semi
  | .nameSpace v => setNamespace nl s v
  | .closeNamespace => Fmt.closeNamespace nl s
  | .name n => appendName ci s n
  | .literal t => .ok (appendString s t)
  | .chr c => .ok (appendChar s c)
  | .indentedName n => appendIndentedName ci s n

/-- Running a sequence of operations. -/
def run (ci : CharInfo) (nl : WStr) (s : St) : List Op → Res St
  | [] => .ok s
  | o :: os => step ci nl s o >>= fun s => run ci nl s os

/-- Open braces minus closing braces in a text. -/
def braces : WStr → Int
  | [] => 0
  | c :: r => (if c = 123 then 1 else if c = 125 then -1 else 0) + braces r

/-- No brace in a text. -/
def free (t : WStr) : Prop := 123 ∉ t ∧ 125 ∉ t

/-- The texts an operation is given contain no brace. -/
def Free : Op → Prop
  | .text t | .line t | .indentedLine t | .indented t | .nameSpace t | .name t | .indentedName t => free t
  | .chr c => free [c]
  | .literal t => free t ∧ ∀ c ∈ t, c < 65536
  | _ => True

/-- A text in which no closing brace comes before its opening brace. -/
def Nested (t : WStr) : Prop := ∀ k, 0 ≤ braces (t.take k)

theorem braces_append (a b : WStr) : braces (a ++ b) = braces a + braces b := by
  induction a with
  | nil => simp [braces]
  | cons c r ih => simp only [List.cons_append, braces, ih]; omega

theorem braces_free {t : WStr} (h : free t) : braces t = 0 := by
  induction t with
  | nil => rfl
  | cons c r ih =>
    have h1 : c ≠ 123 := fun e => h.1 (by simp [e])
    have h2 : c ≠ 125 := fun e => h.2 (by simp [e])
    simp only [braces, if_neg h1, if_neg h2]
    rw [ih ⟨fun e => h.1 (by simp [e]), fun e => h.2 (by simp [e])⟩]; rfl

theorem free_append {a b : WStr} (ha : free a) (hb : free b) : free (a ++ b) :=
  ⟨by simp [ha.1, hb.1], by simp [ha.2, hb.2]⟩

theorem free_take {a : WStr} (ha : free a) (k : Nat) : free (a.take k) :=
  ⟨fun h => ha.1 (List.mem_of_mem_take h), fun h => ha.2 (List.mem_of_mem_take h)⟩

theorem nested_append {a b : WStr} (ha : Nested a) (hb : ∀ k, 0 ≤ braces a + braces (b.take k)) : Nested (a ++ b) := by
  intro k
  rw [List.take_append, braces_append]
  by_cases h : k ≤ a.length
  · have : k - a.length = 0 := by omega
    rw [this]; simpa [braces] using ha k
  · rw [List.take_of_length_le (by omega)]; exact hb _

/-- The invariant of a run: the indentation level is the brace depth of the text, and the text is nested. -/
def Inv (s : St) : Prop := Nested s.out ∧ braces s.out = s.indent ∧ (∀ n, s.ns = some n → free n)

theorem inv_free {s s' : St} (h : Inv s) (t : WStr) (ht : free t) (e1 : s'.out = s.out ++ t) (e2 : s'.indent = s.indent)
    (e3 : ∀ n, s'.ns = some n → free n) : Inv s' := by
  obtain ⟨h1, h2, _⟩ := h
  have h0 : 0 ≤ braces s.out := by simpa using h1 s.out.length
  refine ⟨?_, ?_, e3⟩
  · rw [e1]; apply nested_append h1; intro k; rw [braces_free (free_take ht k)]; omega
  · rw [e1, braces_append, braces_free ht, e2]; omega

theorem free_nil : free [] := ⟨by simp, by simp⟩
theorem free_tab (d : Nat) : free (tab d) := by
  constructor <;> (intro h; have := List.eq_of_mem_replicate h; omega)

theorem inv_append {s : St} (h : Inv s) (t : WStr) (ht : free t) : Inv (append s t) := inv_free h t ht rfl rfl h.2.2
theorem inv_newline {s : St} (h : Inv s) (nl : WStr) (ht : free nl) : Inv (Fmt.newline nl s) := inv_free h nl ht rfl rfl h.2.2

theorem inv_indent {s s' : St} (h : Inv s) (e : indent s = .ok s') : Inv s' := by
  unfold indent at e
  split at e
  · rename_i hi
    rw [Res.ok.injEq] at e
    subst e
    rw [tabs_take _ (by omega)]
    exact inv_free h (tab s.indent.toNat) (free_tab _) rfl rfl h.2.2
  · cases e

theorem inv_appendIndented {s s' : St} (h : Inv s) (t : WStr) (ht : free t) (e : appendIndented s t = .ok s') : Inv s' := by
  unfold appendIndented at e
  rw [Res.bind_eq_ok] at e
  obtain ⟨a, ea, e⟩ := e
  rw [Res.ok.injEq] at e; subst e
  exact inv_append (inv_indent h ea) t ht

/-- What a line break before a brace does. -/
theorem fresh_inv {s : St} (h : Inv s) (nl : WStr) (hn : free nl) : Inv (if s.onNewline = true then s else Fmt.newline nl s) := by
  split
  · exact h
  · exact inv_newline h nl hn

theorem inv_open {s s' : St} (h : Inv s) (nl : WStr) (hn : free nl) (e : Fmt.openBrace nl s = .ok s') : Inv s' ∧ s'.indent = s.indent + 1 ∧ s'.ns = s.ns := by
  unfold Fmt.openBrace at e
  have hf := fresh_inv h nl hn
  have fi : (if s.onNewline = true then s else Fmt.newline nl s).indent = s.indent := by split <;> rfl
  have fn : (if s.onNewline = true then s else Fmt.newline nl s).ns = s.ns := by split <;> rfl
  revert hf fi fn e
  generalize (if s.onNewline = true then s else Fmt.newline nl s) = u
  intro e hf fi fn
  rw [Res.bind_eq_ok] at e
  obtain ⟨a, ea, e⟩ := e
  rw [Res.ok.injEq] at e; subst e
  unfold appendIndentedLine at ea
  rw [Res.bind_eq_ok] at ea
  obtain ⟨b, eb, ea⟩ := ea
  rw [Res.ok.injEq] at ea; subst ea
  have hb := inv_indent hf eb
  have hbn : b.ns = u.ns ∧ b.indent = u.indent := by
    unfold indent at eb
    split at eb
    · rw [Res.ok.injEq] at eb; subst eb; exact ⟨rfl, rfl⟩
    · cases eb
  obtain ⟨h1, h2, h3⟩ := hb
  have h0 : 0 ≤ braces b.out := by simpa using h1 b.out.length
  have ho : (upIndent (appendLine nl b [123])).out = b.out ++ (123 :: nl) := by simp [upIndent, appendLine, Fmt.newline, append]
  refine ⟨⟨?_, ?_, ?_⟩, ?_, ?_⟩
  · rw [ho]; apply nested_append h1
    intro k
    cases k with
    | zero => simpa [braces] using h0
    | succ k => rw [List.take_succ_cons]; simp only [braces]; rw [braces_free (free_take hn k)]; simp; omega
  · rw [ho, braces_append]; simp only [braces]; rw [braces_free hn, h2]; simp [upIndent, appendLine, Fmt.newline, append]
  · exact h3
  · show b.indent + 1 = s.indent + 1; omega
  · show b.ns = s.ns; rw [hbn.1, fn]

theorem inv_close {s s' : St} (h : Inv s) (nl : WStr) (hn : free nl) (semi : Bool) (e : Fmt.closeBrace nl s semi = .ok s') :
    Inv s' ∧ s'.indent = s.indent - 1 ∧ s'.ns = s.ns ∧ 1 ≤ s.indent := by
  unfold Fmt.closeBrace at e
  have hf := fresh_inv h nl hn
  have fi : (if s.onNewline = true then s else Fmt.newline nl s).indent = s.indent := by split <;> rfl
  have fn : (if s.onNewline = true then s else Fmt.newline nl s).ns = s.ns := by split <;> rfl
  revert hf fi fn e
  generalize (if s.onNewline = true then s else Fmt.newline nl s) = u
  intro e hf fi fn
  rw [Res.bind_eq_ok] at e
  obtain ⟨a, ea, e⟩ := e
  rw [Res.ok.injEq] at e; subst e
  unfold appendIndented at ea
  rw [Res.bind_eq_ok] at ea
  obtain ⟨b, eb, ea⟩ := ea
  rw [Res.ok.injEq] at ea; subst ea
  obtain ⟨h1, h2, h3⟩ := hf
  unfold indent at eb
  split at eb
  · rename_i hi
    rw [Res.ok.injEq] at eb; subst eb
    have hi' : 0 ≤ u.indent - 1 ∧ u.indent - 1 ≤ 22 := hi
    rw [tabs_take _ (by simp only [downIndent]; omega)]
    generalize htt : tab (downIndent u).indent.toNat = tt
    have ft : free tt := htt ▸ free_tab _
    have hsemi : free (if semi = true then [59] else ([] : WStr)) := by cases semi <;> exact ⟨by decide, by decide⟩
    generalize hu : (if semi = true then [59] else ([] : WStr)) = u2 at hsemi
    have ho : ∀ q : St, q.out = u.out ++ (tt ++ 125 :: (u2 ++ nl)) → q.indent = u.indent - 1 → q.ns = u.ns →
        Inv q ∧ q.indent = s.indent - 1 ∧ q.ns = s.ns ∧ 1 ≤ s.indent := by
      intro q q1 q2 q3
      refine ⟨⟨?_, ?_, ?_⟩, by omega, by rw [q3, fn], by omega⟩
      · rw [q1]; apply nested_append h1
        intro k
        rw [List.take_append, braces_append, braces_free (free_take ft _)]
        cases k - tt.length with
        | zero => simp [braces]; omega
        | succ k => rw [List.take_succ_cons]; simp only [braces]; rw [braces_free (free_take (free_append hsemi hn) k)]; simp; omega
      · rw [q1, braces_append, braces_append, braces_free ft]; simp only [braces]; rw [braces_free (free_append hsemi hn), h2, q2]; simp; omega
      · intro n e; exact h3 n (q3 ▸ e)
    apply ho
    · cases semi <;> simp at hu <;> subst hu <;> simp [Fmt.newline, append, downIndent]
    · cases semi <;> simp [Fmt.newline, append, downIndent]
    · cases semi <;> simp [Fmt.newline, append, downIndent]
  · cases eb

theorem inv_closeNs {s s' : St} (h : Inv s) (nl : WStr) (hn : free nl) (e : Fmt.closeNamespace nl s = .ok s') : Inv s' := by
  unfold Fmt.closeNamespace at e
  split at e
  · rw [Res.ok.injEq] at e; subst e; exact h
  · rw [Res.bind_eq_ok] at e
    obtain ⟨a, ea, e⟩ := e
    rw [Res.ok.injEq] at e; subst e
    have := (inv_close h nl hn false ea).1
    exact ⟨this.1, this.2.1, by intro n hh; cases hh⟩

theorem free_w_ns : free (w "namespace ") := ⟨by decide, by decide⟩
theorem free_nsText (v : WStr) (h : free v) : free (nsText v) := by
  unfold nsText
  split
  · exact ⟨by decide, by decide⟩
  · exact free_append h ⟨by decide, by decide⟩

theorem inv_setNs {s s' : St} (h : Inv s) (nl : WStr) (hn : free nl) (v : WStr) (hv : free v) (e : setNamespace nl s v = .ok s') : Inv s' := by
  have start : ∀ {u u' : St}, Inv u →
      Fmt.openBrace nl (append (append { u with ns := some (nsText v) } (w "namespace ")) (nsText v)) = .ok u' → Inv u' := by
    intro u u' hu eu
    have h0 : Inv { u with ns := some (nsText v) } := ⟨hu.1, hu.2.1, by intro n hh; injection hh with hh; subst hh; exact free_nsText v hv⟩
    exact (inv_open (inv_append (inv_append h0 _ free_w_ns) _ (free_nsText v hv)) nl hn eu).1
  unfold setNamespace at e
  split at e
  · exact start h e
  · split at e
    · rw [Res.bind_eq_ok] at e
      obtain ⟨a, ea, e⟩ := e
      exact start (inv_closeNs h nl hn ea) e
    · rw [Res.ok.injEq] at e; subst e; exact h

theorem free_name (ci : CharInfo) (n t : WStr) (h : free n) (e : nameText ci n = .ok t) : free t := by
  unfold nameText at e
  rw [Res.bind_eq_ok] at e
  obtain ⟨a, ea, e⟩ := e
  have fa : free a := by
    unfold prefixName at ea
    split at ea
    · cases ea
    · split at ea <;> (rw [Res.ok.injEq] at ea; subst ea)
      · exact free_append ⟨by decide, by decide⟩ h
      · exact h
  rw [Res.ok.injEq] at e; subst e
  split
  · exact ⟨by decide, by decide⟩
  · exact fa

theorem hexDigit_free (n : Nat) (h : n < 16) : free [hexDigit n] := by
  unfold hexDigit free
  split <;> simp <;> omega

theorem free_cons {c : Nat} {r : WStr} (h1 : free [c]) (h2 : free r) : free (c :: r) := free_append h1 h2

theorem hexText_free (c : Nat) (h : c < 65536) : free (hexText c) := by
  unfold hexText
  split
  · exact hexDigit_free _ (by omega)
  split
  · exact free_cons (hexDigit_free _ (by omega)) (hexDigit_free _ (by omega))
  split
  · exact free_cons (hexDigit_free _ (by omega)) (free_cons (hexDigit_free _ (by omega)) (hexDigit_free _ (by omega)))
  · exact free_cons (hexDigit_free _ (by omega)) (free_cons (hexDigit_free _ (by omega)) (free_cons (hexDigit_free _ (by omega)) (hexDigit_free _ (by omega))))

theorem free_ite (p : Prop) [Decidable p] (a b : WStr) (ha : free a) (hb : free b) : free (if p then a else b) := by
  split <;> assumption

theorem escape_free (c : Nat) (b : Bool) (h : c < 65536) (h1 : c ≠ 123) (h2 : c ≠ 125) : free (escape c b) := by
  unfold escape
  iterate 10 refine free_ite _ _ _ (by first | exact ⟨by decide, by decide⟩ | (cases b <;> exact ⟨by decide, by decide⟩)) ?_
  refine free_ite _ _ _ ⟨by simp; omega, by simp; omega⟩ ?_
  refine free_append ⟨by decide, by decide⟩ (free_append ?_ (hexText_free c h))
  constructor <;> (intro hh; have := List.eq_of_mem_replicate hh; omega)

theorem literal_free (t : WStr) (h : free t) (hc : ∀ c ∈ t, c < 65536) : free (stringLiteral t) := by
  unfold stringLiteral
  refine free_append (free_append ⟨by decide, by decide⟩ ?_) ⟨by decide, by decide⟩
  constructor <;>
  · intro hh
    rw [List.mem_flatMap] at hh
    obtain ⟨c, hm, hh⟩ := hh
    have hf := escape_free c true (hc c hm) (fun e => h.1 (e ▸ hm)) (fun e => h.2 (e ▸ hm))
    first | exact hf.1 hh | exact hf.2 hh

theorem inv_step (ci : CharInfo) (nl : WStr) (hn : free nl) {s s' : St} (h : Inv s) (o : Op) (ho : Free o) (e : step ci nl s o = .ok s') : Inv s' := by
  cases o with
  | text t => rw [step, Res.ok.injEq] at e; subst e; exact inv_append h t ho
  | newline => rw [step, Res.ok.injEq] at e; subst e; exact inv_newline h nl hn
  | line t => rw [step, Res.ok.injEq] at e; subst e; exact inv_newline (inv_append h t ho) nl hn
  | indentedLine t =>
    rw [step] at e; unfold appendIndentedLine at e
    rw [Res.bind_eq_ok] at e
    obtain ⟨a, ea, e⟩ := e
    rw [Res.ok.injEq] at e; subst e
    exact inv_newline (inv_append (inv_indent h ea) t ho) nl hn
  | indented t => exact inv_appendIndented h t ho e
  | openBrace => exact (inv_open h nl hn e).1
  | closeBrace semi => exact (inv_close h nl hn semi e).1
  | nameSpace v => exact inv_setNs h nl hn v ho e
  | closeNamespace => exact inv_closeNs h nl hn e
  | name n =>
    rw [step] at e; unfold appendName at e
    rw [Res.bind_eq_ok] at e
    obtain ⟨a, ea, e⟩ := e
    rw [Res.ok.injEq] at e; subst e
    exact inv_append h a (free_name ci n a ho ea)
  | literal t => rw [step, Res.ok.injEq] at e; subst e; exact inv_append h _ (literal_free t ho.1 ho.2)
  | chr c => rw [step, Res.ok.injEq] at e; subst e; exact inv_free h [c] ho rfl rfl h.2.2
  | indentedName n =>
    rw [step] at e; unfold appendIndentedName at e
    rw [Res.bind_eq_ok] at e
    obtain ⟨a, ea, e⟩ := e
    refine inv_appendIndented h a ?_ e
    unfold prefixName at ea
    split at ea
    · cases ea
    · split at ea <;> (rw [Res.ok.injEq] at ea; subst ea)
      · exact free_append ⟨by decide, by decide⟩ ho
      · exact ho

/-- **C56** for arbitrary sequences of formatter calls whose texts contain no braces: if the run does not throw, every prefix of the
emitted text has at least as many opening as closing braces, and the open braces are counted exactly by the indentation level. In
particular the text is balanced when the level is back to 0. -/
theorem C56_braces (ci : CharInfo) (nl : WStr) (hn : free nl) (ops : List Op) (ho : ∀ o ∈ ops, Free o) (s : St)
    (e : run ci nl initial ops = .ok s) :
    (∀ k, 0 ≤ braces (s.out.take k)) ∧ braces s.out = s.indent := by
  have key : ∀ (ops : List Op) (a : St), Inv a → (∀ o ∈ ops, Free o) → run ci nl a ops = .ok s → Inv s := by
    intro ops
    induction ops with
    | nil => intro a ha _ e; rw [run, Res.ok.injEq] at e; subst e; exact ha
    | cons o os ih =>
      intro a ha hf e
      rw [run, Res.bind_eq_ok] at e
      obtain ⟨b, eb, e⟩ := e
      exact ih b (inv_step ci nl hn ha o (hf o (by simp)) eb) (fun x hx => hf x (by simp [hx])) e
  have := key ops initial ⟨by intro k; simp [initial, braces], rfl, by intro n hh; cases hh⟩ ho e
  exact ⟨this.1, this.2.1⟩

/-- Specification: the text an operation that writes on the current line adds, at indentation level `d`. -/
def addedText (ci : CharInfo) (d : Nat) : Op → Option WStr
  | .text t => some t
  | .chr c => some [c]
  | .literal t => some (stringLiteral t)
  | .indented t => some (tab d ++ t)
  | .indentedName (c :: r) => some (tab d ++ (if ci.isLower c = true ∧ c :: r ≠ w "this" then w "x_" ++ c :: r else c :: r))
  | _ => none

/-- **C56**: after any operation that writes on the current line, the next brace is put on a line of its own: the text written, a line break, the
indentation and the brace. -/
theorem C56_brace_own_line (ci : CharInfo) (nl : WStr) (s : St) (d : Nat) (hd : s.indent = d) (hd' : d ≤ 22) (o : Op) (t : WStr)
    (ht : addedText ci d o = some t) :
    ∃ s1 s2, step ci nl s o = .ok s1 ∧ s1.out = s.out ++ t ∧ step ci nl s1 .openBrace = .ok s2 ∧ s2.out = s.out ++ t ++ nl ++ tab d ++ [123] ++ nl ∧
      s2.indent = d + 1 := by
  have key : ∀ s1 : St, s1.out = s.out ++ t → s1.onNewline = false → s1.indent = d →
      ∃ s2, step ci nl s1 .openBrace = .ok s2 ∧ s2.out = s.out ++ t ++ nl ++ tab d ++ [123] ++ nl ∧ s2.indent = d + 1 := by
    intro s1 h1 h2 h3
    have hi : (Fmt.newline nl s1).indent = d := h3
    have hk : step ci nl s1 .openBrace = .ok (upIndent (appendLine nl { append (Fmt.newline nl s1) (tabs.take d) with chars := false } [123])) := by
      unfold step Fmt.openBrace appendIndentedLine indent
      simp only [h2]
      rw [if_neg (show ¬ (false = true) by decide), if_pos (by omega), Res.bind_ok, Res.bind_ok, hi]
      rfl
    refine ⟨_, hk, ?_, ?_⟩
    · show ((Fmt.newline nl s1).out ++ tabs.take d ++ [123]) ++ nl = _
      rw [tabs_take _ (by omega)]
      show (s1.out ++ nl) ++ _ ++ _ ++ _ = _
      rw [h1]
    · show (Fmt.newline nl s1).indent + 1 = _
      rw [hi]
  have ind : ∀ x : WStr, ∃ s1, appendIndented s x = .ok s1 ∧ s1.out = s.out ++ (tab d ++ x) ∧ s1.onNewline = false ∧ s1.indent = d := by
    intro x
    unfold appendIndented indent
    rw [if_pos (by omega), Res.bind_ok]
    refine ⟨_, rfl, ?_, rfl, hd⟩
    simp only [append, hd]
    rw [tabs_take _ (by omega)]
    simp
  cases o with
  | text x => injection ht with ht; subst ht; obtain ⟨s2, h⟩ := key (append s x) rfl rfl hd; exact ⟨_, s2, rfl, rfl, h⟩
  | chr c => injection ht with ht; subst ht; obtain ⟨s2, h⟩ := key (appendChar s c) rfl rfl hd; exact ⟨_, s2, rfl, rfl, h⟩
  | literal x => injection ht with ht; subst ht; obtain ⟨s2, h⟩ := key (appendString s x) rfl rfl hd; exact ⟨_, s2, rfl, rfl, h⟩
  | indented x =>
    injection ht with ht; subst ht
    obtain ⟨s1, e, h1, h2, h3⟩ := ind x
    obtain ⟨s2, h⟩ := key s1 h1 h2 h3
    exact ⟨s1, s2, e, h1, h⟩
  | indentedName n =>
    cases n with
    | nil => cases ht
    | cons c r =>
      injection ht with ht; subst ht
      obtain ⟨s1, e, h1, h2, h3⟩ := ind (if ci.isLower c = true ∧ c :: r ≠ w "this" then w "x_" ++ c :: r else c :: r)
      obtain ⟨s2, h⟩ := key s1 h1 h2 h3
      refine ⟨s1, s2, ?_, h1, h⟩
      rw [← e]
      unfold step appendIndentedName prefixName
      simp only []
      split <;> rw [Res.bind_ok]
  | _ => cases ht

example : ∃ s1 s2, step asciiInfo (w "\n") { initial with indent := 1 } (.indentedName (w "foo")) = .ok s1 ∧ s1.out = w "\tx_foo" ∧
    step asciiInfo (w "\n") s1 .openBrace = .ok s2 ∧ s2.out = w "\tx_foo\n\t{\n" := ⟨_, _, rfl, by decide +kernel, rfl, by decide +kernel⟩

/-- A typical sequence: a namespace, a class, a method with a string, everything closed. -/
example : ∃ s, run asciiInfo (w "\n") initial [.line (w "#pragma once"), .nameSpace (w "Foo"), .indented (w "class "), .name (w "bar"), .openBrace,
    .indentedLine (w "public:"), .indented (w "x = "), .literal (w "a\"b"), .text (w ";"), .closeBrace true, .closeNamespace] = .ok s ∧
    s.out = w "#pragma once\nnamespace Foo_NS\n{\n\tclass x_bar\n\t{\n\t\tpublic:\n\t\tx = L\"a\\\"b\";\n\t};\n}\n" ∧ s.indent = 0 ∧ s.ns = none := by
  refine ⟨_, rfl, ?_⟩; decide +kernel

/-! ## Whole files -/

/-- Specification: the C++ namespace of a C# namespace. -/
def nsName (v : WStr) : WStr := if v = [] then w "UNNAMED" else v ++ w "_NS"

/-- Specification: the text that opens a namespace. -/
def nsOpen (nl v : WStr) : WStr := w "namespace " ++ nsName v ++ nl ++ [123] ++ nl

/-- Specification: the text of a file body: types in order, each with its C# namespace; consecutive types of one namespace share a
namespace block, and every namespace block is closed once. `cur` is the namespace that is open. -/
def fileBody (nl : WStr) : Option WStr → List (WStr × List Doc) → WStr
  | none, [] => []
  | some _, [] => [125] ++ nl
  | none, (v, ds) :: r => nsOpen nl v ++ renderAll nl 1 ds ++ fileBody nl (some v) r
  | some c, (v, ds) :: r =>
    if c = v then renderAll nl 1 ds ++ fileBody nl (some v) r
    else [125] ++ nl ++ nsOpen nl v ++ renderAll nl 1 ds ++ fileBody nl (some v) r

/-- Specification: the header lines of a file. -/
def headerText (nl : WStr) : List WStr → WStr
  | [] => []
  | h :: hs => h ++ nl ++ headerText nl hs

/-- Printing the header lines (`AddHeaders`). -/
def emitHeaders (nl : WStr) (s : St) : List WStr → St
  | [] => s
  | h :: hs => emitHeaders nl (appendLine nl s h) hs

/-- Printing the types of a module: `Formatter.NameSpace = ...` and then the type's text (ProtoTypeVisitor.cs lines 54-83,
HeaderTypeVisitor.cs lines 152-175, CppVisitorBase.cs lines 196-204). -/
def emitTypes (nl : WStr) (s : St) : List (WStr × List Doc) → Res St
  | [] => .ok s
  | (v, ds) :: r => setNamespace nl s v >>= fun s => emitAll nl s ds >>= fun s => emitTypes nl s r

/-- Writing one output file (Program.cs lines 101-132): set the output name, headers, types, `Close`. -/
def writeFile (nl : WStr) (s : St) (name : WStr) (headers : List WStr) (types : List (WStr × List Doc)) : Res St :=
  setOutput nl s name >>= fun s => emitTypes nl (emitHeaders nl s headers) types >>= fun s => close nl s

theorem nsText_eq (v : WStr) : nsText v = nsName v := by
  unfold nsText nsName
  cases v <;> simp

theorem nsName_inj (a b : WStr) (h : nsName a = nsName b) : a = b := by
  have last : ∀ v : WStr, v ≠ [] → nsName v ≠ w "UNNAMED" := by
    intro v hv e
    rw [nsName, if_neg hv] at e
    have := congrArg (fun l => l.getLast?) e
    simp [w] at this
  by_cases ha : a = [] <;> by_cases hb : b = []
  · rw [ha, hb]
  · exact absurd (h.symm.trans (by rw [nsName, if_pos ha])) (last b hb)
  · exact absurd (h.trans (by rw [nsName, if_pos hb])) (last a ha)
  · rw [nsName, nsName, if_neg ha, if_neg hb] at h
    exact List.append_cancel_right h

theorem emitHeaders_out (nl : WStr) (hs : List WStr) : ∀ (s : St), emitHeaders nl s hs = 
    if hs = [] then s else { s with out := s.out ++ headerText nl hs, onNewline := true, chars := false } := by
  induction hs with
  | nil => intro s; rfl
  | cons h hs ih =>
    intro s
    rw [emitHeaders, ih]
    cases hs with
    | nil => simp [headerText, appendLine, newline, append]
    | cons a b => simp [headerText, appendLine, newline, append]

/-- Opening a namespace when none is open. -/
theorem setNs_none (nl : WStr) (s : St) (h0 : s.indent = 0) (hn : s.ns = none) (v : WStr) :
    ∃ s', setNamespace nl s v = .ok s' ∧ s'.out = s.out ++ nsOpen nl v ∧ AtLine s' 1 ∧ s'.ns = some (nsName v) ∧
      s'.disk = s.disk ∧ s'.file = s.file := by
  unfold setNamespace
  simp only [hn]
  have : (append (append { s with ns := some (nsText v) } (w "namespace ")) (nsText v)).onNewline = false := rfl
  unfold openBrace
  simp only [this, Bool.false_eq_true, if_false]
  rw [line_ok nl _ 0 ⟨rfl, rfl, by simp [newline, append, h0]⟩ (by omega)]
  refine ⟨_, rfl, ?_, ⟨rfl, rfl, ?_⟩, ?_, rfl, rfl⟩
  · simp [upIndent, wrote, newline, append, nsOpen, nsText_eq, tab]
  · simp [upIndent, wrote, newline, append, h0]
  · simp [upIndent, wrote, newline, append, nsText_eq]

theorem closeNs_some (nl : WStr) (s : St) (h : AtLine s 1) (n : WStr) (hn : s.ns = some n) :
    ∃ s', closeNamespace nl s = .ok s' ∧ s'.out = s.out ++ ([125] ++ nl) ∧ AtLine s' 0 ∧ s'.ns = none ∧ s'.disk = s.disk ∧ s'.file = s.file := by
  unfold closeNamespace
  simp only [hn]
  rw [close_ok nl s 0 h (by omega) false]
  refine ⟨_, rfl, ?_, ⟨h.1, h.2.1, ?_⟩, rfl, rfl, rfl⟩
  · simp [downIndent, wrote, tab]
  · have := h.2.2; simp [downIndent, wrote, this]

/-- The state between two types: namespace `cur` is open (indent 1, start of a line), or none is. -/
def Ready (s : St) (cur : Option WStr) : Prop :=
  match cur with
  | none => s.indent = 0 ∧ s.ns = none
  | some v => AtLine s 1 ∧ s.ns = some (nsName v)

theorem types_ok (nl : WStr) (types : List (WStr × List Doc)) (hd : ∀ t ∈ types, depthAll t.2 ≤ 22) : ∀ (s : St) (cur : Option WStr), Ready s cur →
    ∃ s', (emitTypes nl s types >>= fun s => closeNamespace nl s) = .ok s' ∧ s'.out = s.out ++ fileBody nl cur types ∧
      s'.indent = 0 ∧ s'.ns = none ∧ s'.disk = s.disk ∧ s'.file = s.file := by
  induction types with
  | nil =>
    intro s cur hr
    rw [emitTypes, Res.bind_ok]
    cases cur with
    | none => exact ⟨s, by simp [closeNamespace, hr.2], by simp [fileBody], hr.1, hr.2, rfl, rfl⟩
    | some v =>
      obtain ⟨s', e, e1, e2, e3, e4, e5⟩ := closeNs_some nl s hr.1 _ hr.2
      exact ⟨s', e, e1, e2.2.2, e3, e4, e5⟩
  | cons t types ih =>
    intro s cur hr
    obtain ⟨v, ds⟩ := t
    have hds : depthAll ds ≤ 22 := hd (v, ds) (by simp)
    have ih' := ih (fun t ht => hd t (by simp [ht]))
    have rest : ∀ (u : St), AtLine u 1 → u.ns = some (nsName v) →
        ∃ s', (emitAll nl u ds >>= fun s => emitTypes nl s types) >>= (fun s => closeNamespace nl s) = .ok s' ∧
          s'.out = u.out ++ (renderAll nl 1 ds ++ fileBody nl (some v) types) ∧ s'.indent = 0 ∧ s'.ns = none ∧ s'.disk = u.disk ∧ s'.file = u.file := by
      intro u hu hn
      rw [emitAll_ok nl u 1 hu ds (by omega), Res.bind_ok]
      obtain ⟨s', e, e1, e2⟩ := ih' (wrote u (renderAll nl 1 ds)) (some v) ⟨hu, hn⟩
      exact ⟨s', e, by rw [e1]; simp [wrote], e2⟩
    rw [emitTypes]
    cases cur with
    | none =>
      obtain ⟨u, e, e1, e2, e3, e4, e5⟩ := setNs_none nl s hr.1 hr.2 v
      rw [e, Res.bind_ok]
      obtain ⟨s', f, f1, f2, f3, f4, f5⟩ := rest u e2 e3
      exact ⟨s', f, by rw [f1, e1, fileBody]; simp, f2, f3, f4.trans e4, f5.trans e5⟩
    | some c =>
      by_cases hc : c = v
      · subst hc
        have : setNamespace nl s c = .ok s := by
          unfold setNamespace
          simp only [hr.2, nsText_eq, ne_eq, not_true_eq_false, if_false]
        rw [this, Res.bind_ok]
        obtain ⟨s', f, f1, f2⟩ := rest s hr.1 hr.2
        exact ⟨s', f, by rw [f1, fileBody, if_pos rfl], f2⟩
      · obtain ⟨u, e, e1, e2, e3, e4, e5⟩ := closeNs_some nl s hr.1 _ hr.2
        obtain ⟨u', g, g1, g2, g3, g4, g5⟩ := setNs_none nl u e2.2.2 e3 v
        have : setNamespace nl s v = .ok u' := by
          have hne : nsText v ≠ nsName c := by rw [nsText_eq]; exact fun h => hc (nsName_inj _ _ h).symm
          have g' := g
          unfold setNamespace at g' ⊢
          simp only [hr.2, e3] at g' ⊢
          rw [if_pos hne, e, Res.bind_ok]
          exact g'
        rw [this, Res.bind_ok]
        obtain ⟨s', f, f1, f2, f3, f4, f5⟩ := rest u' g2 g3
        exact ⟨s', f, by rw [f1, g1, e1, fileBody, if_neg hc]; simp, f2, f3, (f4.trans g4).trans e4, (f5.trans g5).trans e5⟩

theorem pres_indent : ∀ (s s' : St), indent s = .ok s' → s'.disk = s.disk ∧ s'.file = s.file := by
  intro s s' e; unfold indent at e; split at e
  · rw [Res.ok.injEq] at e; subst e; exact ⟨rfl, rfl⟩
  · cases e
theorem pres_indented : ∀ (s s' : St) t, appendIndented s t = .ok s' → s'.disk = s.disk ∧ s'.file = s.file := by
  intro s s' t e; unfold appendIndented at e
  rw [Res.bind_eq_ok] at e
  obtain ⟨a, ea, e⟩ := e
  rw [Res.ok.injEq] at e; subst e; exact pres_indent s a ea
theorem pres_line (nl : WStr) : ∀ (s s' : St) t, appendIndentedLine nl s t = .ok s' → s'.disk = s.disk ∧ s'.file = s.file := by
  intro s s' t e; unfold appendIndentedLine at e
  rw [Res.bind_eq_ok] at e
  obtain ⟨a, ea, e⟩ := e
  rw [Res.ok.injEq] at e; subst e; exact pres_indent s a ea
theorem pres_fresh (nl : WStr) : ∀ s : St, (if s.onNewline = true then s else newline nl s).disk = s.disk ∧ (if s.onNewline = true then s else newline nl s).file = s.file := by
  intro s; split <;> exact ⟨rfl, rfl⟩
theorem pres_open (nl : WStr) : ∀ (s s' : St), openBrace nl s = .ok s' → s'.disk = s.disk ∧ s'.file = s.file := by
  intro s s' e; unfold openBrace at e
  rw [Res.bind_eq_ok] at e
  obtain ⟨a, ea, e⟩ := e
  rw [Res.ok.injEq] at e; subst e
  have := pres_line nl _ _ _ ea
  exact ⟨this.1.trans (pres_fresh nl s).1, this.2.trans (pres_fresh nl s).2⟩
theorem pres_close (nl : WStr) : ∀ (s s' : St) b, closeBrace nl s b = .ok s' → s'.disk = s.disk ∧ s'.file = s.file := by
  intro s s' b e; unfold closeBrace at e
  rw [Res.bind_eq_ok] at e
  obtain ⟨a, ea, e⟩ := e
  have := pres_indented _ _ _ ea
  rw [Res.ok.injEq] at e; subst e
  cases b <;> exact ⟨this.1.trans (pres_fresh nl s).1, this.2.trans (pres_fresh nl s).2⟩
theorem pres_closeNs (nl : WStr) : ∀ (s s' : St), closeNamespace nl s = .ok s' → s'.disk = s.disk ∧ s'.file = s.file := by
  intro s s' e; unfold closeNamespace at e
  split at e
  · rw [Res.ok.injEq] at e; subst e; exact ⟨rfl, rfl⟩
  · rw [Res.bind_eq_ok] at e
    obtain ⟨a, ea, e⟩ := e
    rw [Res.ok.injEq] at e; subst e; exact pres_close nl s a false ea

/-- The formatter between two output files. -/
def Idle (s : St) : Prop := s.file = none ∧ s.ns = none ∧ s.indent = 0 ∧ s.out = []

/-- **C80**: an output file contains exactly its header lines followed by its types, each inside the namespace block of its C#
namespace, with blocks shared by consecutive types of the same namespace and each closed exactly once; afterwards the formatter is
ready for the next file. Types may nest 21 levels deep inside their namespace. -/
theorem C80_file_partial (nl : WStr) (s : St) (h : Idle s) (name : WStr) (headers : List WStr) (types : List (WStr × List Doc))
    (hd : ∀ t ∈ types, depthAll t.2 ≤ 22) :
    ∃ s', writeFile nl s name headers types = .ok s' ∧ Idle s' ∧
      s'.disk = s.disk ++ [(name, []), (name, headerText nl headers ++ fileBody nl none types)] := by
  obtain ⟨h1, h2, h3, h4⟩ := h
  unfold writeFile setOutput
  have hc : close nl s = .ok s := by unfold close; simp only [h1]
  rw [hc, Res.bind_ok, Res.bind_ok]
  generalize hu : emitHeaders nl { s with file := some name, disk := s.disk ++ [(name, [])] } headers = u
  have hu' := (emitHeaders_out nl headers { s with file := some name, disk := s.disk ++ [(name, [])] }).symm.trans hu
  have u1 : u.out = headerText nl headers ∧ u.indent = 0 ∧ u.ns = none ∧ u.disk = s.disk ++ [(name, [])] ∧ u.file = some name := by
    split at hu' <;> subst hu'
    · rename_i e; subst e; exact ⟨h4, h3, h2, rfl, rfl⟩
    · exact ⟨by simp [h4], h3, h2, rfl, rfl⟩
  obtain ⟨a1, a2, a3, a4, a5⟩ := u1
  obtain ⟨s', e, e1, e2, e3, e4, e5⟩ := types_ok nl types hd u none ⟨a2, a3⟩
  rw [Res.bind_eq_ok] at e
  obtain ⟨t, et, e⟩ := e
  rw [et, Res.bind_ok]
  have tf : t.file = some name := by rw [← (pres_closeNs nl t s' e).2, e5, a5]
  unfold close
  simp only [tf]
  rw [e, Res.bind_ok]
  refine ⟨_, rfl, ⟨rfl, e3, e2, rfl⟩, ?_⟩
  show s'.disk ++ [(name, s'.out)] = _
  rw [e4, a4, e1, a1]; simp

/-- Two namespaces, the first used twice. -/
example : fileBody (w "\n") none [(w "A", [.line (w "x;")]), (w "A", [.line (w "y;")]), ([], [.line (w "z;")])] =
    w "namespace A_NS\n{\n\tx;\n\ty;\n}\nnamespace UNNAMED\n{\n\tz;\n}\n" := by decide +kernel
example : Idle initial := ⟨rfl, rfl, rfl, rfl⟩

/-- **C80**: distinct C# namespaces get distinct C++ namespaces. -/
theorem C80_distinct (a b : WStr) (h : nsText a = nsText b) : a = b := nsName_inj a b (by rw [← nsText_eq, ← nsText_eq, h])

/-- **C80**: the C++ namespace is a C++ identifier when the C# namespace is one (no dots) or the global namespace. -/
theorem C80_identifier_partial (v : WStr) (h : v = [] ∨ CppLex.isIdent v = true) : CppLex.isIdent (nsText v) = true := by
  rw [nsText_eq]
  rcases h with h | h
  · subst h; decide
  · cases v with
    | nil => cases h
    | cons c r =>
      rw [nsName, if_neg (by simp)]
      simp only [CppLex.isIdent, Bool.and_eq_true, List.all_append, List.cons_append] at h ⊢
      exact ⟨h.1, h.2, by decide⟩

example : CppLex.isIdent (w "Company") = true ∧ nsText (w "Company") = w "Company_NS" := by decide +kernel

/-- **C80** refuted: a dotted C# namespace (`Company.Product`) is emitted as text that is not a C++ identifier. -/
theorem C80_identifier_refuted : nsText (w "Company.Product") = w "Company.Product_NS" ∧ CppLex.isIdent (nsText (w "Company.Product")) = false := by
  decide +kernel

/-! ## Files and failures -/

/-- **C81**: nothing reaches an output file before the formatter is closed: whatever printing calls succeed or throw in between, a
translation that stops early leaves the file as the constructor of `StreamWriter` made it (empty), never a truncated text. -/
theorem C81_no_partial_output (ci : CharInfo) (nl : WStr) (ops : List Op) : ∀ (s s' : St), run ci nl s ops = .ok s' → s'.disk = s.disk ∧ s'.file = s.file := by
  have hst : ∀ (s s' : St) o, step ci nl s o = .ok s' → s'.disk = s.disk ∧ s'.file = s.file := by
    intro s s' o e
    cases o with
    | text t => rw [step, Res.ok.injEq] at e; subst e; exact ⟨rfl, rfl⟩
    | newline => rw [step, Res.ok.injEq] at e; subst e; exact ⟨rfl, rfl⟩
    | line t => rw [step, Res.ok.injEq] at e; subst e; exact ⟨rfl, rfl⟩
    | indentedLine t => exact pres_line nl _ _ _ e
    | indented t => exact pres_indented _ _ _ e
    | openBrace => exact pres_open nl _ _ e
    | closeBrace semi => exact pres_close nl _ _ _ e
    | nameSpace v =>
      rw [step] at e; unfold setNamespace at e
      split at e
      · have h2 := pres_open nl _ _ (show openBrace nl (append (append { s with ns := some (nsText v) } (w "namespace ")) (nsText v)) = .ok s' from e)
        exact h2
      · split at e
        · rw [Res.bind_eq_ok] at e
          obtain ⟨a, ea, e⟩ := e
          have h1 := pres_closeNs nl _ _ ea
          have h2 := pres_open nl _ _ (show openBrace nl (append (append { a with ns := some (nsText v) } (w "namespace ")) (nsText v)) = .ok s' from e)
          exact ⟨h2.1.trans h1.1, h2.2.trans h1.2⟩
        · rw [Res.ok.injEq] at e; subst e; exact ⟨rfl, rfl⟩
    | closeNamespace => exact pres_closeNs nl _ _ e
    | name n =>
      rw [step] at e; unfold appendName at e
      rw [Res.bind_eq_ok] at e
      obtain ⟨a, ea, e⟩ := e
      rw [Res.ok.injEq] at e; subst e; exact ⟨rfl, rfl⟩
    | literal t => rw [step, Res.ok.injEq] at e; subst e; exact ⟨rfl, rfl⟩
    | chr c => rw [step, Res.ok.injEq] at e; subst e; exact ⟨rfl, rfl⟩
    | indentedName n =>
      rw [step] at e; unfold appendIndentedName at e
      rw [Res.bind_eq_ok] at e
      obtain ⟨a, ea, e⟩ := e
      exact pres_indented _ _ _ e
  induction ops with
  | nil => intro s s' e; rw [run, Res.ok.injEq] at e; subst e; exact ⟨rfl, rfl⟩
  | cons o os ih =>
    intro s s' e
    rw [run, Res.bind_eq_ok] at e
    obtain ⟨b, eb, e⟩ := e
    have h1 := hst _ _ _ eb
    have h2 := ih _ _ e
    exact ⟨h2.1.trans h1.1, h2.2.trans h1.2⟩

/-- The file opened by `OutputName` is empty until `Close`. -/
example : ∃ s, setOutput (w "\n") initial (w "T.h") = .ok s ∧ s.disk = [(w "T.h", [])] := ⟨_, rfl, rfl⟩

end Verif.FmtLayoutProps
