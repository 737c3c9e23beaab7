import Verif.StmtTextProps
/-!
# C156: how deep a method may be nested
-/
namespace Verif.Text
open Cpp Sem Read Stmt Method

/-- The depth of the braces in the text of a tree. -/
def nest : IL → Nat
  | .nop | .act _ | .silent _ | .leave _ _ _ | .branch _ | .nil | .bnil | .hnil | .snil => 0
  | .ite _ t f => 1 + max (nest t) (nest f)
  | .block b => nest b
  | .container _ b => nest b
  | .tryCatch _ _ f _ h => max (1 + nest f) (nest h)
  | .switch _ s => 1 + nest s
  | .cons a r => max (nest a) (nest r)
  | .bcons _ b r => max (1 + nest b) (nest r)
  | .hcons _ _ f _ n => max (1 + nest f) (nest n)
  | .scons _ b r => max (nest b) (nest r)

/-- No exception, and the indentation is `m` at the end. -/
def Fine (m : Int) (r : Res Fmt.St) : Prop := match r with
  | .ok s => s.indent = m
  | .throw _ => False
  | .ub => True

def FineV (m : Int) (r : Res VS) : Prop := match r with
  | .ok s => s.fs.indent = m
  | .throw _ => False
  | .ub => True

theorem Fine.bind {m k : Int} {r : Res Fmt.St} {f : Fmt.St → Res VS} (h : Fine m r) (g : ∀ s, s.indent = m → FineV k (f s)) : FineV k (r >>= f) := by
  cases r with
  | ok s => exact g s h
  | throw e => exact h.elim
  | ub => trivial

theorem FineV.bind {m k : Int} {r : Res VS} {f : VS → Res VS} (h : FineV m r) (g : ∀ s, s.fs.indent = m → FineV k (f s)) : FineV k (r >>= f) := by
  cases r with
  | ok s => exact g s h
  | throw e => exact h.elim
  | ub => trivial

theorem Fine.bindF {m k : Int} {r : Res Fmt.St} {f : Fmt.St → Res Fmt.St} (h : Fine m r) (g : ∀ s, s.indent = m → Fine k (f s)) : Fine k (r >>= f) := by
  cases r with
  | ok s => exact g s h
  | throw e => exact h.elim
  | ub => trivial

theorem fine_indented {s : Fmt.St} {d : WStr} (h0 : 0 ≤ s.indent) (h1 : s.indent ≤ 22) : Fine s.indent (Fmt.appendIndented s d) := by
  unfold Fmt.appendIndented Fmt.indent
  rw [if_pos ⟨h0, h1⟩]
  rfl

theorem fine_start {s : Fmt.St} (h0 : 0 ≤ s.indent) (h1 : s.indent ≤ 22) : Fine s.indent (startLine s) := by
  unfold startLine
  split
  · exact fine_indented h0 h1
  · rfl

theorem fine_open {nl : WStr} {s : Fmt.St} (h0 : 0 ≤ s.indent) (h1 : s.indent ≤ 22) : Fine (s.indent + 1) (Fmt.openBrace nl s) := by
  have e : (if s.onNewline then s else Fmt.newline nl s).indent = s.indent := by split <;> rfl
  unfold Fmt.openBrace
  generalize (if s.onNewline then s else Fmt.newline nl s) = s' at e
  simp only []
  unfold Fmt.appendIndentedLine Fmt.indent
  rw [if_pos (by rw [e]; exact ⟨h0, h1⟩)]
  show s'.indent + 1 = _
  rw [e]

theorem fine_close {nl : WStr} {s : Fmt.St} (h0 : 1 ≤ s.indent) (h1 : s.indent ≤ 23) : Fine (s.indent - 1) (Fmt.closeBrace nl s false) := by
  have e : (if s.onNewline then s else Fmt.newline nl s).indent = s.indent := by split <;> rfl
  unfold Fmt.closeBrace
  generalize (if s.onNewline then s else Fmt.newline nl s) = s' at e
  simp only []
  refine Fine.bindF (fine_indented (s := Fmt.downIndent s') (by show 0 ≤ s'.indent - 1; omega) (by show s'.indent - 1 ≤ 22; omega)) fun s'' h => ?_
  show s''.indent = _
  rw [h]
  show s'.indent - 1 = _
  rw [e]

theorem fine_declare (C : Cfg) (l : List Nat) : ∀ s : VS, 0 ≤ s.fs.indent → s.fs.indent ≤ 22 → FineV s.fs.indent (C.declare l s) := by
  induction l with
  | nil => intro s _ _; rfl
  | cons k r ih =>
    intro s h0 h1
    unfold Cfg.declare
    refine FineV.bind (m := s.fs.indent) ?_ fun s' h => ?_
    · unfold Cfg.declare1
      split
      · rfl
      · refine Fine.bind (fine_start h0 h1) fun fs h => ?_
        have := fine_indented (s := Fmt.appendLine C.nl (Fmt.append (Fmt.append (Fmt.append fs (tyName (C.srcType (C.target k)))) (w " ")) (C.name (C.target k))) (w ";")) (d := [])
          (by show 0 ≤ fs.indent; omega) (by show fs.indent ≤ 22; omega)
        refine Fine.bind this fun fs' h' => ?_
        show fs'.indent = s.fs.indent
        rw [h', ← h]; rfl
    · rw [← h]; exact ih s' (by omega) (by omega)

theorem fine_startBlock (C : Cfg) (lbl : Nat) (b : IL) (s : VS) (h0 : 0 ≤ s.fs.indent) (h1 : s.fs.indent ≤ 22) : FineV s.fs.indent (C.startBlock lbl b s) := by
  have : (C.addLabel lbl b s.fs).indent = s.fs.indent := by
    unfold Cfg.addLabel
    split
    · rfl
    · split <;> rfl
  unfold Cfg.startBlock
  rw [← this]
  exact fine_declare C _ { s with fs := C.addLabel lbl b s.fs } (by rw [← this] at h0; exact h0) (by rw [← this] at h1; exact h1)

theorem fine_endBrace {nl : WStr} {t : IL} {s : Fmt.St} (h0 : 1 ≤ s.indent) (h1 : s.indent ≤ 23) : Fine (s.indent - 1) (endBrace nl t s) := by
  have key : ∀ s' : Fmt.St, s'.indent = s.indent → Fine (s.indent - 1) (Fmt.closeBrace nl s' false) := fun s' e => by
    rw [← e]; exact fine_close (by omega) (by omega)
  unfold endBrace
  cases t <;> exact key _ rfl

theorem fine_case {s : Fmt.St} (ls : LongSet) (h0 : 0 ≤ s.indent) (h1 : s.indent ≤ 22) : Fine s.indent (caseText s ls) := by
  cases ls with
  | nil => rfl
  | cons x r =>
    obtain ⟨lo, hi⟩ := x
    by_cases h : lo = -2 ^ 63
    · simp only [caseText, if_pos h]; exact fine_indented h0 h1
    · simp only [caseText, if_neg h]
      refine Fine.bindF (fine_indented h0 h1) fun s' h => ?_
      exact h

theorem fine_visit (C : Cfg) (t : IL) : ∀ (stk : List Nat) (s : VS), 0 ≤ s.fs.indent → s.fs.indent + nest t ≤ 22 → FineV s.fs.indent (C.visit t stk s) := by
  induction t with
  | nop | act | silent | leave | branch | nil | bnil | hnil | snil => intros; rfl
  | ite c t f iht ihf =>
    intro stk s h0 h1
    simp only [nest] at h1
    simp only [Cfg.visit]
    split
    · trivial
    · refine Fine.bind (fine_open (by show 0 ≤ s.fs.indent; omega) (by show s.fs.indent ≤ 22; omega)) fun fs e => ?_
      have e : fs.indent = s.fs.indent + 1 := e
      refine Fine.bind (fine_indented (by omega) (by omega)) fun fs' e' => ?_
      refine FineV.bind (iht stk { s with fs := fs' } (by show 0 ≤ fs'.indent; omega) (by show fs'.indent + _ ≤ 22; omega)) fun s1 e1 => ?_
      have e1 : s1.fs.indent = fs'.indent := e1
      refine Fine.bind (fine_endBrace (by omega) (by omega)) fun fs2 e2 => ?_
      split
      · show fs2.indent = _; omega
      · refine Fine.bind (fine_indented (by omega) (by omega)) fun fs3 e3 => ?_
        refine Fine.bind (fine_open (by omega) (by omega)) fun fs4 e4 => ?_
        refine Fine.bind (fine_indented (by omega) (by omega)) fun fs5 e5 => ?_
        refine FineV.bind (ihf stk { s1 with fs := fs5 } (by show 0 ≤ fs5.indent; omega) (by show fs5.indent + _ ≤ 22; omega)) fun s6 e6 => ?_
        have e6 : s6.fs.indent = fs5.indent := e6
        refine Fine.bind (fine_endBrace (by omega) (by omega)) fun fs7 e7 => ?_
        show fs7.indent = _; omega
  | block b ih =>
    intro stk s h0 h1
    simp only [nest] at h1
    simp only [Cfg.visit]
    split
    · trivial
    · refine FineV.bind (fine_declare C _ s h0 (by omega)) fun s' e => ?_
      rw [← e]
      exact ih stk s' (by omega) (by omega)
  | container id bs ih =>
    intro stk s h0 h1
    simp only [nest] at h1
    simp only [Cfg.visit]
    refine FineV.bind (ih ((s.n + 1) :: stk) { s with n := s.n + 1 } h0 h1) fun s' e => ?_
    have e : s'.fs.indent = s.fs.indent := e
    split
    · show s'.fs.indent = _; exact e
    · exact e
  | tryCatch id lbl f r hs ihf ihr ihh =>
    intro stk s h0 h1
    simp only [nest] at h1
    simp only [Cfg.visit]
    refine Fine.bind (fine_open (by show 0 ≤ s.fs.indent; omega) (by show s.fs.indent ≤ 22; omega)) fun fs e => ?_
    have e : fs.indent = s.fs.indent + 1 := e
    refine FineV.bind (fine_startBlock C lbl f _ (by show 0 ≤ fs.indent; omega) (by show fs.indent ≤ 22; omega)) fun s1 e1 => ?_
    have e1 : s1.fs.indent = fs.indent := e1
    refine FineV.bind (ihf _ s1 (by omega) (by omega)) fun s2 e2 => ?_
    refine Fine.bind (fine_close (by omega) (by omega)) fun fs3 e3 => ?_
    refine FineV.bind (ihh _ { s2 with fs := fs3 } (by show 0 ≤ fs3.indent; omega) (by show fs3.indent + _ ≤ 22; omega)) fun s4 e4 => ?_
    have e4 : s4.fs.indent = fs3.indent := e4
    show s4.fs.indent = _
    omega
  | switch v ss ih =>
    intro stk s h0 h1
    simp only [nest] at h1
    simp only [Cfg.visit]
    refine Fine.bind (fine_open (by show 0 ≤ s.fs.indent; omega) (by show s.fs.indent ≤ 22; omega)) fun fs e => ?_
    have e : fs.indent = s.fs.indent + 1 := e
    refine FineV.bind (ih _ { s with fs := fs } (by show 0 ≤ fs.indent; omega) (by show fs.indent + _ ≤ 22; omega)) fun s1 e1 => ?_
    have e1 : s1.fs.indent = fs.indent := e1
    refine Fine.bind (fine_close (by omega) (by omega)) fun fs3 e3 => ?_
    show fs3.indent = _
    omega
  | cons a r iha ihr =>
    intro stk s h0 h1
    simp only [nest] at h1
    simp only [Cfg.visit]
    refine Fine.bind (fine_start (by omega) (by omega)) fun fs e => ?_
    refine FineV.bind (iha _ { s with fs := fs } (by show 0 ≤ fs.indent; omega) (by show fs.indent + _ ≤ 22; omega)) fun s1 e1 => ?_
    have e1 : s1.fs.indent = fs.indent := e1
    have key : ∀ fs2 : Fmt.St, fs2.indent = s.fs.indent → FineV s.fs.indent (C.visit r stk { s1 with fs := fs2 }) := fun fs2 e2 => by
      rw [← e2]; exact ihr stk { s1 with fs := fs2 } (by show 0 ≤ fs2.indent; omega) (by show fs2.indent + _ ≤ 22; omega)
    apply key
    split <;> (show s1.fs.indent = _; omega)
  | bcons lbl b r ihb ihr =>
    intro stk s h0 h1
    simp only [nest] at h1
    simp only [Cfg.visit]
    refine Fine.bind (fine_open (by omega) (by omega)) fun fs e => ?_
    refine FineV.bind (fine_startBlock C lbl b _ (by show 0 ≤ fs.indent; omega) (by show fs.indent ≤ 22; omega)) fun s1 e1 => ?_
    have e1 : s1.fs.indent = fs.indent := e1
    refine FineV.bind (ihb _ s1 (by omega) (by omega)) fun s2 e2 => ?_
    refine Fine.bind (fine_close (by omega) (by omega)) fun fs3 e3 => ?_
    have e4 : fs3.indent = s.fs.indent := by omega
    rw [← e4]
    exact ihr _ { s2 with fs := fs3 } (by show 0 ≤ fs3.indent; omega) (by show fs3.indent + _ ≤ 22; omega)
  | hcons hid lbl f r n ihf ihr ihn =>
    intro stk s h0 h1
    simp only [nest] at h1
    simp only [Cfg.visit]
    refine Fine.bind (fine_indented (by omega) (by omega)) fun fs0 e0 => ?_
    refine Fine.bind (fine_open (by omega) (by omega)) fun fs e => ?_
    refine FineV.bind (fine_startBlock C lbl f _ (by show 0 ≤ fs.indent; omega) (by show fs.indent ≤ 22; omega)) fun s1 e1 => ?_
    have e1 : s1.fs.indent = fs.indent := e1
    refine FineV.bind (ihf _ s1 (by omega) (by omega)) fun s2 e2 => ?_
    refine Fine.bind (fine_close (by omega) (by omega)) fun fs3 e3 => ?_
    have e4 : fs3.indent = s.fs.indent := by omega
    rw [← e4]
    exact ihn _ { s2 with fs := fs3 } (by show 0 ≤ fs3.indent; omega) (by show fs3.indent + _ ≤ 22; omega)
  | scons ls b r ihb ihr =>
    intro stk s h0 h1
    simp only [nest] at h1
    simp only [Cfg.visit]
    refine Fine.bind (fine_case ls (by omega) (by omega)) fun fs0 e0 => ?_
    refine Fine.bind (fine_indented (by show 0 ≤ fs0.indent; omega) (by show fs0.indent ≤ 22; omega)) fun fs e => ?_
    have e : fs.indent = fs0.indent := e
    refine FineV.bind (ihb _ { s with fs := fs } (by show 0 ≤ fs.indent; omega) (by show fs.indent + _ ≤ 22; omega)) fun s1 e1 => ?_
    have e1 : s1.fs.indent = fs.indent := e1
    have e4 : (Fmt.appendLine C.nl s1.fs (w ";")).indent = s.fs.indent := by show s1.fs.indent = _; omega
    rw [← e4]
    exact ihr _ { s1 with fs := Fmt.appendLine C.nl s1.fs (w ";") } (by rw [e4]; exact h0) (by rw [e4]; omega)

/-- **C156** A body nested at most 22 levels deep (counting the level it starts at) is written. -/
theorem C156_written (C : Cfg) (params : Nat) (blocks : IL) (fs : Fmt.St) (h0 : 0 ≤ fs.indent) (h1 : fs.indent + nest blocks ≤ 22) (e : Exc) : C.method params blocks fs ≠ .throw e := by
  have := fine_visit C (.container C.main blocks) [] ⟨fs, 0, (C.src.take params).map (·.1)⟩ h0 h1
  unfold Cfg.method
  cases h : C.visit (.container C.main blocks) [] ⟨fs, 0, (C.src.take params).map (·.1)⟩ with
  | ok s => intro h'; cases h'
  | throw x => rw [h] at this; exact this.elim
  | ub => intro h'; cases h'

example : nest facMethod = 3 := by decide

/-- `n` times `if (i > 1)` around `i = i - 1`. -/
def deep : Nat → IL
  | 0 => .act 4
  | n + 1 => .ite 7 (.block (.cons (deep n) .nil)) .nop

/-- **C156** refuted without the bound: a statement inside 22 `if`s is not written. -/
theorem C156_deep_refuted : ∃ b : IL, Shape .blocks (.bcons 0 b .bnil) ∧ nest (.bcons 0 b .bnil) = 23 ∧
    facCfg.method 2 (.bcons 0 b .bnil) { Fmt.initial with onNewline := true } = .throw .argumentOutOfRange := by
  refine ⟨.cons (deep 22) (.cons (.leave 9 0 (some 1)) .nil), by simp [deep, Shape], by decide +kernel, ?_⟩
  have : (match facCfg.method 2 (.bcons 0 (.cons (deep 22) (.cons (.leave 9 0 (some 1)) .nil)) .bnil) { Fmt.initial with onNewline := true } with
    | .throw .argumentOutOfRange => true
    | _ => false) = true := by decide +kernel
  revert this
  cases facCfg.method 2 (.bcons 0 (.cons (deep 22) (.cons (.leave 9 0 (some 1)) .nil)) .bnil) { Fmt.initial with onNewline := true } with
  | throw e => cases e <;> simp
  | _ => simp

end Verif.Text
