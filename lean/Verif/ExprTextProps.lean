import Verif.ExprTextLemmas
import Verif.FmtTextProps
/-!
# C155: the characters written for an integer expression are, for a C++ compiler, an expression with the value of the source
-/
namespace Verif.Text
open Cpp Sem Read Expr
open Verif.IntVal (Ty)

/-! ## Source names -/

/-- The source's variables: identifiers, different from each other, none of them `this`, `Void` or the name of a basic type. -/
structure Source (src : List (WStr × Ty)) : Prop where
  ident : ∀ p ∈ src, CppLex.isIdent p.1 = true
  distinct : (src.map (·.1)).Nodup
  free : ∀ p ∈ src, p.1 ∉ ["this", "Void", "SByte", "Byte", "Int16", "UInt16", "Int32", "UInt32", "Int64", "UInt64"].map w

/-- The variables with the names written for them. -/
def writtenVars (ci : Fmt.CharInfo) (src : List (WStr × Ty)) : List (WStr × Ty) := src.map fun p => (written ci p.1, p.2)

theorem written_ok (ci : Fmt.CharInfo) {n : WStr} (h : CppLex.isIdent n = true) : Fmt.nameText ci n = .ok (written ci n) := by
  cases n with
  | nil => cases h
  | cons c r => unfold written; rw [FmtTextProps.nameText_cases]

theorem written_cases (ci : Fmt.CharInfo) {n : WStr} (h : CppLex.isIdent n = true) (hv : n ≠ w "Void") : written ci n = w "x_" ++ n ∨ written ci n = n := by
  cases n with
  | nil => cases h
  | cons c r =>
    unfold written
    rw [FmtTextProps.nameText_cases]
    simp only []
    split
    · exact .inl rfl
    · exact .inr rfl

theorem Source.scope (ci : Fmt.CharInfo) {src : List (WStr × Ty)} (h : Source src) : Scope (writtenVars ci src) where
  ident := by
    intro p hp
    obtain ⟨q, hq, rfl⟩ := List.mem_map.mp hp
    exact FmtTextProps.C53_identifier ci _ _ (h.ident q hq) (written_ok ci (h.ident q hq))
  keyword := by
    intro p hp hk
    obtain ⟨q, hq, rfl⟩ := List.mem_map.mp hp
    rcases FmtTextProps.C53_keyword_partial ci _ _ (written_ok ci (h.ident q hq)) hk with e | e
    · exact h.free q hq (by rw [e]; simp)
    · exact h.free q hq (by rw [e]; simp)
  distinct := by
    unfold writtenVars
    rw [List.map_map]
    have hd := h.distinct
    have hi := h.ident
    clear h
    induction src with
    | nil => exact List.nodup_nil
    | cons p src ih =>
      rw [List.map_cons, List.nodup_cons] at hd ⊢
      refine ⟨?_, ih hd.2 (fun q hq => hi q (List.mem_cons_of_mem _ hq))⟩
      intro hm
      obtain ⟨q, hq, e⟩ := List.mem_map.mp hm
      apply hd.1
      have hp := hi p List.mem_cons_self
      have hq' := hi q (List.mem_cons_of_mem _ hq)
      have e' : written ci q.1 = written ci p.1 := e
      have := FmtTextProps.C53_injective ci q.1 p.1 (written ci p.1) (by rw [← e']; exact written_ok ci hq') (written_ok ci hp)
      exact List.mem_map.mpr ⟨q, hq, this⟩
  free := by
    intro p hp e he
    obtain ⟨q, hq, rfl⟩ := List.mem_map.mp hp
    have hi := h.ident q hq
    have hf := h.free q hq
    have a1 : ∀ e ∈ library, e.1.head? ≠ some 120 := by decide +kernel
    have a2 : ∀ e ∈ library, CppLex.isIdent e.1 = true → e.1 ∈ ["this", "Void", "SByte", "Byte", "Int16", "UInt16", "Int32", "UInt32", "Int64", "UInt64"].map w := by
      decide +kernel
    rcases written_cases ci hi (by rintro e; apply hf; rw [e]; simp) with hw | hw
    · intro hx
      have := a1 e he
      rw [← hx] at this
      apply this
      show (written ci q.1).head? = _
      rw [hw]; rfl
    · intro hx
      have hx' : q.1 = e.1 := by rw [← hx]; exact hw.symm
      apply hf
      rw [hx']
      exact a2 e he (by rw [← hx']; exact hi)

theorem wellTyped_written (ci : Fmt.CharInfo) (src : List (WStr × Ty)) (x : X) (h : WellTyped src x) : WellTyped (writtenVars ci src) x := by
  induction x with
  | var ty k =>
    obtain ⟨n, hn⟩ := h
    exact ⟨written ci n, by unfold writtenVars; rw [List.getElem?_map, hn]; rfl⟩
  | i4 n => exact h
  | i8 n => exact h
  | bin o un chk l r ihl ihr => exact ⟨ihl h.1, ihr h.2⟩
  | shift o un l r ihl ihr => exact ⟨ihl h.1, ihr h.2⟩
  | comp o un l r ihl ihr => exact ⟨ihl h.1, ihr h.2⟩
  | bitNot e ih => exact ih h
  | conv ty chk un e ih => exact ih h
  | ite c t f ihc iht ihf => exact ⟨ihc h.1, iht h.2.1, ihf h.2.2⟩

/-! ## C155 -/

/-- The characters the translator writes for an expression over the variables `src`. -/
def output (ci : Fmt.CharInfo) (src : List (WStr × Ty)) (x : X) : WStr := text (nameOf (writtenVars ci src)) x

/-- C155: the characters written for an integer expression are one C++ expression, and it has the type and, for all values of the variables, the value of the tree of C94
(whose value is compared with the source's there). The conditions: variables with names of their own, constants that fit, no conditional as a condition. -/
theorem C155_reads_partial (ci : Fmt.CharInfo) (src : List (WStr × Ty)) (hs : Source src) (x : X) (h : WellTyped src x) (hn : NoCond x) :
    ∃ c, Reads (writtenVars ci src) (output ci src x) c ∧ c.ty = (trK x none).ty ∧ ∀ env, c.eval env = (trK x none).eval env := by
  obtain ⟨ls, h1, h2⟩ := (tx_text _ (hs.scope ci) [] x (wellTyped_written ci src x h) false).reads
  obtain ⟨c, h3, h4⟩ := typed_text (writtenVars ci src) [] x (wellTyped_written ci src x h) hn
  exact ⟨c, ⟨ls, _, _, h1, h2, C60_parses_partial _ (toE_ok (fun k => atomic_atom _) _ x hn) (le2 (toE_level (fun k => atomic_atom _) _ x)), h3⟩, h4⟩

/-- C155: on the expressions on which C++'s typing rules agree with the IL, what a C++ compiler reads from the characters computes, stored in a variable of type `ty`, exactly
what the source stores, or throws the same exception; the C++ being defined and the source not raising OverflowException. -/
theorem C155_value_partial (ci : Fmt.CharInfo) (src : List (WStr × Ty)) (hs : Source src) (x : X) (h : WellTyped src x) (ha : Agree x) (ty : Ty)
    (hty : ¬ (x.width = .w32 ∧ tyW ty = .w64)) :
    ∃ c, Reads (writtenVars ci src) (output ci src x) c ∧ (∀ c', Reads (writtenVars ci src) (output ci src x) c' → c' = c) ∧
      ∀ env, c.eval env ≠ .ub → ilStore env ty x ≠ .throw .overflow → (c.eval env >>= fun v => .ok (ty.wrap v)) = ilStore env ty x := by
  obtain ⟨c, hr, _, hv⟩ := C155_reads_partial ci src hs x h (agree_noCond x ha)
  refine ⟨c, hr, fun c' h' => h'.unique hr, fun env hub hov => ?_⟩
  rw [hv] at hub ⊢
  refine C94_value_partial env ty x ha hty ?_ hov
  show (trK x none).eval env >>= _ ≠ _
  cases he : (trK x none).eval env with
  | ub => exact absurd he hub
  | throw e => simp
  | ok v => simp

/-- `int a, signed, Num3; long d; uint u`. -/
def sampleVars : List (WStr × Ty) := [(w "a", .int32), (w "signed", .int32), (w "Num3", .int32), (w "d", .int64), (w "u", .uint32)]

theorem sampleSource : Source sampleVars where
  ident := by decide
  distinct := by decide
  free := by decide

theorem sampleTyped : WellTyped sampleVars Sem.sample := by
  simp [Sem.sample, WellTyped, sampleVars, I32]

/-- The characters of the sample of C94. -/
theorem sampleText : output Fmt.asciiInfo sampleVars Sem.sample =
    w "(Math::Divide((Int64)((Int64)((x_a * 3) + (x_signed >> Num3))),(Int64)x_d) ^ ((Int64)(((x_u) < 7) ? (1) : (-5))))" := by decide +kernel

/-- Its value, read back from the characters. -/
example : ∃ c, Reads (writtenVars Fmt.asciiInfo sampleVars)
      (w "(Math::Divide((Int64)((Int64)((x_a * 3) + (x_signed >> Num3))),(Int64)x_d) ^ ((Int64)(((x_u) < 7) ? (1) : (-5))))") c ∧
    (c.eval (fun k => [100, -64, 2, -7, 9].getD k 0) ≠ .ub →
      (c.eval (fun k => [100, -64, 2, -7, 9].getD k 0) >>= fun v => .ok (Ty.int64.wrap v)) = .ok 35) := by
  obtain ⟨c, h1, _, h2⟩ := C155_value_partial Fmt.asciiInfo sampleVars sampleSource Sem.sample sampleTyped sample_agrees .int64 (by decide)
  refine ⟨c, ?_, fun hub => ?_⟩
  · rw [← sampleText]; exact h1
  · rw [h2 _ hub (by decide +kernel)]; decide +kernel

/-- C155 fails for a conditional in condition position: `(a && b) ? d : e` is written `(a ? (b) : (0) ? (d) : (e))`, which a C++ compiler reads as `a ? b : (0 ? d : e)`; with `a`
and `b` true it yields `b`, the source `d`. -/
theorem C155_condition_refuted :
    let src := [(w "A", Ty.int32), (w "B", Ty.int32), (w "D", Ty.int32), (w "E", Ty.int32)]
    let x : X := .ite (.ite (.var .int32 0) (.var .int32 1) (.i4 0)) (.var .int32 2) (.var .int32 3)
    output Fmt.asciiInfo src x = w "(A ? (B) : (0) ? (D) : (E))" ∧
    ∃ c, Reads (writtenVars Fmt.asciiInfo src) (output Fmt.asciiInfo src x) c ∧ ∃ env, c.eval env = .ok 1 ∧ x.eval env = .ok 7 := by
  refine ⟨by decide +kernel, .tern (.var .int32 0) (.var .int32 1) (.tern (.lit 0) (.var .int32 2) (.var .int32 3)), ?_, fun k => [1, 1, 7, 0].getD k 0, by decide +kernel⟩
  exact ⟨_, _, _, rfl, rfl, Parses.of_run (n := 60) rfl, rfl⟩

/-- C155 fails for a variable called `Void`, which is written `void`: the text is no C++ expression. -/
theorem C155_name_refuted :
    output Fmt.asciiInfo [(w "A", Ty.int32), (w "Void", Ty.int32)] (.bin (.arith .add) false false (.var .int32 0) (.var .int32 1)) = w "(A + void)" ∧
    ∀ c, ¬ Reads (writtenVars Fmt.asciiInfo [(w "A", Ty.int32), (w "Void", Ty.int32)]) (w "(A + void)") c := by
  refine ⟨by decide +kernel, ?_⟩
  rintro c ⟨ls, ts, t, h1, h2, _⟩
  have e : lex (w "(A + void)") = some [.punct (w "("), .word (w "A"), .punct (w "+"), .word (w "void"), .punct (w ")")] := by decide +kernel
  rw [e, Option.some.injEq] at h1
  subst h1
  revert h2
  have : resolve (entities (writtenVars Fmt.asciiInfo [(w "A", Ty.int32), (w "Void", Ty.int32)]))
    [.punct (w "("), .word (w "A"), .punct (w "+"), .word (w "void"), .punct (w ")")] = none := by decide +kernel
  rw [this]
  intro h; cases h

end Verif.Text
