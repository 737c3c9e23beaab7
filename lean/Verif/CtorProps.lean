import Verif.CtorModel
import Verif.MemberProps
import Verif.ConstSpec
import Verif.FmtTextProps
import Verif.ConstProps
/-!
# C108, C109, C110: constructor initialisers, parameter passing, default constructors
-/
namespace Verif.Ctor
open Verif.Types (Ty Kind formatType declText)
open Verif.Fmt (CharInfo nameText)
open Verif.Member (Param PMod Pairs bind_ok_inv)
open Verif.CppLex (stringValue charValue isIdent)
open Verif.ConstSpec (intConstant)

/-! ### Specification of C108 -/

/-- The C++ text denotes the literal. -/
def LitDenotes : Lit → WStr → Prop
  | .int v, t => ∃ r, intConstant t = some r ∧ r.value = v
  | .char c, t => charValue t = some c
  | .bool b, t => t = if b then w "true" else w "false"
  | .double d, t => ∃ p q, ConstSpec.parts d = some p ∧ ConstSpec.parts t = some q ∧ q.isFloating = true ∧ ConstSpec.SameNumber q.num p.num
  | .single d, t => ∃ l p q, t = w "((Single)" ++ l ++ w ")" ∧ ConstSpec.parts d = some p ∧ ConstSpec.parts l = some q ∧ ConstSpec.SameNumber q.num p.num

/-- The C++ text denotes the argument; a parameter has the spelling it is declared with. -/
def Denotes (ci : CharInfo) : Arg → WStr → Prop
  | .ident n, t => nameText ci n = .ok t
  | .str s, t => ∃ l, t = w "(new String(" ++ l ++ w "))" ∧ stringValue l = some s
  | .lit l none, t => LitDenotes l t
  | .lit l (some ty), t => ∃ u, t = w "new " ++ ty ++ w "Value(" ++ u ++ w ")" ∧ LitDenotes l u
  | .null, t => t = w "nullptr"
  | .silent _, t => t ≠ []
  | .rejected _, _ => True
  | .named a, t => Denotes ci a t

/-- Data a C# program can contain: names are not empty, characters are UTF-16 code units, the text of a floating-point number is a decimal number. -/
def LitValid : Lit → Prop
  | .char c => c < 65536
  | .double d => (ConstSpec.parts d).isSome
  | .single d => (ConstSpec.parts d).isSome
  | _ => True
def Valid : Arg → Prop
  | .ident n => n ≠ []
  | .str s => ∀ c ∈ s, c < 65536
  | .lit l _ => LitValid l
  | .named a => Valid a
  | _ => True

/-- The arguments that are translated: parameters, null, and literals other than surrogates, integers beyond the range of `long` (and its minimum) and
doubles whose text has neither point nor exponent. -/
def LitSupported : Lit → Prop
  | .int v => -9223372036854775807 ≤ v ∧ v ≤ 9223372036854775807
  | .char c => ¬ (0xD800 ≤ c ∧ c ≤ 0xDFFF)
  | .bool _ => True
  | .double d => ∃ p, ConstSpec.parts d = some p ∧ p.isFloating = true
  | .single _ => True
def Supported : Arg → Prop
  | .ident _ => True
  | .str s => ∀ c ∈ s, ¬ (0xD800 ≤ c ∧ c ≤ 0xDFFF)
  | .lit l _ => LitSupported l
  | .null => True
  | .silent _ => False
  | .rejected _ => False
  | .named a => Supported a

/-! ### C108 -/

theorem intLiteral_big (n : Nat) (h : 9223372036854775807 < n) : ConstSpec.intLiteral (dec n) = none := by
  unfold ConstSpec.intLiteral
  rw [numeral_dec, if_neg (by omega : ¬ n ≤ 2147483647), if_neg (by omega : ¬ n ≤ 9223372036854775807)]
  split
  · rfl
  · split <;> rfl

theorem int_denotes (v : Int) : LitDenotes (.int v) (decInt v) ↔ LitSupported (.int v) := by
  unfold LitDenotes LitSupported
  simp only []
  constructor
  · rintro ⟨r, hr, _⟩
    apply Classical.byContradiction
    intro hn
    unfold decInt at hr
    by_cases hv : v < 0
    · rw [if_pos hv] at hr
      unfold intConstant at hr
      simp only [] at hr
      rw [if_pos trivial, intLiteral_big _ (by omega)] at hr
      cases hr
    · rw [if_neg hv] at hr
      have hc : ∃ c cs, dec v.toNat = c :: cs := by
        cases h : dec v.toNat with
        | nil => exact absurd h (dec_ne_nil _)
        | cons c cs => exact ⟨c, cs, rfl⟩
      obtain ⟨c, cs, hc⟩ := hc
      have hd : isDigit c = true := dec_digits v.toNat c (by rw [hc]; exact List.mem_cons_self)
      have h45 : c ≠ 45 := by intro e; subst e; revert hd; decide
      rw [hc] at hr
      unfold intConstant at hr
      simp only [] at hr
      rw [if_neg h45, if_pos hd, ← hc, intLiteral_big _ (by omega)] at hr
      cases hr
  · intro h
    exact ⟨_, Const.intConstant_dec v (by unfold I64; omega) (by omega), rfl⟩

theorem lit_denotes (l : Lit) (hv : LitValid l) : LitDenotes l (litText l) ↔ LitSupported l := by
  cases l with
  | int v => exact int_denotes v
  | char c =>
    show charValue (Fmt.charLiteral c) = some c ↔ ¬ (0xD800 ≤ c ∧ c ≤ 0xDFFF)
    rw [FmtTextProps.C55_literal c hv]
    by_cases h : CppLex.isSurrogate c = true
    · rw [if_pos h]
      unfold CppLex.isSurrogate at h
      rw [Bool.and_eq_true, decide_eq_true_eq, decide_eq_true_eq] at h
      exact ⟨fun e => (by cases e), fun e => absurd h e⟩
    · rw [if_neg h]
      unfold CppLex.isSurrogate at h
      rw [Bool.and_eq_true, decide_eq_true_eq, decide_eq_true_eq] at h
      exact ⟨fun _ => h, fun _ => rfl⟩
  | bool b => exact ⟨fun _ => trivial, fun _ => rfl⟩
  | double d =>
    constructor
    · rintro ⟨p, q, h1, h2, h3, _⟩
      exact ⟨q, h2, h3⟩
    · rintro ⟨p, h1, h2⟩
      exact ⟨p, p, h1, h1, h2, rfl⟩
  | single d =>
    obtain ⟨p, hp⟩ := Option.isSome_iff_exists.mp hv
    exact ⟨fun _ => trivial, fun _ => ⟨d, p, p, rfl, hp, hp, rfl⟩⟩

theorem str_denotes (s : WStr) (hv : ∀ c ∈ s, c < 65536) :
    stringValue (Fmt.stringLiteral s) = some s ↔ ∀ c ∈ s, ¬ (0xD800 ≤ c ∧ c ≤ 0xDFFF) := by
  rw [FmtTextProps.C54_literal s hv]
  by_cases h : s.any CppLex.isSurrogate = true
  · rw [if_pos h]
    rw [List.any_eq_true] at h
    obtain ⟨c, hc, e⟩ := h
    unfold CppLex.isSurrogate at e
    rw [Bool.and_eq_true, decide_eq_true_eq, decide_eq_true_eq] at e
    exact ⟨fun e => (by cases e), fun h => absurd e (h c hc)⟩
  · rw [if_neg h]
    refine ⟨fun _ c hc e => h ?_, fun _ => rfl⟩
    rw [List.any_eq_true]
    refine ⟨c, hc, ?_⟩
    unfold CppLex.isSurrogate
    rw [Bool.and_eq_true, decide_eq_true_eq, decide_eq_true_eq]
    exact e

theorem arg_denotes (ci : CharInfo) (a : Arg) (hv : Valid a) : (∃ t, argText ci a = .ok t ∧ Denotes ci a t) ↔ Supported a := by
  induction a with
  | ident n =>
    obtain ⟨t, ht⟩ := (FmtTextProps.C53_total ci n).mpr hv
    exact ⟨fun _ => trivial, fun _ => ⟨t, ht, ht⟩⟩
  | str s =>
    refine Iff.trans ?_ (str_denotes s hv)
    constructor
    · rintro ⟨t, ht, l, hl, h⟩
      rw [argText, Res.ok.injEq, hl] at ht
      rw [List.append_assoc, List.append_assoc] at ht
      have := List.append_cancel_right (List.append_cancel_left ht)
      rw [this]; exact h
    · intro h
      exact ⟨_, rfl, _, rfl, h⟩
  | lit l b =>
    refine Iff.trans ?_ (lit_denotes l hv)
    cases b with
    | none =>
      constructor
      · rintro ⟨t, ht, h⟩
        rw [argText, Res.ok.injEq] at ht
        rw [ht]; exact h
      · intro h; exact ⟨_, rfl, h⟩
    | some ty =>
      constructor
      · rintro ⟨t, ht, u, hu, h⟩
        rw [argText, Res.ok.injEq, hu] at ht
        have := List.append_cancel_left (List.append_cancel_right ht)
        rw [this]; exact h
      · intro h; exact ⟨_, rfl, _, rfl, h⟩
  | null => exact ⟨fun _ => trivial, fun _ => ⟨_, rfl, rfl⟩⟩
  | silent k =>
    constructor
    · rintro ⟨t, ht, h⟩
      rw [argText, Res.ok.injEq] at ht
      exact absurd ht.symm h
    · intro h; exact absurd h id
  | rejected k =>
    constructor
    · rintro ⟨t, ht, _⟩; cases ht
    · intro h; exact absurd h id
  | named a ih => exact ih hv

theorem args_denote (ci : CharInfo) (as : List Arg) (hv : ∀ a ∈ as, Valid a) :
    (∃ ts, argTexts ci as = .ok ts ∧ Pairs (Denotes ci) as ts) ↔ ∀ a ∈ as, Supported a := by
  induction as with
  | nil => exact ⟨fun _ a ha => (by cases ha), fun _ => ⟨[], rfl, .nil⟩⟩
  | cons a as ih =>
    have ha := arg_denotes ci a (hv a List.mem_cons_self)
    have ih := ih (fun x hx => hv x (List.mem_cons_of_mem _ hx))
    constructor
    · rintro ⟨ts, h, hp⟩
      rw [argTexts] at h
      obtain ⟨t, h1, h⟩ := bind_ok_inv h
      obtain ⟨us, h2, h⟩ := bind_ok_inv h
      rw [Res.ok.injEq] at h
      subst h
      cases hp with
      | cons hab hp =>
        intro x hx
        rcases List.mem_cons.mp hx with e | hx
        · rw [e]; exact ha.mp ⟨t, h1, hab⟩
        · exact ih.mp ⟨us, h2, hp⟩ x hx
    · intro h
      obtain ⟨t, h1, h2⟩ := ha.mpr (h a List.mem_cons_self)
      obtain ⟨us, h3, h4⟩ := ih.mpr (fun x hx => h x (List.mem_cons_of_mem _ hx))
      refine ⟨t :: us, ?_, .cons h2 h4⟩
      rw [argTexts, h1, Res.bind_ok, h3, Res.bind_ok]

/-- C108 (partial): a constructor's initialiser names the base class and passes it, one for one, texts that denote the arguments, exactly when it is not
`: this` and every argument is a parameter, null or a supported literal.  Missing: everything else (refuted below). -/
theorem C108_initializer_partial (ci : CharInfo) (this : Bool) (base : Ty) (q : WStr) (hq : formatType ci base = .ok q) (hq' : q ≠ w "this")
    (args : List Arg) (hv : ∀ a ∈ args, Valid a) :
    (∃ i, initializer ci this base args = .ok i ∧ i.target = q ∧ Pairs (Denotes ci) args i.args) ↔ this = false ∧ ∀ a ∈ args, Supported a := by
  rw [← args_denote ci args hv]
  unfold initializer
  cases this with
  | false =>
    rw [if_neg (by decide), hq, Res.bind_ok]
    constructor
    · rintro ⟨i, h, h1, h2⟩
      obtain ⟨ts, h3, h⟩ := bind_ok_inv h
      rw [Res.ok.injEq] at h; subst h
      exact ⟨rfl, ts, h3, h2⟩
    · rintro ⟨_, ts, h1, h2⟩
      exact ⟨⟨q, ts⟩, by rw [h1, Res.bind_ok], rfl, h2⟩
  | true =>
    rw [if_pos rfl, Res.bind_ok]
    constructor
    · rintro ⟨i, h, h1, h2⟩
      obtain ⟨ts, h3, h⟩ := bind_ok_inv h
      rw [Res.ok.injEq] at h; subst h
      exact absurd h1.symm hq'
    · rintro ⟨h, _⟩; cases h

/-- C108 is false as stated: an argument that is a cast, a member, a call, an arithmetic or conditional expression, an element, a new array or a default value
is dropped without notice, so that a call with one such argument is the call without arguments. -/
theorem C108_dropped_refuted (ci : CharInfo) (base : Ty) (k : Silent) :
    (initializer ci false base [.silent k] >>= fun i => .ok i.text) = (initializer ci false base [] >>= fun i => .ok i.text) := by
  unfold initializer
  rw [if_neg (by decide)]
  cases formatType ci base with
  | ok q =>
    show Res.ok _ = Res.ok _
    congr 1
  | throw e => rfl
  | ub => rfl

/-- C108 is false as stated: a constructor that calls another constructor of its class is written with `: this`, which is not C++. -/
theorem C108_this_refuted (ci : CharInfo) (base : Ty) (n : WStr) (hn : n ≠ []) :
    ∃ i, initializer ci true base [.ident n] = .ok i ∧ ∃ r, i.text = w ": this (" ++ r := by
  obtain ⟨t, ht⟩ := (FmtTextProps.C53_total ci n).mpr hn
  refine ⟨⟨w "this", [t]⟩, ?_, t ++ w ")", ?_⟩
  · unfold initializer
    rw [if_pos rfl, Res.bind_ok, argTexts, argText, ht, Res.bind_ok, argTexts, Res.bind_ok, Res.bind_ok]
  · show w ": " ++ w "this" ++ w " (" ++ t ++ w ")" = _
    have : w ": this (" = w ": " ++ w "this" ++ w " (" := by decide +kernel
    simp only [this, List.append_assoc]

/-- C108 is false as stated: the double 2.0 is passed as the int 2. -/
theorem C108_double_refuted : litText (.double (w "2")) = w "2" ∧ intConstant (w "2") = some ⟨.int32, 2⟩ := by decide +kernel

example : initializer Fmt.asciiInfo false (.named (w "Shape") .class) [.ident (w "size"), .str (w "a\n"), .lit (.int (-5)) none, .lit (.int 7) (some (w "Int32")), .null] =
    .ok ⟨w "Shape", [w "x_size", w "(new String(L\"a\\n\"))", w "-5", w "new Int32Value(7)", w "nullptr"]⟩ := by decide +kernel
example : ∀ a ∈ [Arg.ident (w "size"), .lit (.int (-5)) none, .null], Valid a ∧ Supported a := by
  intro a ha
  simp only [List.mem_cons, List.not_mem_nil, or_false] at ha
  rcases ha with h | h | h <;> subst h
  · exact ⟨by show w "size" ≠ []; decide +kernel, trivial⟩
  · exact ⟨trivial, by show _ ∧ _; omega⟩
  · exact ⟨trivial, trivial⟩

/-! ### Specification of C109 -/

/-- A C++ declaration read from its text: the name of the type, the `*` and `&` after it, the declared name. -/
structure Decl where
  base : WStr
  marks : List Nat
  name : WStr
  deriving DecidableEq, Repr

/-- `*` and `&` (and blanks) up to the next other character. -/
def readMarks : WStr → List Nat × WStr
  | [] => ([], [])
  | c :: cs => if c = 32 then readMarks cs else if c = 42 ∨ c = 38 then (c :: (readMarks cs).1, (readMarks cs).2) else ([], c :: cs)

/-- The type name ends at a blank, `*` or `&`. -/
def readBase : WStr → WStr × WStr
  | [] => ([], [])
  | c :: cs => if c = 32 ∨ c = 42 ∨ c = 38 then ([], c :: cs) else (c :: (readBase cs).1, (readBase cs).2)

def readDecl (t : WStr) : Decl := ⟨(readBase t).1, (readMarks (readBase t).2).1, (readMarks (readBase t).2).2⟩

/-- A parameter so declared can be initialised with a variable so declared: by value, or as a reference to it. -/
def Binds (param var : Decl) : Prop := param.base = var.base ∧ (param.marks = var.marks ∨ param.marks = var.marks ++ [38])

/-- The parameter is another name for the variable. -/
def Aliases (param var : Decl) : Prop := param.base = var.base ∧ param.marks = var.marks ++ [38]

/-- The declaration of a variable: type, blank, name (`DeclareLocalVariables`, MyIlInstructionVisitor.cs, and `VisitFieldDeclaration`). -/
def variableText (ci : CharInfo) (ty : Ty) (name : WStr) : Res WStr :=
  declText ci ty >>= fun t => nameText ci name >>= fun n => .ok (t ++ [32] ++ n)

/-! ### C109 -/

theorem ident_char (t : WStr) (h : isIdent t = true) : ∀ c ∈ t, c ≠ 32 ∧ c ≠ 42 ∧ c ≠ 38 := by
  cases t with
  | nil => cases h
  | cons a r =>
    simp only [isIdent, Bool.and_eq_true, List.all_eq_true, Bool.or_eq_true, beq_iff_eq, decide_eq_true_eq] at h
    intro c hc
    rcases List.mem_cons.mp hc with e | hc
    · subst e; omega
    · have := h.2 c hc; omega

theorem readBase_append (t r : WStr) (h : ∀ c ∈ t, c ≠ 32 ∧ c ≠ 42 ∧ c ≠ 38) (hr : r.head?.all (fun c => c = 32 || c = 42 || c = 38)) :
    readBase (t ++ r) = (t, r) := by
  induction t with
  | nil =>
    cases r with
    | nil => rfl
    | cons a r =>
      simp at hr
      rw [List.nil_append, readBase, if_pos (by omega)]
  | cons c t ih =>
    have hc := h c List.mem_cons_self
    rw [List.cons_append, readBase, if_neg (by omega), ih (fun x hx => h x (List.mem_cons_of_mem _ hx))]

theorem readMarks_ident (t : WStr) (h : isIdent t = true) : readMarks t = ([], t) := by
  cases t with
  | nil => cases h
  | cons a r =>
    have := ident_char _ h a List.mem_cons_self
    rw [readMarks, if_neg this.1, if_neg (by omega)]

/-- How a parameter is read: the type, `*` for a reference type, then `&` for `ref` and `*` for `out`. -/
theorem param_read (ci : CharInfo) (ty : WStr) (k : Kind) (name : WStr) (m : PMod) (t : WStr) (ht : isIdent ty = true) (hn : isIdent name = true)
    (h : Member.paramText ci ⟨.named ty k, m, name⟩ = .ok t) :
    ∃ b n, readDecl t = ⟨b, (if Types.isPointer (.named ty k) then [42] else []) ++ (match m with | .ref => [38] | .out => [42] | _ => []), n⟩ ∧
      formatType ci (.named ty k) = .ok b ∧ nameText ci name = .ok n := by
  unfold Member.paramText at h
  obtain ⟨d, h1, h⟩ := bind_ok_inv h
  obtain ⟨n, h2, h⟩ := bind_ok_inv h
  rw [Res.ok.injEq] at h
  unfold declText at h1
  obtain ⟨b, h3, h1⟩ := bind_ok_inv h1
  rw [Res.ok.injEq] at h1
  refine ⟨b, n, ?_, h3, h2⟩
  have hb : isIdent b = true := by
    unfold formatType at h3
    simp only [] at h3
    split at h3
    · rw [Member.array_text, Res.ok.injEq] at h3; rw [← h3]; decide +kernel
    · exact FmtTextProps.C53_identifier ci ty b ht h3
  have hn' : isIdent n = true := FmtTextProps.C53_identifier ci name n hn h2
  have hm := readMarks_ident n hn'
  subst h; subst h1
  have hw1 : w "& " = [38, 32] := by decide +kernel
  have hw2 : w "* " = [42, 32] := by decide +kernel
  unfold readDecl
  by_cases hp : Types.isPointer (.named ty k) = true
  · rw [if_pos hp, List.append_assoc, List.append_assoc, List.append_assoc, readBase_append b _ (ident_char b hb) (by simp)]
    cases m <;> simp [Member.modText, readMarks, hw1, hw2, hm, hp]
  · rw [if_neg hp, List.append_assoc, List.append_assoc, readBase_append b _ (ident_char b hb) (by cases m <;> simp [Member.modText, hw1, hw2])]
    cases m <;> simp [Member.modText, readMarks, hw1, hw2, hm, hp]

theorem variable_read (ci : CharInfo) (ty : WStr) (k : Kind) (name : WStr) (t : WStr) (ht : isIdent ty = true) (hn : isIdent name = true)
    (h : variableText ci (.named ty k) name = .ok t) :
    ∃ b n, readDecl t = ⟨b, if Types.isPointer (.named ty k) then [42] else [], n⟩ ∧ formatType ci (.named ty k) = .ok b ∧ nameText ci name = .ok n := by
  have e : Member.paramText ci ⟨.named ty k, .none, name⟩ = .ok t := by
    unfold Member.paramText
    unfold variableText at h
    obtain ⟨d, h1, h⟩ := bind_ok_inv h
    obtain ⟨n, h2, h⟩ := bind_ok_inv h
    show (declText ci (.named ty k) >>= fun t => nameText ci name >>= fun n => .ok (t ++ Member.modText .none ++ [32] ++ n)) = _
    rw [h1, Res.bind_ok, h2, Res.bind_ok, show Member.modText .none = [] from rfl, List.append_nil]
    exact h
  obtain ⟨b, n, h1, h2, h3⟩ := param_read ci ty k name .none t ht hn e
  refine ⟨b, n, ?_, h2, h3⟩
  rw [h1, List.append_nil]

/-- C109 (partial): a variable can be passed for a parameter of its type that is not `out` (the call writes the variable itself), and the parameter is another
name for the variable exactly when it is a `ref` parameter.  Missing: `out` parameters, refuted below. -/
theorem C109_passing_partial (ci : CharInfo) (ty : WStr) (k : Kind) (pname vname : WStr) (m : PMod) (ht : isIdent ty = true) (hp : isIdent pname = true)
    (hv : isIdent vname = true) (pt vt : WStr) (h1 : Member.paramText ci ⟨.named ty k, m, pname⟩ = .ok pt) (h2 : variableText ci (.named ty k) vname = .ok vt)
    (hm : m ≠ .out) : Binds (readDecl pt) (readDecl vt) ∧ (Aliases (readDecl pt) (readDecl vt) ↔ m = .ref) := by
  obtain ⟨b, n, e1, f1, _⟩ := param_read ci ty k pname m pt ht hp h1
  obtain ⟨b', n', e2, f2, _⟩ := variable_read ci ty k vname vt ht hv h2
  rw [f1, Res.ok.injEq] at f2
  subst f2
  rw [e1, e2]
  unfold Binds Aliases
  cases m <;> simp at hm ⊢

/-- C109 is false as stated: no variable can be passed for an `out` parameter of its type, which is a pointer to that type. -/
theorem C109_out_refuted (ci : CharInfo) (ty : WStr) (k : Kind) (pname vname : WStr) (ht : isIdent ty = true) (hp : isIdent pname = true)
    (hv : isIdent vname = true) (pt vt : WStr) (h1 : Member.paramText ci ⟨.named ty k, .out, pname⟩ = .ok pt) (h2 : variableText ci (.named ty k) vname = .ok vt) :
    ¬ Binds (readDecl pt) (readDecl vt) := by
  obtain ⟨b, n, e1, f1, _⟩ := param_read ci ty k pname .out pt ht hp h1
  obtain ⟨b', n', e2, f2, _⟩ := variable_read ci ty k vname vt ht hv h2
  rw [e1, e2]
  unfold Binds
  simp

example : Member.paramText Fmt.asciiInfo ⟨.named (w "Shape") .class, .ref, w "s"⟩ = .ok (w "Shape*&  x_s") ∧
    variableText Fmt.asciiInfo (.named (w "Shape") .class) (w "mine") = .ok (w "Shape* x_mine") ∧ isIdent (w "Shape") = true ∧
    readDecl (w "Shape*&  x_s") = ⟨w "Shape", [42, 38], w "x_s"⟩ := by decide +kernel
example : Member.paramText Fmt.asciiInfo ⟨.named (w "Int32") .struct, .out, w "n"⟩ = .ok (w "Int32*  x_n") := by decide +kernel

/-! ### C110 -/

/-- The C++ struct can be default-constructed: it declares no constructor, or one without parameters, or the translator adds one. -/
def DefaultConstructible (ms : List Member.Member) : Prop :=
  (∀ ps, .ctor false ps ∉ ms) ∨ .ctor false [] ∈ ms ∨ generatesDefault true ms = true

/-- C#: static constructors have no parameters. -/
def StaticHasNone (ms : List Member.Member) : Prop := ∀ ps, .ctor true ps ∈ ms → ps = []

theorem hadCtors_fst (ms : List Member.Member) : (hadCtors ms).1 = true ↔ ∃ s ps, Member.Member.ctor s ps ∈ ms := by
  induction ms with
  | nil => simp [hadCtors]
  | cons m ms ih =>
    cases m with
    | ctor s ps =>
      rw [hadCtors]
      exact ⟨fun _ => ⟨s, ps, List.mem_cons_self⟩, fun _ => rfl⟩
    | _ => simp [hadCtors, ih]

theorem hadCtors_snd (ms : List Member.Member) : (hadCtors ms).2 = true ↔ ∃ s, Member.Member.ctor s [] ∈ ms := by
  induction ms with
  | nil => simp [hadCtors]
  | cons m ms ih =>
    cases m with
    | ctor s ps =>
      rw [hadCtors]
      simp only [Bool.or_eq_true, ih, List.isEmpty_iff]
      constructor
      · rintro (h | ⟨s', h⟩)
        · subst h; exact ⟨s, List.mem_cons_self⟩
        · exact ⟨s', List.mem_cons_of_mem _ h⟩
      · rintro ⟨s', h⟩
        rcases List.mem_cons.mp h with h | h
        · cases h; exact .inl rfl
        · exact .inr ⟨s', h⟩
    | _ => simp [hadCtors, ih]

/-- C110 (partial): a struct can be default-constructed, as every C# struct can, exactly when it has no static constructor, or no constructor with parameters
beside it, or one without.  Missing: the other structs, refuted below. -/
theorem C110_default_partial (ms : List Member.Member) (hs : StaticHasNone ms) :
    DefaultConstructible ms ↔ ¬ (.ctor true [] ∈ ms ∧ (∃ ps, .ctor false ps ∈ ms) ∧ .ctor false [] ∉ ms) := by
  unfold DefaultConstructible generatesDefault
  have h1 := hadCtors_fst ms
  have h2 := hadCtors_snd ms
  by_cases hst : Member.Member.ctor true [] ∈ ms
  · have e2 : (hadCtors ms).2 = true := h2.mpr ⟨true, hst⟩
    rw [e2]
    simp only [Bool.not_true, Bool.and_false, Bool.false_eq_true, or_false, hst, true_and]
    constructor
    · rintro (h | h) ⟨⟨ps, hp⟩, hn⟩
      · exact h ps hp
      · exact hn h
    · intro h
      by_cases hd : Member.Member.ctor false [] ∈ ms
      · exact .inr hd
      · refine .inl fun ps hp => h ⟨⟨ps, hp⟩, hd⟩
  · simp only [hst, false_and, not_false_eq_true, iff_true]
    by_cases hd : Member.Member.ctor false [] ∈ ms
    · exact .inr (.inl hd)
    · have e2 : (hadCtors ms).2 = false := by
        rw [← Bool.not_eq_true, h2]
        rintro ⟨s, h⟩
        cases s
        · exact hd h
        · exact hst h
      by_cases hc : ∃ ps, Member.Member.ctor false ps ∈ ms
      · obtain ⟨ps, hp⟩ := hc
        have e1 : (hadCtors ms).1 = true := h1.mpr ⟨false, ps, hp⟩
        rw [e1, e2]
        exact .inr (.inr rfl)
      · exact .inl fun ps hp => hc ⟨ps, hp⟩

/-- C110: the added constructor never repeats a declared one; none is added to a class. -/
theorem C110_no_duplicate (isStruct : Bool) (ms : List Member.Member) (h : generatesDefault isStruct ms = true) : .ctor false [] ∉ ms ∧ isStruct = true := by
  unfold generatesDefault at h
  simp only [Bool.and_eq_true, Bool.not_eq_true'] at h
  refine ⟨fun hm => ?_, h.1.1⟩
  have := (hadCtors_snd ms).mpr ⟨false, hm⟩
  rw [h.2] at this; cases this

/-- C110 is false as stated: a struct with a static constructor and one that takes parameters cannot be default-constructed in C++. -/
theorem C110_static_refuted : ∃ ms : List Member.Member, StaticHasNone ms ∧ ¬ DefaultConstructible ms := by
  refine ⟨[.ctor true [], .ctor false [⟨.named (w "Int32") .struct, .none, w "x"⟩]], ?_, ?_⟩
  · intro ps h
    simpa using h
  · unfold DefaultConstructible
    rintro (h | h | h)
    · exact h [⟨.named (w "Int32") .struct, .none, w "x"⟩] (by simp)
    · simp at h
    · revert h; decide

example : StaticHasNone [.ctor false [⟨.named (w "Int32") .struct, .none, w "x"⟩]] ∧
    generatesDefault true [.ctor false [⟨.named (w "Int32") .struct, .none, w "x"⟩]] = true := by
  refine ⟨?_, by decide⟩
  intro ps h; simp at h

end Verif.Ctor
