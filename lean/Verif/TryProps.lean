import Verif.TryModel
import Batteries.Tactic.Init
/-!
# C115: an exception reaches the handler the source says
-/
namespace Verif.Try

/-! ### Specification -/

/-- The .NET base class (ECMA-335 library specification; classes between that the library does not have are left out). -/
def Lib.netBase : Lib → Option Lib
  | .object => none
  | .exception => some .object
  | .argumentNull => some .argument
  | .argumentOutOfRange => some .argument
  | .overflow => some .arithmetic
  | .divideByZero => some .arithmetic
  | _ => some .exception

/-- `a` is `b` or derives from it, given the base classes of library classes (no chain is longer than four). -/
def libDerives (base : Lib → Option Lib) (a b : Lib) : Bool :=
  a == b || base a == some b || ((base a).bind base) == some b || (((base a).bind base).bind base) == some b

/-- Class `c` is `t` or derives from it. -/
def derives (base : Lib → Option Lib) (c t : Cls) : Bool :=
  if t.user = [] then libDerives base c.root t.root else t.user.isSuffixOf c.user && c.root == t.root

/-- What a statement does: the actions in order, and how it ends: normally, with an exception that a handler for `c` would catch and that has class `c` or a
class derived from it, or (`throw;` outside a handler) not at all. -/
inductive End where
  | normal | raised (c : Cls) | stuck
deriving DecidableEq, Repr

/-- `throw;` -/
def again (cur : Option Cls) : List Nat × End := ([], match cur with | some c => .raised c | none => .stuck)

mutual
/-- C# (ECMA-334 12.10.6, 12.11): the first handler whose type is the class of the exception object or a base of it and whose filter holds is executed; `cur` is the exception
being handled. -/
def csharp (cur : Option Cls) : Stmt → List Nat × End
  | .skip => ([], .normal)
  | .act n => ([n], .normal)
  | .throw _ c => ([], .raised c)
  | .rethrow => again cur
  | .seq a b =>
    match csharp cur a with
    | (t, .normal) => let (u, e) := csharp cur b; (t ++ u, e)
    | r => r
  | .tryCatch b hs =>
    match csharp cur b with
    | (t, .raised c) => let (u, e) := handle c hs; (t ++ u, e)
    | r => r
def handle (c : Cls) : Handlers → List Nat × End
  | .nil => ([], .raised c)
  | .cons t f b r => if derives Lib.netBase c t && f.getD true then csharp (some c) b else handle c r
end

mutual
/-- C++ (C++11 15.1, 15.3): `throw e` throws a pointer of the static type of `e`; it goes to the first handler for a pointer to that class or to a public
base of it. -/
def cpp (cur : Option Cls) : Cpp → List Nat × End
  | .skip => ([], .normal)
  | .act n => ([n], .normal)
  | .throw st _ => ([], .raised st)
  | .rethrow => again cur
  | .seq a b =>
    match cpp cur a with
    | (t, .normal) => let (u, e) := cpp cur b; (t ++ u, e)
    | r => r
  | .tryCatch b hs =>
    match cpp cur b with
    | (t, .raised c) => let (u, e) := cppHandle c hs; (t ++ u, e)
    | r => r
def cppHandle (c : Cls) : CppHandlers → List Nat × End
  | .nil => ([], .raised c)
  | .cons t b r => if derives Lib.cppBase c t then cpp (some c) b else cppHandle c r
end

/-- A handler type for which the library's hierarchy answers as .NET's: every class of the program, `Exception`, and the library classes that have no
derived class. -/
def Safe (t : Cls) : Prop := t.user ≠ [] ∨ (t.root ≠ .argument ∧ t.root ≠ .arithmetic)

mutual
/-- Every `throw` throws an object of exactly the static type (as `throw new C()` does), every handler has a safe type and a filter that is absent or true. -/
def Plain : Stmt → Prop
  | .skip => True
  | .act _ => True
  | .throw st c => st = c
  | .rethrow => True
  | .seq a b => Plain a ∧ Plain b
  | .tryCatch b hs => Plain b ∧ PlainHandlers hs
def PlainHandlers : Handlers → Prop
  | .nil => True
  | .cons t f b r => Safe t ∧ f.getD true = true ∧ Plain b ∧ PlainHandlers r
end

/-! ### C115 -/

/-- **C115**: the library's exception classes answer `catch` as .NET's do exactly when the handler's type is not `ArgumentException` or
`ArithmeticException`, or the exception is of that very class or is not one of the classes .NET derives from it. -/
theorem C115_hierarchy_iff (c t : Lib) : libDerives Lib.cppBase c t = libDerives Lib.netBase c t ↔
    ¬ ((t = .argument ∧ (c = .argumentNull ∨ c = .argumentOutOfRange)) ∨ (t = .arithmetic ∧ (c = .overflow ∨ c = .divideByZero))) := by
  cases c <;> cases t <;> decide

theorem derives_safe (c t : Cls) (h : Safe t) : derives Lib.cppBase c t = derives Lib.netBase c t := by
  unfold derives
  split
  · rename_i e
    rcases h with h | ⟨h1, h2⟩
    · exact absurd e h
    · refine (C115_hierarchy_iff c.root t.root).2 ?_
      rintro (⟨h, _⟩ | ⟨h, _⟩)
      exacts [h1 h, h2 h]
  · rfl

mutual
theorem translate_same (s : Stmt) (h : Plain s) (cur : Option Cls) : cpp cur (translate s) = csharp cur s := by
  match s with
  | .skip => rw [translate, cpp, csharp]
  | .act n => rw [translate, cpp, csharp]
  | .throw st c => rw [Plain] at h; rw [translate, cpp, csharp, h]
  | .rethrow => rw [translate, cpp, csharp]
  | .seq a b =>
    rw [Plain] at h
    rw [translate, cpp, csharp, translate_same a h.1, translate_same b h.2]
  | .tryCatch b hs =>
    rw [Plain] at h
    rw [translate, cpp, csharp, translate_same b h.1]
    rcases csharp cur b with ⟨t, e⟩
    cases e with
    | raised c => simp only []; rw [handlers_same hs h.2 c]
    | normal => rfl
    | stuck => rfl
theorem handlers_same (hs : Handlers) (h : PlainHandlers hs) (c : Cls) : cppHandle c (translateHandlers hs) = handle c hs := by
  match hs with
  | .nil => rw [translateHandlers, cppHandle, handle]
  | .cons t f b r =>
    rw [PlainHandlers] at h
    rw [translateHandlers, cppHandle, handle, derives_safe c t h.1, h.2.1, Bool.and_true, translate_same b h.2.2.1, handlers_same r h.2.2.2]
end

/-- **C115** (partial: every `throw` throws an object of its expression's static type, no handler for `ArgumentException` or `ArithmeticException`, no filter that is false). A translated statement performs the same actions
in the same order as the source and ends the same way: every exception is handled by the handler the source says, or leaves the statement as the same
exception. Missing: a
variable of a base class that is thrown (`C115_static_refuted`), the two handler types (`C115_hierarchy_refuted`) and filters (`C115_filter_refuted`). -/
theorem C115_handler_partial (s : Stmt) (h : Plain s) : cpp none (translate s) = csharp none s := translate_same s h none

/-- `try { 2; throw new MyEx(); } catch (FormatException) { 3; }` -/
def exInner : Stmt :=
  .tryCatch (.seq (.act 2) (.throw ⟨[7, 6], .invalidOperation⟩ ⟨[7, 6], .invalidOperation⟩)) (.cons ⟨[], .format⟩ none (.act 3) .nil)
/-- `catch (MyBase) { 4; try { throw; } catch (InvalidOperationException) { 5; } }` -/
def exHandler : Handlers :=
  .cons ⟨[6], .invalidOperation⟩ none (.seq (.act 4) (.tryCatch .rethrow (.cons ⟨[], .invalidOperation⟩ (some true) (.act 5) .nil))) .nil
/-- `try { 1; inner } handler` where `MyEx : MyBase : InvalidOperationException`. -/
example : Plain (.tryCatch (.seq (.act 1) exInner) exHandler) ∧ csharp none (.tryCatch (.seq (.act 1) exInner) exHandler) = ([1, 2, 4, 5], .normal) := by
  refine ⟨by simp [exInner, exHandler, Plain, PlainHandlers, Safe], by decide +kernel⟩

/-- **C115** is false of the code for `catch (ArgumentException)` when `ArgumentNullException` is thrown: the library's classes all derive from `Exception`
directly, so the translated program does not handle it. -/
theorem C115_hierarchy_refuted : let s : Stmt := .tryCatch (.throw ⟨[], .argumentNull⟩ ⟨[], .argumentNull⟩) (.cons ⟨[], .argument⟩ none (.act 1) .nil)
    csharp none s = ([1], .normal) ∧ cpp none (translate s) = ([], .raised ⟨[], .argumentNull⟩) := by decide +kernel

/-- **C115** is false of the code for a filter: `catch (Exception) when (false)` handles the exception in the translated program. -/
theorem C115_filter_refuted : let s : Stmt := .tryCatch (.throw ⟨[], .format⟩ ⟨[], .format⟩) (.cons ⟨[], .exception⟩ (some false) (.act 1) .nil)
    csharp none s = ([], .raised ⟨[], .format⟩) ∧ cpp none (translate s) = ([1], .normal) := by decide +kernel

/-- **C115** is false of the code for `Exception e = new FormatException(); try { throw e; } catch (FormatException) { 1; }`: what is thrown is an
`Exception*`, which no handler for `FormatException*` catches. -/
theorem C115_static_refuted : let s : Stmt := .tryCatch (.throw ⟨[], .exception⟩ ⟨[], .format⟩) (.cons ⟨[], .format⟩ none (.act 1) .nil)
    csharp none s = ([1], .normal) ∧ cpp none (translate s) = ([], .raised ⟨[], .exception⟩) := by decide +kernel

end Verif.Try
