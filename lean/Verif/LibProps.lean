import Verif.LibModel
import Verif.TableProps
/-!
# C113: every accepted library call is declared by the library
-/
namespace Verif.Lib
open LibTable
open Verif.TableProps (shipped)

/-! ### Specification: C++ member lookup and overload resolution -/

/-- The class of this name. -/
def findClass (n : Nat) : List Class → Option Class
  | [] => none
  | c :: l => if Nat.beq c.name n then some c else findClass n l

/-- Member name lookup (C++11 10.2): the methods of that name in the class; only if there is none, those of its base class. -/
def lookup : Nat → Nat → Nat → List Method
  | 0, _, _ => []
  | k + 1, cls, name =>
    match findClass cls library with
    | none => []
    | some c => match c.methods.filter (fun m => Nat.beq m.name name) with
      | [] => lookup k c.base name
      | ms => ms

/-- An argument of type `a` binds to a parameter of type `p` without conversion: the same type, or a reference to it. -/
def same (a p : Nat) : Bool := Nat.beq p a || Nat.beq p (a * 256 + 38)
/-- Or with one: a pointer to a class is converted to a pointer to `Object`, the base of all of them. -/
def converts (a p : Nat) : Bool := same a p || (Nat.beq (a % 256) 42 && Nat.beq p 0x4f626a6563742a)

/-- Every argument meets its parameter; parameters left over have defaults. -/
def fits (f : Nat → Nat → Bool) : List Nat → List Nat → Bool
  | [], _ => true
  | _ :: _, [] => false
  | a :: as, p :: ps => f a p && fits f as ps
def viable (f : Nat → Nat → Bool) (args : List Nat) (m : Method) : Bool := Nat.ble m.req args.length && fits f args m.params

/-- Overload resolution (C++11 13.3.3) succeeds with `m`: it is the only one that needs no conversion, or nothing does without and it is the only one that
is viable at all. -/
def Resolves (ms : List Method) (args : List Nat) (m : Method) : Prop :=
  ms.filter (viable same args) = [m] ∨ (ms.filter (viable same args) = [] ∧ ms.filter (viable converts args) = [m])

/-- The text of the table row for a method: `class.name(type,type,...)`. -/
def join : List Nat → WStr
  | [] => []
  | [a] => ValidTable.text a
  | a :: l => ValidTable.text a ++ 44 :: join l
def render (c : Call) : WStr := ValidTable.text c.cls ++ 46 :: ValidTable.text c.name ++ 40 :: join c.args ++ [41]

/-- The emitted C++ call finds exactly one method. -/
def Declared (c : Call) : Prop := ∃ m, Resolves (lookup 3 (className c.cls) (methodName c.name)) (c.args.map argType) m

/-- Rows for which no C++ call is emitted: constructors (line 66: empty name) and the conversion of a string to a span (lines 446-455). -/
def noCall (c : Call) : Prop := methodName c.name = 0 ∨ c.name = 0x6f705f496d706c69636974

/-! ### The tables agree -/

theorem has_mem : ∀ (l : List Nat) (k : Nat), has l k = true → k ∈ l
  | [], _, h => by cases h
  | a :: l, k, h => by
    rw [has, Bool.or_eq_true] at h
    rcases h with h | h
    · rw [Nat.eq_of_beq_eq_true h]; simp
    · simp [has_mem l k h]


def check (c : Call) : Bool :=
  Nat.beq (methodName c.name) 0 || Nat.beq c.name 0x6f705f496d706c69636974 ||
  let ms := lookup 3 (className c.cls) (methodName c.name)
  let args := c.args.map argType
  match ms.filter (viable same args) with
  | [_] => true
  | [] => match ms.filter (viable converts args) with
    | [_] => true
    | _ => false
  | _ => false

theorem check_declared (c : Call) (h : check c = true) : noCall c ∨ Declared c := by
  unfold check at h
  rw [Bool.or_eq_true, Bool.or_eq_true] at h
  rcases h with (h | h) | h
  · exact Or.inl (Or.inl (Nat.eq_of_beq_eq_true h))
  · exact Or.inl (Or.inr (Nat.eq_of_beq_eq_true h))
  · right
    simp only [] at h
    split at h
    · rename_i m e; exact ⟨m, Or.inl e⟩
    · rename_i e
      split at h
      · rename_i m e2; exact ⟨m, Or.inr ⟨e, e2⟩⟩
      · cases h
    · cases h

example : code (w "Object*") = 0x4f626a6563742a ∧ code (w "op_Implicit") = 0x6f705f496d706c69636974 ∧ code (w "Array*") = 0x41727261792a ∧
    code (w "Int32" ++ w "Value") = code (w "Int32") * 0x10000000000 + 0x56616c7565 ∧
    primitives = ["Boolean", "Byte", "SByte", "Char", "Int16", "UInt16", "Int32", "UInt32", "Int64", "UInt64", "Single", "Double", "DateTime", "TimeSpan"].map (fun t => code (w t)) ∧
    classTypes = ["Object", "String", "Array", "StringBuilder", "CharEnumerator"].map (fun t => code (w t)) := by decide +kernel

theorem calls_check : calls.all check = true := by decide +kernel

def eqText : WStr → WStr → Bool
  | [], [] => true
  | a :: l, b :: r => Nat.beq a b && eqText l r
  | _, _ => false
theorem eqText_eq : ∀ (a b : WStr), eqText a b = true → a = b
  | [], [], _ => rfl
  | [], _ :: _, h => by simp [eqText] at h
  | _ :: _, [], h => by simp [eqText] at h
  | a :: l, b :: r, h => by
    rw [eqText, Bool.and_eq_true] at h
    rw [Nat.eq_of_beq_eq_true h.1, eqText_eq l r h.2]

/-- Walk the two tables together: rows without parenthesis are skipped. -/
def together : List Nat → List Call → Bool
  | [], [] => true
  | [], _ :: _ => false
  | k :: ks, cs =>
    if (ValidTable.text k).any (fun c => Nat.beq c 40) then
      match cs with
      | [] => false
      | c :: cs => eqText (ValidTable.text k) (render c) && together ks cs
    else together ks cs

theorem together_mem : ∀ (ks : List Nat) (cs : List Call), together ks cs = true → ∀ k ∈ ks, 40 ∈ ValidTable.text k → ∃ c ∈ cs, ValidTable.text k = render c
  | [], _, _, k, hk, _ => absurd hk (by simp)
  | k0 :: ks, cs, h, k, hk, hp => by
    simp only [together] at h
    rcases List.mem_cons.1 hk with rfl | hk
    · have h1 : (ValidTable.text k).any (fun c => Nat.beq c 40) = true := by
        rw [List.any_eq_true]; exact ⟨40, hp, rfl⟩
      rw [if_pos h1] at h
      cases cs with
      | nil => cases h
      | cons c cs =>
        simp only [] at h
        rw [Bool.and_eq_true] at h
        exact ⟨c, by simp, eqText_eq _ _ h.1⟩
    · split at h
      · cases cs with
        | nil => cases h
        | cons c cs =>
          simp only [] at h
          rw [Bool.and_eq_true] at h
          obtain ⟨d, h1, h2⟩ := together_mem ks cs h.2 k hk hp
          exact ⟨d, by simp [h1], h2⟩
      · exact together_mem ks cs h k hk hp

theorem tables : together ValidTable.codes calls = true := by decide +kernel

/-- **C113** (partial: methods other than constructors and the conversion of a string to a span, for which no C++ call is emitted). Every library method
the shipped table accepts resolves, under C++ lookup and overload resolution, to exactly one public method the library headers declare. Missing: the
conversion of a string that is not a literal stops the translator (`C113_implicit_refuted`); constructors are not looked up in the table (C114). -/
theorem C113_declared_partial : ∀ r ∈ shipped, 40 ∈ r → ∃ c, r = render c ∧ (noCall c ∨ Declared c) := by
  intro r hr hp
  unfold shipped ValidTable.rows at hr
  rw [List.mem_map] at hr
  obtain ⟨k, hk, rfl⟩ := hr
  obtain ⟨c, hc, e⟩ := together_mem _ _ tables k hk hp
  have h := calls_check
  rw [List.all_eq_true] at h
  exact ⟨c, e, check_declared c (h c hc)⟩

/-- `Math.Max(Int32,Int32)`, `String.Equals` for `==`, `Int32.ToString()` inherited from `Object`: calls that are emitted and declared. -/
example : (calls.filter fun c => !(Nat.beq (methodName c.name) 0 || Nat.beq c.name 0x6f705f496d706c69636974)).length = 487 ∧
    render ⟨0x53797374656d2e4d617468, 0x4d6178, [0x53797374656d2e496e743332, 0x53797374656d2e496e743332]⟩ = w "System.Math.Max(System.Int32,System.Int32)" ∧
    className 0x53797374656d2e496e743332 = code (w "Int32Value") ∧ methodName (code (w "op_Equality")) = code (w "Equals") ∧
    (lookup 3 (code (w "Int32Value")) (code (w "ToString"))).length = 1 := by decide +kernel

/-- **C113** is false of the code for the conversion of a string to a span: the table accepts `String.op_Implicit`, but the translator stops on an argument
that is not a literal. -/
theorem C113_implicit_refuted : w "System.String.op_Implicit(System.String)" ∈ shipped ∧ stringImplicit none 1 = .throw .nullReference := by
  refine ⟨?_, rfl⟩
  unfold shipped ValidTable.rows
  rw [List.mem_map]
  refine ⟨0x53797374656d2e537472696e672e6f705f496d706c696369742853797374656d2e537472696e6729, ?_, by decide +kernel⟩
  have h : has ValidTable.codes 0x53797374656d2e537472696e672e6f705f496d706c696369742853797374656d2e537472696e6729 = true := by decide +kernel
  exact has_mem _ _ h

/-- **C113**: a literal is written as itself. -/
theorem C113_implicit_literal (t : WStr) (n : Nat) : stringImplicit (some t) n = .ok (some t) := rfl

end Verif.Lib
