import Verif.MemberProps
import Verif.CtorProps
import Verif.ArgProps
/-!
# C192: exactly which declarations say in C++ what they say in C#
-/
namespace Verif.DeclExact
open Verif.Types (Ty Kind formatType declText isPointer access)
open Verif.Fmt (CharInfo nameText)
open Verif.Member (Mod Param PMod Fn Var Item Member header ValidMods modifierTexts modifier_static modifier_virtual modifier_length bind_ok_inv)
open Verif.CppLex (isIdent)
open Verif.Ctor (readDecl Binds Aliases variableText param_read variable_read)

/-! ## Specification -/

/-- The C++ function declaration is one a compiler accepts: `= 0` only on a virtual function, and not both `static` and `virtual`. -/
def Legal (f : Fn) : Prop := (f.pure = true → f.isVirtual) ∧ ¬ (f.isStatic ∧ f.isVirtual)

/-- The function is static, and virtual, exactly when the C# modifiers say so. -/
def Keeps (mods : List Mod) (f : Fn) : Prop :=
  (f.isStatic ↔ .static ∈ mods) ∧ (f.isVirtual ↔ .abstract ∈ mods ∨ .virtual ∈ mods)

/-- What a declaration written for a property with these modifiers has to keep: its accessors are static or virtual as the property is, and its backing field is
static when the property is. -/
def KeepsItem (mods : List Mod) : Item → Prop
  | .fn f => Keeps mods f
  | .var v => w "static " ∈ v.specs ↔ .static ∈ mods

/-- A parameter takes its argument the way C# says: one without `ref` or `out` takes a copy of the variable, a `ref` or `out` one is another name for it. -/
def PassedRight (m : PMod) (param var : Ctor.Decl) : Prop :=
  Binds param var ∧ (Aliases param var ↔ m = .ref ∨ m = .out)

/-! ## Methods -/

/-- C192: every method, whatever its (valid) modifiers and whether or not it has a body, is declared as one function that is static and virtual as in C#, with at
most one specifier, and pure exactly when it has no body; that declaration is legal C++ exactly when the method has a body or is abstract or virtual. -/
theorem C192_method (ci : CharInfo) (cls : WStr) (mods : List Mod) (ret : Ty) (name : WStr) (ps : List Param) (body : Bool) (hv : ValidMods mods)
    (hs : List Item) (h : header ci cls (.method mods ret name ps body) = .ok hs) :
    ∃ f, hs = [.fn f] ∧ Keeps mods f ∧ f.specs.length ≤ 1 ∧ (f.pure = true ↔ body = false) ∧
      (Legal f ↔ body = true ∨ .abstract ∈ mods ∨ .virtual ∈ mods) := by
  rw [header] at h
  obtain ⟨r, h1, h⟩ := bind_ok_inv h
  obtain ⟨n, h2, h⟩ := bind_ok_inv h
  obtain ⟨ts, h3, h⟩ := bind_ok_inv h
  rw [Res.ok.injEq] at h
  refine ⟨_, h.symm, ⟨modifier_static mods, modifier_virtual mods⟩, ?_, by simp, ?_⟩
  · show (modifierTexts mods).length ≤ 1
    rw [modifier_length]; exact hv.2.2.2
  · have hn : ¬ (w "static " ∈ modifierTexts mods ∧ w "virtual " ∈ modifierTexts mods) := by
      rw [modifier_static, modifier_virtual]
      rintro ⟨c2, c1⟩
      have c2 := List.count_pos_iff.mpr c2
      have := hv.2.2.2
      rcases c1 with c1 | c1 <;> have c1 := List.count_pos_iff.mpr c1 <;> omega
    show (((!body) = true → w "virtual " ∈ modifierTexts mods) ∧ ¬ (w "static " ∈ modifierTexts mods ∧ w "virtual " ∈ modifierTexts mods)) ↔ _
    rw [and_iff_left hn, modifier_virtual]
    cases body <;> simp

/-! ## Properties -/

/-- C192: the declarations written for a property keep its modifiers exactly when the property is neither static nor abstract nor virtual. -/
theorem C192_property (ci : CharInfo) (cls : WStr) (mods : List Mod) (ty : Ty) (name : WStr) (g s body : Bool) (b : Option WStr) (hs : List Item)
    (h : header ci cls (.property mods ty name g s body b) = .ok hs) :
    (∀ i ∈ hs, KeepsItem mods i) ↔ .static ∉ mods ∧ .abstract ∉ mods ∧ .virtual ∉ mods := by
  have key := Member.C107_modifiers_refuted.1 ci cls mods ty name g s body b hs h
  have first : ∃ f, Item.fn f ∈ hs := by
    rw [header] at h
    obtain ⟨t, h1, h⟩ := bind_ok_inv h
    cases g with
    | false => cases h
    | true =>
    cases body with
    | false => cases h
    | true =>
    rw [if_neg (by decide), Res.ok.injEq] at h
    subst h
    exact ⟨_, List.mem_append_left _ (List.mem_append_left _ (by rw [if_pos rfl]; exact List.mem_singleton.mpr rfl))⟩
  constructor
  · intro hk
    obtain ⟨f, hf⟩ := first
    have k1 := key _ hf
    have k2 : Keeps mods f := hk _ hf
    exact ⟨fun q => k1.1 (k2.1.mpr q), fun q => k1.2 (k2.2.mpr (.inl q)), fun q => k1.2 (k2.2.mpr (.inr q))⟩
  · rintro ⟨n1, n2, n3⟩ i hi
    have k := key i hi
    cases i with
    | fn f => exact ⟨⟨fun q => absurd q k.1, fun q => absurd q n1⟩, ⟨fun q => absurd q k.2, fun q => by rcases q with q | q <;> contradiction⟩⟩
    | var v =>
      have k : v.specs = [] := k
      show w "static " ∈ v.specs ↔ _
      rw [k]
      exact ⟨fun q => absurd q List.not_mem_nil, fun q => absurd q n1⟩

/-! ## Parameters -/

/-- C192: for a parameter and a variable of the same type, the C++ parameter takes the variable the way C# says exactly when the parameter is not `out`: an `out`
parameter cannot even be bound. -/
theorem C192_parameter (ci : CharInfo) (ty : WStr) (k : Kind) (pname vname : WStr) (m : PMod) (ht : isIdent ty = true) (hp : isIdent pname = true)
    (hv : isIdent vname = true) (pt vt : WStr) (h1 : Member.paramText ci ⟨.named ty k, m, pname⟩ = .ok pt) (h2 : variableText ci (.named ty k) vname = .ok vt) :
    (PassedRight m (readDecl pt) (readDecl vt) ↔ m ≠ .out) ∧ (Binds (readDecl pt) (readDecl vt) ↔ m ≠ .out) ∧ (Aliases (readDecl pt) (readDecl vt) ↔ m = .ref) := by
  obtain ⟨b, n, e1, f1, _⟩ := param_read ci ty k pname m pt ht hp h1
  obtain ⟨b', n', e2, f2, _⟩ := variable_read ci ty k vname vt ht hv h2
  rw [f1, Res.ok.injEq] at f2
  subst f2
  rw [e1, e2]
  unfold PassedRight Binds Aliases
  cases m <;> simp

/-! ## Types -/

/-- C192: a named type is held by pointer in C++ exactly when it is a class or an array of .NET, so the way it is held is right exactly when it is not an interface;
and members are reached with `->` exactly for the types held by pointer. -/
theorem C192_type (name : WStr) (k : Kind) :
    ((isPointer (.named name k) = true ↔ ArgProps.IsReference k) ↔ k ≠ .interface) ∧
    (access (some (.named name k)) = w "->" ↔ isPointer (.named name k) = true) := by
  have ne : w "." ≠ w "->" := by decide +kernel
  refine ⟨by cases k <;> simp [isPointer, ArgProps.IsReference], ?_⟩
  unfold access
  simp only []
  cases isPointer (.named name k) <;> simp [ne]

/-! ## The hypotheses are met -/

example : ValidMods [.other, .virtual] ∧ header Fmt.asciiInfo (w "Shape") (.method [.other, .virtual] (.named (w "Int32") .struct) (w "Area") [] true) =
    .ok [.fn ⟨[w "virtual "], some (w "Int32"), none, w "Area", [], false⟩] := ⟨by unfold ValidMods; decide, by decide +kernel⟩
example : ∃ hs, header Fmt.asciiInfo (w "Shape") (.property [.static] (.named (w "Int32") .struct) (w "Area") true true true none) = .ok hs ∧ hs.length = 2 :=
  ⟨_, by rfl, by decide +kernel⟩
example : Member.paramText Fmt.asciiInfo ⟨.named (w "Int32") .struct, .out, w "n"⟩ = .ok (w "Int32*  x_n") ∧
    variableText Fmt.asciiInfo (.named (w "Int32") .struct) (w "mine") = .ok (w "Int32 x_mine") ∧ isIdent (w "Int32") = true := by decide +kernel

end Verif.DeclExact
