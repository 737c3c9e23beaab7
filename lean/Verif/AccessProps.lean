import Verif.AccessModel
/-!
# C119: members are reached with the operator the operand's C++ type needs
-/
namespace Verif.Access
open Verif.Types (Ty Kind isPointer access declText)
open Verif.Member (PMod modText)

/-! ### Specification -/

/-- Number of `*` in the C++ declaration of something declared with this type (`FormatTypeDelaration`). -/
def declDepth (ty : T) : Nat := if isPointer (.named ty.name ty.kind) then 1 else 0

/-- Number of `*` the modifier of a parameter adds. -/
def modDepth (m : PMod) : Nat := (modText m).count 42

/-- How many pointers the C++ expression written for the operand is away from the object: 0 for an object or a reference to one, 1 for a pointer. A variable is as declared; `this` is a
pointer; a field, element or call is as its type is declared; `ldobj` and `addressof` write their operand. -/
def depth : Tgt → Nat
  | .var ⟨.this, _⟩ => 1
  | .var ⟨.local, ty⟩ => declDepth ty
  | .var ⟨.param m, ty⟩ => declDepth ty + modDepth m
  | .fld ty => declDepth ty
  | .sfld ty => declDepth ty
  | .elem ty => declDepth ty
  | .ldobj t _ => depth t
  | .addrOf t _ => depth t
  | .call ty => declDepth ty
  | .fresh _ => 1

/-- The operator fits the operand (C++11 5.2.5). -/
def Fits (op : WStr) (depth : Nat) : Prop := (op = w "->" ∧ depth = 1) ∨ (op = w "." ∧ depth = 0)

/-- The type of the object whose member is used. -/
def objTy : Tgt → T
  | .var v => v.ty
  | .fld ty => ty
  | .sfld ty => ty
  | .elem ty => ty
  | .ldobj _ ty => ty
  | .addrOf _ ty => ty
  | .call ty => ty
  | .fresh ty => ty

/-- An instruction that gives the address of something of type `ty`. -/
def Address (ty : T) : Tgt → Prop
  | .var v => v.byRef = true ∧ v.ty = ty
  | .fld t => t = ty
  | .sfld t => t = ty
  | .elem t => t = ty
  | _ => False

/-- Correct IL (ECMA-335 III.4.10, III.4.2): the members of a struct are reached through its address, those of a reference type through the reference itself. -/
def Correct : Tgt → Prop
  | .var v => v.ty.kind ≠ .enum ∧ v.ty.kind ≠ .other ∧ (v.byRef = true → v.ty.kind = .struct)
  | .fld ty => ty.kind = .struct
  | .sfld ty => ty.kind = .struct
  | .elem ty => ty.kind = .struct
  | .ldobj t ty => (ty.kind = .class ∨ ty.kind = .array ∨ ty.kind = .interface) ∧ Address ty t
  | .addrOf t ty => ty.kind = .struct ∧ t = .call ty
  | .call ty => ty.kind = .class ∨ ty.kind = .array ∨ ty.kind = .interface
  | .fresh ty => ty.kind = .class ∨ ty.kind = .array

/-- The operand is an `out` parameter, or the reference stored in one. -/
def IsOut : Tgt → Prop
  | .var ⟨.param .out, _⟩ => True
  | .ldobj (.var ⟨.param .out, _⟩) _ => True
  | _ => False
/-- The operand is a static field that holds a struct. -/
def IsStaticStruct : Tgt → Prop
  | .sfld _ => True
  | _ => False
/-- The operand is a call that returns an interface. -/
def IsInterfaceCall : Tgt → Prop
  | .call ty => ty.kind = .interface
  | _ => False
/-- The operand is `this` of a struct. -/
def IsStructThis : Tgt → Prop
  | .var ⟨.this, ty⟩ => ty.kind = .struct
  | _ => False
/-- The operand is a parameter of a primitive type passed by reference. -/
def IsPrimRef (prim : WStr → Bool) : Tgt → Prop
  | .var v => v.byRef = true ∧ prim v.ty.name = true
  | _ => False

/-! ### C119 -/

theorem arrow_ne_dot : w "->" ≠ w "." := by decide +kernel

theorem modDepth_out (m : PMod) : modDepth m = if m = .out then 1 else 0 := by cases m <;> decide +kernel

theorem fits_access (t : Ty) (d : Nat) : Fits (access (some t)) d ↔ d = if isPointer t then 1 else 0 := by
  unfold access Fits
  simp only []
  cases isPointer t <;> simp [arrow_ne_dot, arrow_ne_dot.symm]

theorem fits_none (d : Nat) : Fits (access none) d ↔ d = 1 := by simp [access, Fits, arrow_ne_dot]

/-- `access` on an operand that is not `this`. -/
theorem access_iff (t : Tgt) (h : Correct t) (hthis : ∀ ty, t ≠ .var ⟨.this, ty⟩) :
    Fits (access (typeOf t)) (depth t) ↔ ¬ (IsOut t ∨ IsStaticStruct t ∨ IsInterfaceCall t) := by
  cases t with
  | var v =>
    obtain ⟨o, n, k⟩ := v
    obtain ⟨h1, h2, h3⟩ := h
    rw [typeOf, fits_access]
    cases o with
    | this => exact absurd rfl (hthis ⟨n, k⟩)
    | «local» => simp [depth, declDepth, Var.ilType, Var.byRef, IsOut, IsStaticStruct, IsInterfaceCall]
    | param m =>
      rw [depth, modDepth_out]
      cases m <;> cases k <;> simp_all [declDepth, Var.ilType, Var.byRef, IsOut, IsStaticStruct, IsInterfaceCall, isPointer]
  | fld ty => rw [typeOf, fits_access]; simp [depth, declDepth, IsOut, IsStaticStruct, IsInterfaceCall]
  | elem ty => rw [typeOf, fits_access]; simp [depth, declDepth, IsOut, IsStaticStruct, IsInterfaceCall]
  | sfld ty =>
    rw [typeOf, fits_none]
    have : ty.kind = .struct := h
    simp [depth, declDepth, isPointer, this, IsStaticStruct]
  | addrOf t ty =>
    obtain ⟨h1, rfl⟩ := h
    rw [typeOf, fits_access]
    simp [depth, declDepth, IsOut, IsStaticStruct, IsInterfaceCall]
  | call ty =>
    rw [typeOf, fits_none]
    have h : ty.kind = .class ∨ ty.kind = .array ∨ ty.kind = .interface := h
    rcases h with h | h | h <;> simp [depth, declDepth, isPointer, h, IsOut, IsStaticStruct, IsInterfaceCall]
  | fresh ty => rw [typeOf, fits_none]; simp [depth, IsOut, IsStaticStruct, IsInterfaceCall]
  | ldobj t ty =>
    obtain ⟨h1, h2⟩ := h
    rw [typeOf, fits_access]
    cases t with
    | var v =>
      obtain ⟨o, n, k⟩ := v
      obtain ⟨h3, rfl⟩ := h2
      cases o with
      | this =>
        simp only [Var.byRef, beq_iff_eq] at h3
        simp [h3] at h1
      | «local» => simp [Var.byRef] at h3
      | param m =>
        rw [depth, depth, modDepth_out]
        cases m <;> cases k <;> simp_all [declDepth, Var.byRef, IsOut, IsStaticStruct, IsInterfaceCall, isPointer]
    | fld t => cases h2; simp [depth, declDepth, IsOut, IsStaticStruct, IsInterfaceCall]
    | sfld t => cases h2; simp [depth, declDepth, IsOut, IsStaticStruct, IsInterfaceCall]
    | elem t => cases h2; simp [depth, declDepth, IsOut, IsStaticStruct, IsInterfaceCall]
    | ldobj _ _ => exact h2.elim
    | addrOf _ _ => exact h2.elim
    | call _ => exact h2.elim
    | fresh _ => exact h2.elim

/-- **C119** (partial, but exact): in correct IL the operator written before a field's name fits the operand exactly when the operand is not an `out` parameter, not a static
field holding a struct and not a call returning an interface. Missing: those (`C119_out_refuted`, `C119_static_refuted`). -/
theorem C119_field_partial (t : Tgt) (h : Correct t) :
    Fits (fieldOp t) (depth t) ↔ ¬ (IsOut t ∨ IsStaticStruct t ∨ IsInterfaceCall t) := by
  by_cases ht : ∃ ty, t = .var ⟨.this, ty⟩
  · obtain ⟨ty, rfl⟩ := ht
    simp [fieldOp, depth, Fits, IsOut, IsStaticStruct, IsInterfaceCall]
  · rw [← access_iff t h (fun ty e => ht ⟨ty, e⟩)]
    have : fieldOp t = access (typeOf t) := by
      unfold fieldOp
      split
      · rename_i ty; exact absurd ⟨ty, rfl⟩ ht
      · rfl
    rw [this]

example : Correct (.addrOf (.call ⟨w "Point", .struct⟩) ⟨w "Point", .struct⟩) ∧ Correct (.ldobj (.fld ⟨w "Node", .class⟩) ⟨w "Node", .class⟩) ∧
    Correct (.var ⟨.param .ref, ⟨w "Point", .struct⟩⟩) := by
  simp [Correct, Address, Var.byRef]

/-- The C++ text of an instance call is well formed: a value of a primitive type is put into its class, any other operand fits the operator. -/
def CallFits (prim : WStr → Bool) (t : Tgt) : Prop :=
  if (objTy t).kind = .struct ∧ prim (objTy t).name = true then callOp prim t = (true, w ".")
  else (callOp prim t).1 = false ∧ Fits (callOp prim t).2 (depth t)

/-- **C119** (partial, but exact): in correct IL an instance call is well formed exactly when the operand is not `this` of a struct, not an `out` parameter, not a static field that
holds a struct or a primitive value, not a call returning an interface and not a parameter of primitive type passed by reference. (A class's own `this` is fine; primitive types are
not part of the program, so `this` is never one.) Missing: those. -/
theorem C119_call_partial (prim : WStr → Bool) (t : Tgt) (h : Correct t) (hp : ∀ ty, t = .var ⟨.this, ty⟩ → prim ty.name = false ∧ (ty.kind = .class ∨ ty.kind = .struct)) :
    CallFits prim t ↔ ¬ (IsStructThis t ∨ IsOut t ∨ IsStaticStruct t ∨ IsInterfaceCall t ∨ IsPrimRef prim t) := by
  by_cases ht : ∃ ty, t = .var ⟨.this, ty⟩
  · obtain ⟨⟨n, k⟩, rfl⟩ := ht
    obtain ⟨h1, h2⟩ := hp _ rfl
    simp only at h1 h2
    unfold CallFits callOp
    simp only [objTy, h1]
    rw [typeOf, fits_access]
    rcases h2 with h2 | h2 <;>
      simp [h2, h1, primType, Var.ilType, Var.byRef, depth, isPointer, IsStructThis, IsOut, IsStaticStruct, IsInterfaceCall, IsPrimRef]
  · have hs : ¬ IsStructThis t := by
      intro hs
      unfold IsStructThis at hs
      split at hs
      · rename_i ty; exact ht ⟨ty, rfl⟩
      · exact hs
    have key := access_iff t h (fun ty e => ht ⟨ty, e⟩)
    by_cases hpr : (objTy t).kind = .struct ∧ prim (objTy t).name = true
    · unfold CallFits
      rw [if_pos hpr]
      obtain ⟨hk, hn⟩ := hpr
      unfold callOp
      cases t with
      | var v =>
        obtain ⟨o, n, k⟩ := v
        simp only [objTy] at hk hn
        subst hk
        cases o with
        | this => exact absurd ⟨_, rfl⟩ ht
        | «local» => simp [typeOf, primType, Var.ilType, Var.byRef, access, isPointer, hn, IsOut, IsStaticStruct, IsInterfaceCall, IsStructThis, IsPrimRef]
        | param m => cases m <;> simp [typeOf, primType, Var.ilType, Var.byRef, access, isPointer, hn, IsOut, IsStaticStruct, IsInterfaceCall, IsStructThis, IsPrimRef]
      | fld ty => simp_all [objTy, typeOf, primType, access, isPointer, IsOut, IsStaticStruct, IsInterfaceCall, IsStructThis, IsPrimRef]
      | elem ty => simp_all [objTy, typeOf, primType, access, isPointer, IsOut, IsStaticStruct, IsInterfaceCall, IsStructThis, IsPrimRef]
      | sfld ty => simp_all [objTy, typeOf, primType, access, IsOut, IsStaticStruct, IsInterfaceCall, IsStructThis, IsPrimRef]
      | ldobj t ty =>
        have := h.1
        simp only [objTy] at hk
        simp [hk] at this
      | addrOf t ty =>
        obtain ⟨_, rfl⟩ := h
        simp_all [objTy, typeOf, primType, access, isPointer, IsOut, IsStaticStruct, IsInterfaceCall, IsStructThis, IsPrimRef]
      | call ty => simp only [objTy] at hk; simp [Correct, hk] at h
      | fresh ty => simp only [objTy] at hk; simp [Correct, hk] at h
    · unfold CallFits
      rw [if_neg hpr]
      have h1 : (callOp prim t).1 = false := by
        unfold callOp
        simp only []
        cases t with
        | var v =>
          rw [typeOf]
          unfold Var.ilType
          split
          · rfl
          · simpa [primType, objTy] using hpr
        | _ => simp_all [typeOf, primType, objTy]
      have h2 : ¬ IsPrimRef prim t := by
        intro hpr2
        cases t with
        | var v => exact hpr ⟨h.2.2 hpr2.1, hpr2.2⟩
        | _ => exact hpr2
      rw [h1]
      simp only [true_and]
      show Fits (access (typeOf t)) (depth t) ↔ _
      rw [key]
      simp [hs, h2]

example : Correct (.elem ⟨w "Int32", .struct⟩) ∧ callOp (fun n => n == w "Int32") (.elem ⟨w "Int32", .struct⟩) = (true, w ".") := by
  refine ⟨by simp [Correct], by decide +kernel⟩

/-- **C119** is false of the code: `p.x` for `out Point p` is written with `.`, but `p` is a pointer; `n.next` for `out Node n` with `->`, but `n` is a pointer to a pointer. -/
theorem C119_out_refuted : let p : Tgt := .var ⟨.param .out, ⟨w "Point", .struct⟩⟩
    let n : Tgt := .ldobj (.var ⟨.param .out, ⟨w "Node", .class⟩⟩) ⟨w "Node", .class⟩
    (Correct p ∧ fieldOp p = w "." ∧ depth p = 1) ∧ Correct n ∧ fieldOp n = w "->" ∧ depth n = 2 := by
  refine ⟨⟨by simp [Correct, Var.byRef], by decide +kernel, by decide +kernel⟩, by simp [Correct, Address, Var.byRef], by decide +kernel, by decide +kernel⟩

/-- **C119** is false of the code: `Config.origin.x`, where `origin` is a static field that holds a struct, is written with `->`. -/
theorem C119_static_refuted : let t : Tgt := .sfld ⟨w "Point", .struct⟩
    Correct t ∧ fieldOp t = w "->" ∧ depth t = 0 := by
  refine ⟨by simp [Correct], by decide +kernel, by decide +kernel⟩

/-- **C119** is false of the code: a struct's method that calls another method of the same struct is written `this.Method()`. -/
theorem C119_this_refuted (prim : WStr → Bool) : let t : Tgt := .var ⟨.this, ⟨w "Point", .struct⟩⟩
    Correct t ∧ callOp prim t = (false, w ".") ∧ depth t = 1 := by
  refine ⟨by simp [Correct], rfl, rfl⟩

/-- **C119** is false of the code: `n.ToString()` for `ref int n` is a member of an `Int32`, which has none. -/
theorem C119_ref_refuted : let t : Tgt := .var ⟨.param .ref, ⟨w "Int32", .struct⟩⟩
    Correct t ∧ ¬ CallFits (fun n => n == w "Int32") t := by
  refine ⟨by simp [Correct], ?_⟩
  rw [C119_call_partial _ _ (by simp [Correct]) (by simp)]
  simp [IsPrimRef, Var.byRef]

end Verif.Access
