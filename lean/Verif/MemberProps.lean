import Verif.MemberModel
import Verif.NamesProps
import Verif.FmtTextProps
/-!
# C106, C107: declarations and definitions of class members
-/
namespace Verif.Member
open Verif.Types (Ty Kind formatType declText)
open Verif.Fmt (CharInfo nameText)
open Verif.Names (Changed)

/-! ### Specification -/

/-- Two lists agree element by element. -/
inductive Pairs {α β : Type} (R : α → β → Prop) : List α → List β → Prop
  | nil : Pairs R [] []
  | cons {a b l m} : R a b → Pairs R l m → Pairs R (a :: l) (b :: m)

/-- A declaration needs a definition: a function that is not pure, a static variable. -/
def Item.needsDef : Item → Bool
  | .fn f => !f.pure
  | .var v => w "static " ∈ v.specs

/-- `d` is the definition, as a member of the class with the text `q`, of what `h` declares: same types, name and parameters. -/
def Defines (q : WStr) : Item → Item → Prop
  | .fn h, .fn d => d.qual = some q ∧ d.ret = h.ret ∧ d.name = h.name ∧ d.params = h.params ∧ d.pure = false
  | .var h, .var d => d.qual = some q ∧ d.ty = h.ty ∧ d.names = h.names
  | _, _ => False

/-- What the theorem covers: not operators; not constants (which the C# compiler replaces by their values); static fields only of types whose name the
formatter does not change, and one to a declaration (as the decompiler writes them). -/
def Covered (ci : CharInfo) : Member → Prop
  | .oper _ _ _ => False
  | .field .const _ _ => False
  | .field .static (.named n _) names => names.length = 1 ∧ n ≠ [] ∧ ¬ Changed ci n
  | .field .static (.byRef _ _) _ => False
  | _ => True

/-! ### C106 -/

theorem Pairs.append {α β : Type} {R : α → β → Prop} {l l' : List α} {m m' : List β} (h : Pairs R l m) (h' : Pairs R l' m') : Pairs R (l ++ l') (m ++ m') := by
  induction h with
  | nil => exact h'
  | cons hab _ ih => exact .cons hab ih

theorem bind_ok_inv {α β : Type} {r : Res α} {f : α → Res β} {b : β} (h : (r >>= f) = .ok b) : ∃ a, r = .ok a ∧ f a = .ok b := by
  cases r with
  | ok a => exact ⟨a, rfl, h⟩
  | throw e => cases h
  | ub => cases h

theorem array_text (ci : CharInfo) : nameText ci (w "Array") = .ok (w "Array") := by
  rw [Names.nameText_same ci (w "Array") (by decide +kernel)]
  rintro (⟨⟨c, r, e, hl⟩, _⟩ | e)
  · have : c = 65 := by
      have := congrArg (fun l => l.head?) e
      revert this; simp [w]; intro h; exact h.symm
    subst this
    rw [ci.ascii 65 (by omega)] at hl
    revert hl; decide
  · revert e; decide +kernel

/-- Only C# keywords, which start with a lower-case letter, are replaced in definitions. -/
theorem appendType_same (ci : CharInfo) (n : WStr) (hc : ¬ Changed ci n) : appendType n = n := by
  have key : ∀ t : WStr, t.head?.any (fun k => 97 ≤ k && k ≤ 122) = true → t ≠ w "this" → n ≠ t := by
    intro t h1 h3 e
    apply hc
    cases t with
    | nil => cases h1
    | cons k r =>
      simp at h1
      refine .inl ⟨⟨k, r, e, ?_⟩, by rw [e]; exact h3⟩
      rw [ci.ascii k (by omega)]; simp; omega
  unfold appendType
  rw [if_neg (key (w "bool") (by decide +kernel) (by decide +kernel)),
    if_neg (key (w "byte") (by decide +kernel) (by decide +kernel)),
    if_neg (key (w "sbyte") (by decide +kernel) (by decide +kernel)),
    if_neg (key (w "char") (by decide +kernel) (by decide +kernel)),
    if_neg (key (w "double") (by decide +kernel) (by decide +kernel)),
    if_neg (key (w "float") (by decide +kernel) (by decide +kernel)),
    if_neg (key (w "int") (by decide +kernel) (by decide +kernel)),
    if_neg (key (w "uint") (by decide +kernel) (by decide +kernel)),
    if_neg (key (w "long") (by decide +kernel) (by decide +kernel)),
    if_neg (key (w "ulong") (by decide +kernel) (by decide +kernel)),
    if_neg (key (w "object") (by decide +kernel) (by decide +kernel)),
    if_neg (key (w "short") (by decide +kernel) (by decide +kernel)),
    if_neg (key (w "ushort") (by decide +kernel) (by decide +kernel)),
    if_neg (key (w "string") (by decide +kernel) (by decide +kernel))]

/-- A static field's two type texts are the same. -/
theorem definitionType_eq (ci : CharInfo) (n : WStr) (k : Kind) (hn : n ≠ []) (hc : ¬ Changed ci n) (t : WStr)
    (h : declText ci (.named n k) = .ok t) : definitionType (.named n k) = t := by
  unfold declText formatType at h
  simp only [] at h
  by_cases hk : k = .array
  · subst hk
    rw [if_pos rfl, array_text, Res.bind_ok, Res.ok.injEq] at h
    rw [← h]; show w "Array*" = w "Array" ++ [42]; decide +kernel
  · rw [if_neg hk, (Names.nameText_same ci n hn).mpr hc, Res.bind_ok, Res.ok.injEq] at h
    rw [← h]
    unfold definitionType Types.isPointer
    simp only []
    rw [if_neg hk, appendType_same ci n hc]
    cases k <;> simp at hk ⊢

theorem member_defined (ci : CharInfo) (cls : Ty) (q : WStr) (hq : formatType ci cls = .ok q) (m : Member) (hm : Covered ci m)
    (hs ds : List Item) (hh : header ci (tyName cls) m = .ok hs) (hd : source ci cls m = .ok ds) :
    Pairs (Defines q) (hs.filter Item.needsDef) ds := by
  cases m with
  | ctor st ps =>
    cases st with
    | false =>
      rw [header] at hh; rw [source, hq, Res.bind_ok] at hd
      obtain ⟨n, h1, hh⟩ := bind_ok_inv hh
      obtain ⟨ts, h2, hh⟩ := bind_ok_inv hh
      rw [Res.ok.injEq] at hh; subst hh
      rw [h1, Res.bind_ok, h2, Res.bind_ok, Res.ok.injEq] at hd
      subst hd
      exact .cons ⟨rfl, rfl, rfl, rfl, rfl⟩ .nil
    | true =>
      rw [header] at hh; rw [source, hq, Res.bind_ok] at hd
      obtain ⟨n, h1, hh⟩ := bind_ok_inv hh
      rw [Res.ok.injEq] at hh; subst hh
      rw [h1, Res.bind_ok, Res.ok.injEq] at hd
      subst hd
      have e : List.filter Item.needsDef [Item.fn ⟨[w "static "], some (w "Boolean"), none, n ++ w "_Static", [], false⟩,
          Item.var ⟨[w "static "], w "Boolean", none, [n ++ w "_Initilized"]⟩] =
          [Item.fn ⟨[w "static "], some (w "Boolean"), none, n ++ w "_Static", [], false⟩,
          Item.var ⟨[w "static "], w "Boolean", none, [n ++ w "_Initilized"]⟩] := by simp [Item.needsDef]
      rw [e]
      exact .cons ⟨rfl, rfl, rfl, rfl, rfl⟩ (.cons ⟨rfl, rfl, rfl⟩ .nil)
  | method mods ret name ps body =>
    rw [header] at hh
    obtain ⟨r, h1, hh⟩ := bind_ok_inv hh
    obtain ⟨n, h2, hh⟩ := bind_ok_inv hh
    obtain ⟨ts, h3, hh⟩ := bind_ok_inv hh
    rw [Res.ok.injEq] at hh; subst hh
    rw [source] at hd
    cases body with
    | false =>
      simp only [Bool.false_eq_true, if_false, Res.ok.injEq] at hd
      subst hd
      exact .nil
    | true =>
      rw [if_pos rfl, h1, Res.bind_ok, hq, Res.bind_ok, h2, Res.bind_ok, h3, Res.bind_ok, Res.ok.injEq] at hd
      subst hd
      exact .cons ⟨rfl, rfl, rfl, rfl, rfl⟩ .nil
  | field st ty names =>
    rw [header] at hh
    obtain ⟨t, h1, hh⟩ := bind_ok_inv hh
    obtain ⟨ns, h2, hh⟩ := bind_ok_inv hh
    rw [Res.ok.injEq] at hh; subst hh
    rw [source] at hd
    cases st with
    | «instance» =>
      rw [if_neg (by decide), Res.ok.injEq] at hd; subst hd
      rw [if_pos rfl]
      exact .nil
    | const => exact absurd hm id
    | static =>
      rw [if_pos rfl, hq, Res.bind_ok, h2, Res.bind_ok, Res.ok.injEq] at hd
      subst hd
      cases ty with
      | byRef n k => exact absurd hm id
      | named n k =>
        have := definitionType_eq ci n k hm.2.1 hm.2.2 t h1
        have e : List.filter Item.needsDef [Item.var ⟨[w "static "], t, none, ns⟩] = [Item.var ⟨[w "static "], t, none, ns⟩] := by simp [Item.needsDef]
        rw [if_neg (by decide), e]
        exact .cons ⟨rfl, this, rfl⟩ .nil
  | property mods ty name g s body b =>
    rw [header] at hh
    obtain ⟨t, h1, hh⟩ := bind_ok_inv hh
    rw [source, h1, Res.bind_ok, hq, Res.bind_ok] at hd
    cases g with
    | false => cases hh
    | true =>
    cases body with
    | false => cases hh
    | true =>
    rw [if_neg (by decide), Res.ok.injEq] at hh; subst hh
    rw [if_neg (by simp), Res.ok.injEq] at hd
    subst hd
    have e : (backingItems t b).filter Item.needsDef = [] := by
      cases b with
      | none => rfl
      | some b => by_cases hb : b = [] <;> simp [backingItems, hb, Item.needsDef]
    rw [List.filter_append, e, List.append_nil]
    cases s with
    | false => exact .cons ⟨rfl, rfl, rfl, rfl, rfl⟩ .nil
    | true => exact .cons ⟨rfl, rfl, rfl, rfl, rfl⟩ (.cons ⟨rfl, rfl, rfl, rfl, rfl⟩ .nil)
  | oper op ret ps => exact absurd hm id

/-- C106 (partial): for every class, the definitions written to the source file are, in order, exactly those of the functions (other than abstract ones) and
static fields declared in the header, each a member of that class with the same types, name and parameters.  Missing: operators, and static fields whose type's
name is changed by the formatter (both refuted below); constants, which are not referenced. -/
theorem C106_definitions_partial (ci : CharInfo) (cls : Ty) (q : WStr) (hq : formatType ci cls = .ok q) (ms : List Member) (hm : ∀ m ∈ ms, Covered ci m)
    (hs ds : List Item) (hh : items (header ci (tyName cls)) ms = .ok hs) (hd : items (source ci cls) ms = .ok ds) :
    Pairs (Defines q) (hs.filter Item.needsDef) ds := by
  induction ms generalizing hs ds with
  | nil =>
    rw [items, Res.ok.injEq] at hh hd
    subst hh; subst hd; exact .nil
  | cons m ms ih =>
    rw [items] at hh hd
    obtain ⟨a, h1, hh⟩ := bind_ok_inv hh
    obtain ⟨b, h2, hh⟩ := bind_ok_inv hh
    obtain ⟨c, h3, hd⟩ := bind_ok_inv hd
    obtain ⟨d, h4, hd⟩ := bind_ok_inv hd
    rw [Res.ok.injEq] at hh hd
    subst hh; subst hd
    rw [List.filter_append]
    exact Pairs.append (member_defined ci cls q hq m (hm m List.mem_cons_self) a c h1 h3) (ih (fun x hx => hm x (List.mem_cons_of_mem _ hx)) b d h2 h4)

/-- C106: a property's getter, setter and (for an automatic property) backing field are declared with the property's type. -/
theorem C106_accessors (ci : CharInfo) (cls : WStr) (mods : List Mod) (ty : Ty) (name : WStr) (s : Bool) (b : Option WStr) (t : WStr)
    (ht : declText ci ty = .ok t) :
    ∃ hs, header ci cls (.property mods ty name true s true b) = .ok hs ∧
      hs.map Item.text = (t ++ [32] ++ w "get_" ++ name ++ w "()") ::
        ((if s then [w "void set_" ++ name ++ [40] ++ t ++ w " x_value )"] else []) ++
          (match b with | some f => if f = [] then [] else [t ++ [32] ++ f] | none => [])) := by
  rw [header, ht, Res.bind_ok, if_neg (by decide)]
  refine ⟨_, rfl, ?_⟩
  have e1 : w "()" = [40, 41] := by decide +kernel
  have e2 : w " x_value )" = w " x_value " ++ [41] := by decide +kernel
  have e3 : w "void set_" = w "void" ++ [32] ++ w "set_" := by decide +kernel
  rw [if_pos rfl, List.map_append, List.map_append, List.append_assoc]
  have hb : (backingItems t b).map Item.text = (match b with | some f => if f = [] then [] else [t ++ [32] ++ f] | none => []) := by
    cases b with
    | none => rfl
    | some f => by_cases hf : f = [] <;> simp [backingItems, hf, Item.text, Header.commaSep]
  rw [hb]
  cases s <;> simp [Item.text, Header.commaSep, e1, e2, e3]

/-- The names the CLI gives operators (ECMA-335 I.10.3.2), under which they are called. -/
def cliName : Oper → Option WStr
  | .addition => some (w "op_Addition")
  | .subtraction => some (w "op_Subtraction")
  | .bitwiseAnd => some (w "op_BitwiseAnd")
  | .other => none

/-- C106: an operator that is translated is declared and defined under the name it is called by. -/
theorem C106_operator_name (ci : CharInfo) (cls : Ty) (op : Oper) (ret : RetSyntax) (ps : List Param) (hs ds : List Item)
    (hh : header ci (tyName cls) (.oper op ret ps) = .ok hs) (hd : source ci cls (.oper op ret ps) = .ok ds) :
    ∃ n h d, cliName op = some n ∧ hs = [.fn h] ∧ ds = [.fn d] ∧ h.name = n ∧ d.name = n ∧ d.params = h.params ∧ d.ret = h.ret := by
  rw [header] at hh; rw [source] at hd
  obtain ⟨r, h1, hh⟩ := bind_ok_inv hh
  obtain ⟨n, h2, hh⟩ := bind_ok_inv hh
  obtain ⟨ts, h3, hh⟩ := bind_ok_inv hh
  rw [Res.ok.injEq] at hh; subst hh
  rw [h1, Res.bind_ok, h2, Res.bind_ok, h3, Res.bind_ok, Res.ok.injEq] at hd
  subst hd
  refine ⟨n, _, _, ?_, rfl, rfl, rfl, rfl, rfl, rfl⟩
  cases op with
  | other => cases h2
  | _ => rw [operName, Res.ok.injEq] at h2; rw [← h2]; rfl

/-- C106 is false as stated, for operators: an operator is defined as a member of the type it returns instead of the type that declares it; one
that returns a C# keyword type, or that is not one of `+`, `-` and `&`, ends the translation. -/
theorem C106_operator_refuted :
    (∃ (cls : Ty) (m : Member) (h d : Fn), header Fmt.asciiInfo (tyName cls) m = .ok [.fn h] ∧ source Fmt.asciiInfo cls m = .ok [.fn d] ∧
      formatType Fmt.asciiInfo cls = .ok (w "Vector") ∧ d.qual = some (w "Point")) ∧
    (∀ ci cls op ps, header ci cls (.oper op .keyword ps) = .throw .notImplemented) ∧
    (∀ ci cls id ps, id ≠ [] → header ci cls (.oper .other (.simple id) ps) = .throw .keyNotFound) := by
  refine ⟨⟨.named (w "Vector") .struct, .oper .addition (.simple (w "Point")) [⟨.named (w "Vector") .struct, .none, w "a"⟩],
    ⟨[w "static "], some (w "Point"), none, w "op_Addition", [w "Vector x_a"], false⟩,
    ⟨[], some (w "Point"), some (w "Point"), w "op_Addition", [w "Vector x_a"], false⟩, by decide +kernel, by decide +kernel, by decide +kernel, rfl⟩,
    fun ci cls op ps => rfl, ?_⟩
  intro ci cls id ps hid
  obtain ⟨t, ht⟩ := (FmtTextProps.C53_total ci id).mpr hid
  rw [header, retSyntax, ht, Res.bind_ok, operName, Res.bind_throw]

/-- C106 is false as stated, for static fields: the definition of a static field writes the name of its class as it is, the declaration with the prefix. -/
theorem C106_field_refuted : ∃ (m : Member) (h d : Var), header Fmt.asciiInfo (w "Tree") m = .ok [.var h] ∧
    source Fmt.asciiInfo (.named (w "Tree") .class) m = .ok [.var d] ∧ h.ty = w "x_node*" ∧ d.ty = w "node*" :=
  ⟨.field .static (.named (w "node") .class) [w "Root"], ⟨[w "static "], w "x_node*", none, [w "Root"]⟩, ⟨[], w "node*", some (w "Tree"), [w "Root"]⟩,
    by decide +kernel, by decide +kernel, rfl, rfl⟩

/-- C106 is false as stated, for properties: a property without a getter, or without bodies (an abstract one, or one of an interface), ends the translation. -/
theorem C106_property_refuted (ci : CharInfo) (cls : WStr) (mods : List Mod) (ty : Ty) (name : WStr) (g s body : Bool) (b : Option WStr)
    (hb : g = false ∨ body = false) (t : WStr) (ht : declText ci ty = .ok t) :
    header ci cls (.property mods ty name g s body b) = .throw .nullReference := by
  rw [header, ht, Res.bind_ok, if_pos]
  rcases hb with h | h <;> simp [h]

/-- Every kind of covered member, in one class. -/
def demo : List Member :=
  [.ctor true [], .ctor false [⟨.named (w "Int32") .struct, .none, w "size"⟩], .method [.static] (.named (w "Tree") .class) (w "Make") [] true,
    .method [.abstract] (.named (w "Boolean") .struct) (w "Empty") [⟨.named (w "Int32") .struct, .ref, w "n"⟩] false,
    .field .static (.named (w "Tree") .class) [w "root"], .field .instance (.named (w "node") .class) [w "first"],
    .property [] (.named (w "Int32") .struct) (w "Size") true true true (some (w "Sizek__BackingField"))]

example : ∃ hs ds, items (header Fmt.asciiInfo (tyName (.named (w "Tree") .class))) demo = .ok hs ∧
    items (source Fmt.asciiInfo (.named (w "Tree") .class)) demo = .ok ds ∧ ds.length = 7 ∧
    ds.map Item.text = [w "Boolean Tree::Tree_Static()", w "Boolean Tree::Tree_Initilized", w "Tree::Tree(Int32 x_size)", w "Tree* Tree::Make()",
      w "Tree* Tree::x_root", w "Int32 Tree::get_Size()", w "void Tree::set_Size(Int32 x_value )"] := by
  refine ⟨_, _, rfl, rfl, by decide +kernel, by decide +kernel⟩
example : ∀ m ∈ demo, Covered Fmt.asciiInfo m := by
  have : ¬ Changed Fmt.asciiInfo (w "Tree") := by
    rw [← Names.nameText_same Fmt.asciiInfo (w "Tree") (by decide +kernel)]; decide +kernel
  intro m hm
  simp only [demo, List.mem_cons, List.not_mem_nil, or_false] at hm
  rcases hm with h | h | h | h | h | h | h <;> subst h
  · trivial
  · trivial
  · trivial
  · trivial
  · exact ⟨rfl, by decide +kernel, this⟩
  · trivial
  · trivial

/-! ### C107 -/

/-- The C++ function is static, or virtual. -/
def Fn.isStatic (f : Fn) : Prop := w "static " ∈ f.specs
def Fn.isVirtual (f : Fn) : Prop := w "virtual " ∈ f.specs

/-- The combinations of modifiers C# allows: none twice, and at most one of `static`, `abstract` and `virtual`. -/
def ValidMods (mods : List Mod) : Prop :=
  mods.count .static ≤ 1 ∧ mods.count .abstract ≤ 1 ∧ mods.count .virtual ≤ 1 ∧ mods.count .static + mods.count .abstract + mods.count .virtual ≤ 1

theorem modifier_static (mods : List Mod) : w "static " ∈ modifierTexts mods ↔ Mod.static ∈ mods := by
  have hv : w "static " ≠ w "virtual " := by decide +kernel
  induction mods with
  | nil => simp [modifierTexts]
  | cons m ms ih => cases m <;> simp [modifierTexts, ih, hv]

theorem modifier_virtual (mods : List Mod) : w "virtual " ∈ modifierTexts mods ↔ Mod.abstract ∈ mods ∨ Mod.virtual ∈ mods := by
  have hv : w "virtual " ≠ w "static " := by decide +kernel
  induction mods with
  | nil => simp [modifierTexts]
  | cons m ms ih => cases m <;> simp [modifierTexts, ih, hv]

theorem modifier_length (mods : List Mod) :
    (modifierTexts mods).length = mods.count .static + mods.count .abstract + mods.count .virtual := by
  induction mods with
  | nil => rfl
  | cons m ms ih => cases m <;> simp [modifierTexts, ih] <;> omega

/-- C107 (partial): a method is declared static, virtual or pure exactly when it is static, abstract or virtual, or without a body; with at most one of the
specifiers; so an abstract method is a pure virtual function.  Missing: methods without a body that are not marked abstract, and properties (refuted below). -/
theorem C107_method_partial (ci : CharInfo) (cls : WStr) (mods : List Mod) (ret : Ty) (name : WStr) (ps : List Param) (body : Bool) (hv : ValidMods mods)
    (hb : body = false → .abstract ∈ mods) (hs : List Item) (h : header ci cls (.method mods ret name ps body) = .ok hs) :
    ∃ f, hs = [.fn f] ∧ (f.isStatic ↔ .static ∈ mods) ∧ (f.isVirtual ↔ .abstract ∈ mods ∨ .virtual ∈ mods) ∧ (f.pure = true ↔ body = false) ∧
      f.specs.length ≤ 1 ∧ (f.pure = true → f.isVirtual ∧ ¬ f.isStatic) := by
  rw [header] at h
  obtain ⟨r, h1, h⟩ := bind_ok_inv h
  obtain ⟨n, h2, h⟩ := bind_ok_inv h
  obtain ⟨ts, h3, h⟩ := bind_ok_inv h
  rw [Res.ok.injEq] at h
  refine ⟨_, h.symm, modifier_static mods, modifier_virtual mods, by simp, ?_, ?_⟩
  · show (modifierTexts mods).length ≤ 1
    rw [modifier_length]; exact hv.2.2.2
  · intro hp
    have ha : Mod.abstract ∈ mods := hb (by simpa using hp)
    refine ⟨(modifier_virtual mods).mpr (.inl ha), fun hst => ?_⟩
    have hst := (modifier_static mods).mp hst
    have c1 := List.count_pos_iff.mpr ha
    have c2 := List.count_pos_iff.mpr hst
    have := hv.2.2.2
    omega

/-- C107 (partial): fields are static exactly when they are static or constant; constructors are never static, operators always. -/
theorem C107_others_partial (ci : CharInfo) (cls : WStr) (hs : List Item) :
    (∀ st ty names, header ci cls (.field st ty names) = .ok hs → ∃ v, hs = [.var v] ∧ (w "static " ∈ v.specs ↔ st ≠ .instance)) ∧
    (∀ ps, header ci cls (.ctor false ps) = .ok hs → ∃ f, hs = [.fn f] ∧ ¬ f.isStatic ∧ ¬ f.isVirtual ∧ f.pure = false) ∧
    (∀ op ret ps, header ci cls (.oper op ret ps) = .ok hs → ∃ f, hs = [.fn f] ∧ f.isStatic ∧ ¬ f.isVirtual ∧ f.pure = false) := by
  refine ⟨fun st ty names h => ?_, fun ps h => ?_, fun op ret ps h => ?_⟩
  · rw [header] at h
    obtain ⟨t, h1, h⟩ := bind_ok_inv h
    obtain ⟨n, h2, h⟩ := bind_ok_inv h
    rw [Res.ok.injEq] at h
    refine ⟨_, h.symm, ?_⟩
    cases st <;> simp
  · rw [header] at h
    obtain ⟨t, h1, h⟩ := bind_ok_inv h
    obtain ⟨n, h2, h⟩ := bind_ok_inv h
    rw [Res.ok.injEq] at h
    exact ⟨_, h.symm, List.not_mem_nil, List.not_mem_nil, rfl⟩
  · rw [header] at h
    obtain ⟨t, h1, h⟩ := bind_ok_inv h
    obtain ⟨n, h2, h⟩ := bind_ok_inv h
    obtain ⟨ts, h3, h⟩ := bind_ok_inv h
    rw [Res.ok.injEq] at h
    refine ⟨_, h.symm, List.mem_cons_self, ?_, rfl⟩
    show ¬ w "virtual " ∈ [w "static "]
    decide +kernel

/-- C107 is false as stated: the accessors of a static or virtual property are ordinary functions and its backing field is an instance field, whatever the
property's modifiers; a method without a body that is not marked abstract (one of an interface, or a static external one) becomes `= 0` on a function
that is not virtual, which is not C++. -/
theorem C107_modifiers_refuted :
    (∀ ci cls mods ty name g s body b hs, header ci cls (.property mods ty name g s body b) = .ok hs →
      ∀ i ∈ hs, match i with | .fn f => ¬ f.isStatic ∧ ¬ f.isVirtual | .var v => v.specs = []) ∧
    (∃ f : Fn, header Fmt.asciiInfo (w "Shape") (.method [] (.named (w "Int32") .struct) (w "Area") [] false) = .ok [.fn f] ∧ f.pure = true ∧ ¬ f.isVirtual) ∧
    (∃ f : Fn, header Fmt.asciiInfo (w "Native") (.method [.static] (.named (w "Int32") .struct) (w "Area") [] false) = .ok [.fn f] ∧ f.pure = true ∧ f.isStatic) := by
  refine ⟨?_, ⟨⟨[], some (w "Int32"), none, w "Area", [], true⟩, by decide +kernel, rfl, List.not_mem_nil⟩,
    ⟨⟨[w "static "], some (w "Int32"), none, w "Area", [], true⟩, by decide +kernel, rfl, List.mem_cons_self⟩⟩
  intro ci cls mods ty name g s body b hs h i hi
  rw [header] at h
  obtain ⟨t, h1, h⟩ := bind_ok_inv h
  cases g with
  | false => cases h
  | true =>
  cases body with
  | false => cases h
  | true =>
  rw [if_neg (by decide), Res.ok.injEq] at h
  subst h
  simp only [List.mem_append] at hi
  rcases hi with (hi | hi) | hi
  · rw [if_pos trivial, List.mem_singleton] at hi
    subst hi; exact ⟨List.not_mem_nil, List.not_mem_nil⟩
  · cases s with
    | false => simp at hi
    | true =>
      rw [if_pos rfl, List.mem_singleton] at hi
      subst hi; exact ⟨List.not_mem_nil, List.not_mem_nil⟩
  · cases b with
    | none => cases hi
    | some b =>
      rw [backingItems] at hi
      split at hi
      · cases hi
      · rw [List.mem_singleton] at hi
        subst hi; rfl

example : ValidMods [.other, .abstract] ∧ header Fmt.asciiInfo (w "Shape") (.method [.other, .abstract] (.named (w "Int32") .struct) (w "Area") [] false) =
    .ok [.fn ⟨[w "virtual "], some (w "Int32"), none, w "Area", [], true⟩] := ⟨by unfold ValidMods; decide, by decide +kernel⟩
example : (Item.fn ⟨[w "virtual "], some (w "Int32"), none, w "Area", [], true⟩).text = w "virtual Int32 Area() = 0" := by decide +kernel

end Verif.Member
