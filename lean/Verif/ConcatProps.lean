import Verif.ConcatModel
import Verif.StringProps
/-!
# C111: a translated string concatenation has the source's value
-/
namespace Verif.Concat
open Verif.StrModel Verif.SBModel

/-! ### Specification

What a C++ compiler reads in the text, what the C# expression means. -/

/-- Reading of `String::Concat(x, y, ...)`: `stk` holds the operands read so far of the calls that are open (innermost first), `cur` the operand just
read. -/
def read : List Tok → List (List Tree) → Option Tree → Option Tree
  | [], [], cur => cur
  | [], _ :: _, _ => none
  | .atom n :: r, stk, none => read r stk (some (.atom n))
  | .opn :: r, stk, none => read r ([] :: stk) none
  | .cls :: r, [] :: stk, none => read r stk (some (.call []))
  | .comma :: r, top :: stk, some t => read r ((top ++ [t]) :: stk) none
  | .cls :: r, top :: stk, some t => read r stk (some (.call (top ++ [t])))
  | _, _, _ => none

mutual
/-- The operands of the source, in order, as a tree. -/
def shape : Src → Tree
  | .atom n => .atom n
  | .args a b rest => .call (shape a :: shape b :: shapes rest)
  | .block items => .call (elements items)
def shapes : Srcs → List Tree
  | .nil => []
  | .cons a t => shape a :: shapes t
/-- The values stored into the array's elements. -/
def elements : Items → List Tree
  | .nil => []
  | .stloc t => elements t
  | .stobj v t => shape v :: elements t
  | .other t => elements t
end

mutual
/-- C#: `String.Concat` joins its operands, null counting as the empty string; `env` gives the text of the atoms. -/
def csharp (env : Nat → Option WStr) : Src → Option WStr
  | .atom n => env n
  | .args a b rest => some ((csharp env a).getD [] ++ (csharp env b).getD [] ++ joinArgs env rest)
  | .block items => some (joinItems env items)
def joinArgs (env : Nat → Option WStr) : Srcs → WStr
  | .nil => []
  | .cons a t => (csharp env a).getD [] ++ joinArgs env t
def joinItems (env : Nat → Option WStr) : Items → WStr
  | .nil => []
  | .stloc t => joinItems env t
  | .stobj v t => (csharp env v).getD [] ++ joinItems env t
  | .other t => joinItems env t
end

mutual
/-- C++: the compiler finds an overload for every call. -/
def compiles : Tree → Bool
  | .atom _ => true
  | .call ts => arity ts.length && compileAll ts
def compileAll : List Tree → Bool
  | [] => true
  | t :: r => compiles t && compileAll r
end

mutual
/-- C++: value of an expression that compiles. -/
def value (env : Nat → Option WStr) : Tree → Res (Option WStr)
  | .atom n => .ok (env n)
  | .call ts => (values env ts).bind call
def values (env : Nat → Option WStr) : List Tree → Res (List (Option WStr))
  | [] => .ok []
  | t :: r => (value env t).bind fun v => (values env r).bind fun vs => .ok (v :: vs)
end

/-- Number of element stores. -/
def count : Items → Nat
  | .nil => 0
  | .stloc t => count t
  | .stobj _ t => count t + 1
  | .other t => count t
def len : Srcs → Nat
  | .nil => 0
  | .cons _ t => len t + 1

mutual
/-- No call has more than seven operands or none. -/
def Small : Src → Prop
  | .atom _ => True
  | .args a b rest => len rest ≤ 5 ∧ Small a ∧ Small b ∧ SmallArgs rest
  | .block items => 1 ≤ count items ∧ count items ≤ 7 ∧ SmallItems items
def SmallArgs : Srcs → Prop
  | .nil => True
  | .cons a t => Small a ∧ SmallArgs t
def SmallItems : Items → Prop
  | .nil => True
  | .stloc t => SmallItems t
  | .stobj v t => Small v ∧ SmallItems t
  | .other t => SmallItems t
end

/-- The first element stored is null. -/
def firstNull (env : Nat → Option WStr) : Items → Bool
  | .nil => false
  | .stloc t => firstNull env t
  | .stobj v _ => (csharp env v).isNone
  | .other t => firstNull env t

mutual
/-- Some call has null as its first operand. -/
def LeadingNull (env : Nat → Option WStr) : Src → Bool
  | .atom _ => false
  | .args a b rest => (csharp env a).isNone || LeadingNull env a || LeadingNull env b || LeadingNulls env rest
  | .block items => firstNull env items || LeadingItems env items
def LeadingNulls (env : Nat → Option WStr) : Srcs → Bool
  | .nil => false
  | .cons a t => LeadingNull env a || LeadingNulls env t
def LeadingItems (env : Nat → Option WStr) : Items → Bool
  | .nil => false
  | .stloc t => LeadingItems env t
  | .stobj v t => LeadingNull env v || LeadingItems env t
  | .other t => LeadingItems env t
end

/-! ### Reading back -/

theorem bind_inv {α β : Type} {x : Res α} {f : α → Res β} {b : β} (h : x.bind f = .ok b) : ∃ a, x = .ok a ∧ f a = .ok b := by
  cases x with
  | ok a => exact ⟨a, rfl, h⟩
  | throw e => simp [Res.bind] at h
  | ub => simp [Res.bind] at h

mutual
theorem read_emit (e : Src) (toks : List Tok) (h : emit e = .ok toks) (r : List Tok) (stk : List (List Tree)) :
    read (toks ++ r) stk none = read r stk (some (shape e)) := by
  match e with
  | .atom n =>
    rw [emit, Res.ok.injEq] at h
    subst h
    rw [shape]
    simp [read]
  | .args a b rest =>
    rw [emit] at h
    obtain ⟨x, hx, h⟩ := bind_inv h
    obtain ⟨y, hy, h⟩ := bind_inv h
    obtain ⟨z, hz, h⟩ := bind_inv h
    rw [Res.ok.injEq] at h
    subst h
    have e1 : (Tok.opn :: x ++ Tok.comma :: y ++ z ++ [Tok.cls]) ++ r = Tok.opn :: (x ++ (Tok.comma :: (y ++ (z ++ (Tok.cls :: r))))) := by simp
    rw [e1]
    rw [show read (Tok.opn :: (x ++ (Tok.comma :: (y ++ (z ++ (Tok.cls :: r)))))) stk none
      = read (x ++ (Tok.comma :: (y ++ (z ++ (Tok.cls :: r))))) ([] :: stk) none by simp [read]]
    rw [read_emit a x hx]
    rw [show read (Tok.comma :: (y ++ (z ++ (Tok.cls :: r)))) ([] :: stk) (some (shape a))
      = read (y ++ (z ++ (Tok.cls :: r))) ([shape a] :: stk) none by simp [read]]
    rw [read_emit b y hy, read_rest rest z hz]
    rw [shape]
    simp
  | .block items =>
    rw [emit] at h
    obtain ⟨x, hx, h⟩ := bind_inv h
    rw [Res.ok.injEq] at h
    subst h
    have e1 : (Tok.opn :: x ++ [Tok.cls]) ++ r = Tok.opn :: (x ++ (Tok.cls :: r)) := by simp
    rw [e1]
    rw [show read (Tok.opn :: (x ++ (Tok.cls :: r))) stk none = read (x ++ (Tok.cls :: r)) ([] :: stk) none by simp [read]]
    rw [read_first items x hx, shape]
theorem read_rest (e : Srcs) (toks : List Tok) (h : emitRest e = .ok toks) (r : List Tok) (top : List Tree) (stk : List (List Tree)) (t : Tree) :
    read (toks ++ (.cls :: r)) (top :: stk) (some t) = read r stk (some (.call (top ++ [t] ++ shapes e))) := by
  match e with
  | .nil =>
    rw [emitRest, Res.ok.injEq] at h
    subst h
    simp [read, shapes]
  | .cons a u =>
    rw [emitRest] at h
    obtain ⟨x, hx, h⟩ := bind_inv h
    obtain ⟨y, hy, h⟩ := bind_inv h
    rw [Res.ok.injEq] at h
    subst h
    have e1 : (Tok.comma :: x ++ y) ++ (Tok.cls :: r) = Tok.comma :: (x ++ (y ++ (Tok.cls :: r))) := by simp
    rw [e1]
    rw [show read (Tok.comma :: (x ++ (y ++ (Tok.cls :: r)))) (top :: stk) (some t) = read (x ++ (y ++ (Tok.cls :: r))) ((top ++ [t]) :: stk) none by simp [read]]
    rw [read_emit a x hx, read_rest u y hy, shapes]
    simp
theorem read_more (e : Items) (toks : List Tok) (h : emitBlock e false = .ok toks) (r : List Tok) (top : List Tree) (stk : List (List Tree)) (t : Tree) :
    read (toks ++ (.cls :: r)) (top :: stk) (some t) = read r stk (some (.call (top ++ [t] ++ elements e))) := by
  match e with
  | .nil =>
    rw [emitBlock, Res.ok.injEq] at h
    subst h
    simp [read, elements]
  | .stloc u =>
    rw [emitBlock] at h
    rw [read_more u toks h, elements]
  | .stobj a u =>
    rw [emitBlock] at h
    obtain ⟨x, hx, h⟩ := bind_inv h
    obtain ⟨y, hy, h⟩ := bind_inv h
    rw [Res.ok.injEq] at h
    subst h
    have e1 : ((if false then [] else [Tok.comma]) ++ x ++ y) ++ (Tok.cls :: r) = Tok.comma :: (x ++ (y ++ (Tok.cls :: r))) := by simp
    rw [e1]
    rw [show read (Tok.comma :: (x ++ (y ++ (Tok.cls :: r)))) (top :: stk) (some t) = read (x ++ (y ++ (Tok.cls :: r))) ((top ++ [t]) :: stk) none by simp [read]]
    rw [read_emit a x hx, read_more u y hy, elements]
    simp
  | .other u => rw [emitBlock] at h; cases h
theorem read_first (e : Items) (toks : List Tok) (h : emitBlock e true = .ok toks) (r : List Tok) (stk : List (List Tree)) :
    read (toks ++ (.cls :: r)) ([] :: stk) none = read r stk (some (.call (elements e))) := by
  match e with
  | .nil =>
    rw [emitBlock, Res.ok.injEq] at h
    subst h
    simp [read, elements]
  | .stloc u =>
    rw [emitBlock] at h
    rw [read_first u toks h, elements]
  | .stobj a u =>
    rw [emitBlock] at h
    obtain ⟨x, hx, h⟩ := bind_inv h
    obtain ⟨y, hy, h⟩ := bind_inv h
    rw [Res.ok.injEq] at h
    subst h
    have e1 : ((if true then [] else [Tok.comma]) ++ x ++ y) ++ (Tok.cls :: r) = x ++ (y ++ (Tok.cls :: r)) := by simp
    rw [e1, read_emit a x hx, read_more u y hy, elements]
    simp
  | .other u => rw [emitBlock] at h; cases h
end

/-- **C111**: the emitted text is read as calls with exactly the source's operands, in the source's order; the store of the array itself is not an
operand. -/
theorem C111_operands (e : Src) (toks : List Tok) (h : emit e = .ok toks) : read toks [] none = some (shape e) := by
  have h1 := read_emit e toks h [] []
  rw [List.append_nil] at h1
  rw [h1]
  simp [read]

/-- `a + (b + c) + d` -/
example : emit (.args (.atom 0) (.block (.stloc (.stobj (.atom 1) (.stobj (.atom 2) .nil)))) (.cons (.atom 3) .nil))
      = .ok [.opn, .atom 0, .comma, .opn, .atom 1, .comma, .atom 2, .cls, .comma, .atom 3, .cls]
    ∧ shape (.args (.atom 0) (.block (.stloc (.stobj (.atom 1) (.stobj (.atom 2) .nil)))) (.cons (.atom 3) .nil))
      = .call [.atom 0, .call [.atom 1, .atom 2], .atom 3] := by
  exact ⟨rfl, rfl⟩

/-! ### Overloads -/

theorem shapes_length : ∀ r : Srcs, (shapes r).length = len r
  | .nil => by rw [shapes, len]; rfl
  | .cons a t => by rw [shapes, len, List.length_cons, shapes_length t]
theorem elements_length : ∀ r : Items, (elements r).length = count r
  | .nil => by rw [elements, count]; rfl
  | .stloc t => by rw [elements, count, elements_length t]
  | .stobj a t => by rw [elements, count, List.length_cons, elements_length t]
  | .other t => by rw [elements, count, elements_length t]

mutual
theorem compiles_shape (e : Src) : compiles (shape e) = true ↔ Small e := by
  match e with
  | .atom n => simp [shape, compiles, Small]
  | .args a b rest =>
    rw [shape, compiles, compileAll, compileAll, Small]
    have h1 := compiles_shape a
    have h2 := compiles_shape b
    have h3 := compiles_shapes rest
    simp only [Bool.and_eq_true, h1, h2, h3, arity, List.length_cons, shapes_length, decide_eq_true_eq]
    constructor
    · rintro ⟨⟨_, h⟩, r⟩; exact ⟨by omega, r⟩
    · rintro ⟨h, r⟩; exact ⟨⟨by omega, by omega⟩, r⟩
  | .block items =>
    rw [shape, compiles, Small]
    have h3 := compiles_elements items
    simp only [Bool.and_eq_true, h3, arity, elements_length, decide_eq_true_eq, and_assoc]
theorem compiles_shapes (e : Srcs) : compileAll (shapes e) = true ↔ SmallArgs e := by
  match e with
  | .nil => simp [shapes, compileAll, SmallArgs]
  | .cons a t =>
    rw [shapes, compileAll, SmallArgs, Bool.and_eq_true, compiles_shape a, compiles_shapes t]
theorem compiles_elements (e : Items) : compileAll (elements e) = true ↔ SmallItems e := by
  match e with
  | .nil => simp [elements, compileAll, SmallItems]
  | .stloc t => rw [elements, SmallItems, compiles_elements t]
  | .stobj a t => rw [elements, compileAll, SmallItems, Bool.and_eq_true, compiles_shape a, compiles_elements t]
  | .other t => rw [elements, SmallItems, compiles_elements t]
end

/-- **C111**: the emitted expression compiles exactly when no concatenation in it has more than seven operands (or none). -/
theorem C111_compiles_iff (e : Src) (toks : List Tok) (h : emit e = .ok toks) : (∃ t, read toks [] none = some t ∧ compiles t = true) ↔ Small e := by
  rw [C111_operands e toks h, ← compiles_shape e]
  constructor
  · rintro ⟨t, h1, h2⟩
    rw [Option.some.injEq] at h1
    subst h1; exact h2
  · intro h1; exact ⟨_, rfl, h1⟩

/-- `a + b + c + d + e + f + g + h`, which the C# compiler passes as an array. -/
def eight : Src := .block (.stloc (.stobj (.atom 0) (.stobj (.atom 1) (.stobj (.atom 2) (.stobj (.atom 3) (.stobj (.atom 4) (.stobj (.atom 5)
  (.stobj (.atom 6) (.stobj (.atom 7) .nil)))))))))

/-- **C111** is false of the code for a concatenation of eight operands: `String::Concat` takes at most seven. -/
theorem C111_eight_refuted : ∃ toks, emit eight = .ok toks ∧ ¬ ∃ t, read toks [] none = some t ∧ compiles t = true := by
  refine ⟨_, rfl, ?_⟩
  intro h
  have h1 := (C111_compiles_iff eight _ rfl).1 h
  simp [eight, Small, count] at h1

/-! ### Value -/

theorem call_ok (a : WStr) (rest : List (Option WStr)) (h : ((a ++ (rest.map (·.getD [])).flatten).length : Int) ≤ limit) :
    call (some a :: rest) = .ok (some (a ++ (rest.map (·.getD [])).flatten)) := by
  have e : ((rest ++ List.replicate (6 - rest.length) (none : Option WStr)).map (·.getD [])).flatten = (rest.map (·.getD [])).flatten := by
    rw [List.map_append, List.flatten_append, List.map_replicate]
    simp
  rw [call, Verif.StrProps.C36_concat_partial a _ (by rw [e]; rw [List.length_append] at h; push_cast at h ⊢; omega), e]
  rfl

theorem call_null (rest : List (Option WStr)) : call (none :: rest) = .throw .argumentNull := rfl

/-- Outcome of a list of operands: their values, or `argumentNull`. -/
def Outcome (bad : Bool) {α : Type} (x : Res α) (v : α) : Prop := if bad then x = .throw .argumentNull else x = .ok v

theorem Outcome.bind {α β : Type} {b1 b2 : Bool} {x : Res α} {v : α} {f : α → Res β} {u : β} (h1 : Outcome b1 x v) (h2 : Outcome b2 (f v) u) :
    Outcome (b1 || b2) (x.bind f) u := by
  unfold Outcome at *
  cases b1 <;> simp_all [Res.bind]

def vals (env : Nat → Option WStr) : Srcs → List (Option WStr)
  | .nil => []
  | .cons a t => csharp env a :: vals env t
def itemVals (env : Nat → Option WStr) : Items → List (Option WStr)
  | .nil => []
  | .stloc t => itemVals env t
  | .stobj a t => csharp env a :: itemVals env t
  | .other t => itemVals env t

theorem joinArgs_eq (env : Nat → Option WStr) : ∀ r : Srcs, joinArgs env r = ((vals env r).map (·.getD [])).flatten
  | .nil => by rw [joinArgs, vals]; rfl
  | .cons a t => by rw [joinArgs, vals, joinArgs_eq env t]; rfl
theorem joinItems_eq (env : Nat → Option WStr) : ∀ r : Items, joinItems env r = ((itemVals env r).map (·.getD [])).flatten
  | .nil => by rw [joinItems, itemVals]; rfl
  | .stloc t => by rw [joinItems, itemVals, joinItems_eq env t]
  | .stobj a t => by rw [joinItems, itemVals, joinItems_eq env t]; rfl
  | .other t => by rw [joinItems, itemVals, joinItems_eq env t]

theorem itemVals_length (env : Nat → Option WStr) : ∀ r : Items, (itemVals env r).length = count r
  | .nil => by rw [itemVals, count]; rfl
  | .stloc t => by rw [itemVals, count, itemVals_length env t]
  | .stobj a t => by rw [itemVals, count, List.length_cons, itemVals_length env t]
  | .other t => by rw [itemVals, count, itemVals_length env t]

theorem firstNull_eq (env : Nat → Option WStr) : ∀ r : Items, firstNull env r = ((itemVals env r).head? == some none)
  | .nil => by rw [firstNull, itemVals]; rfl
  | .stloc t => by rw [firstNull, itemVals, firstNull_eq env t]
  | .stobj a t => by rw [firstNull, itemVals]; cases csharp env a <;> rfl
  | .other t => by rw [firstNull, itemVals, firstNull_eq env t]

mutual
theorem value_shape (env : Nat → Option WStr) (e : Src) (hs : Small e) (hl : (((csharp env e).getD []).length : Int) ≤ limit) :
    Outcome (LeadingNull env e) (value env (shape e)) (csharp env e) := by
  match e with
  | .atom n => rw [shape, value, csharp, LeadingNull]; simp [Outcome]
  | .args a b rest =>
    rw [Small] at hs
    rw [csharp] at hl
    simp only [Option.getD_some, List.length_append] at hl
    push_cast at hl
    have h1 := value_shape env a hs.2.1 (by omega)
    have h2 := value_shape env b hs.2.2.1 (by omega)
    have h3 := value_shapes env rest hs.2.2.2 (by omega)
    rw [shape, value, values, values, csharp, LeadingNull]
    have h4 : Outcome (csharp env a).isNone (call (csharp env a :: csharp env b :: vals env rest))
        (some ((csharp env a).getD [] ++ (csharp env b).getD [] ++ joinArgs env rest)) := by
      cases hc : csharp env a with
      | none => rw [call_null]; simp [Outcome]
      | some v =>
        rw [hc] at hl
        simp only [Option.getD_some] at hl
        rw [call_ok _ _ (by rw [List.map_cons, List.flatten_cons, ← joinArgs_eq]; simp only [List.length_append]; push_cast; omega)]
        rw [List.map_cons, List.flatten_cons, ← joinArgs_eq]
        simp [Outcome]
    have h5 := (Outcome.bind (f := fun v => (((value env (shape b)).bind fun u => (values env (shapes rest)).bind fun vs => .ok (u :: vs)).bind fun vs => .ok (v :: vs)))
      h1 (Outcome.bind (Outcome.bind (f := fun u => (values env (shapes rest)).bind fun vs => .ok (u :: vs)) h2
        (Outcome.bind (b2 := false) (f := fun vs => .ok (csharp env b :: vs)) h3 (by simp [Outcome]; rfl)))
        (b2 := false) (f := fun vs => .ok (csharp env a :: vs)) (by simp [Outcome]; rfl)))
    have h6 := Outcome.bind h5 h4
    have e1 : ((csharp env a).isNone || LeadingNull env a || LeadingNull env b || LeadingNulls env rest)
      = (LeadingNull env a || (LeadingNull env b || (LeadingNulls env rest || false) || false) || (csharp env a).isNone) := by
      cases (csharp env a).isNone <;> cases LeadingNull env a <;> cases LeadingNull env b <;> cases LeadingNulls env rest <;> rfl
    rw [e1]
    exact h6
  | .block items =>
    rw [Small] at hs
    rw [csharp] at hl
    simp only [Option.getD_some] at hl
    have h3 := value_elements env items hs.2.2 hl
    rw [shape, value, csharp, LeadingNull]
    have h4 : Outcome (firstNull env items) (call (itemVals env items)) (some (joinItems env items)) := by
      have hn := itemVals_length env items
      rw [firstNull_eq]
      rw [joinItems_eq] at hl ⊢
      cases hc : itemVals env items with
      | nil => rw [hc] at hn; simp at hn; omega
      | cons v vs =>
        cases v with
        | none => rw [call_null]; simp [Outcome]
        | some v =>
          rw [hc] at hl
          rw [call_ok _ _ (by simpa using hl)]
          simp [Outcome]
    have h6 := Outcome.bind h3 h4
    rw [Bool.or_comm]
    exact h6
theorem value_shapes (env : Nat → Option WStr) (e : Srcs) (hs : SmallArgs e) (hl : ((joinArgs env e).length : Int) ≤ limit) :
    Outcome (LeadingNulls env e) (values env (shapes e)) (vals env e) := by
  match e with
  | .nil => rw [shapes, values, vals, LeadingNulls]; simp [Outcome]
  | .cons a t =>
    rw [SmallArgs] at hs
    rw [joinArgs, List.length_append] at hl
    push_cast at hl
    have h1 := value_shape env a hs.1 (by omega)
    have h2 := value_shapes env t hs.2 (by omega)
    rw [shapes, values, vals, LeadingNulls]
    have h3 := Outcome.bind (f := fun v => (values env (shapes t)).bind fun vs => .ok (v :: vs)) h1
      (Outcome.bind (b2 := false) (f := fun vs => .ok (csharp env a :: vs)) h2 (by simp [Outcome]; rfl))
    rw [Bool.or_false] at h3
    exact h3
theorem value_elements (env : Nat → Option WStr) (e : Items) (hs : SmallItems e) (hl : ((joinItems env e).length : Int) ≤ limit) :
    Outcome (LeadingItems env e) (values env (elements e)) (itemVals env e) := by
  match e with
  | .nil => rw [elements, values, itemVals, LeadingItems]; simp [Outcome]
  | .stloc t =>
    rw [SmallItems] at hs
    rw [joinItems] at hl
    rw [elements, itemVals, LeadingItems]
    exact value_elements env t hs hl
  | .other t =>
    rw [SmallItems] at hs
    rw [joinItems] at hl
    rw [elements, itemVals, LeadingItems]
    exact value_elements env t hs hl
  | .stobj a t =>
    rw [SmallItems] at hs
    rw [joinItems, List.length_append] at hl
    push_cast at hl
    have h1 := value_shape env a hs.1 (by omega)
    have h2 := value_elements env t hs.2 (by omega)
    rw [elements, values, itemVals, LeadingItems]
    have h3 := Outcome.bind (f := fun v => (values env (elements t)).bind fun vs => .ok (v :: vs)) h1
      (Outcome.bind (b2 := false) (f := fun vs => .ok (csharp env a :: vs)) h2 (by simp [Outcome]; rfl))
    rw [Bool.or_false] at h3
    exact h3
end

/-- **C111** (partial): a concatenation of at most seven operands at each level, with a result of at most 2147483520 characters, has the source's value
if no concatenation in it has null as its first operand, and otherwise throws `ArgumentNullException`. Missing: the leading null
(`C111_null_refuted`), which C# treats as the empty string, and more than seven operands (`C111_eight_refuted`). -/
theorem C111_value_partial (env : Nat → Option WStr) (e : Src) (toks : List Tok) (h : emit e = .ok toks) (hs : Small e)
    (hl : (((csharp env e).getD []).length : Int) ≤ limit) :
    ∃ t, read toks [] none = some t ∧ compiles t = true ∧
      value env t = if LeadingNull env e then .throw .argumentNull else .ok (csharp env e) := by
  refine ⟨shape e, C111_operands e toks h, (compiles_shape e).2 hs, ?_⟩
  have h1 := value_shape env e hs hl
  unfold Outcome at h1
  cases hb : LeadingNull env e
  · rw [hb] at h1; simpa using h1
  · rw [hb] at h1; simpa using h1

/-- `"ab" + (x + "c") + null` with x = "de" -/
example : let env : Nat → Option WStr := fun n => if n = 0 then some (w "ab") else if n = 1 then some (w "de") else if n = 2 then some (w "c") else none
    let e : Src := .args (.atom 0) (.block (.stloc (.stobj (.atom 1) (.stobj (.atom 2) .nil)))) (.cons (.atom 3) .nil)
    Small e ∧ (((csharp env e).getD []).length : Int) ≤ limit ∧ LeadingNull env e = false ∧ csharp env e = some (w "abdec") := by
  refine ⟨by simp [Small, SmallItems, SmallArgs, count, len], ?_, ?_, ?_⟩ <;> simp [csharp, joinArgs, joinItems, LeadingNull, LeadingNulls, LeadingItems, firstNull, w, limit]

/-- **C111** is false of the code for a null first operand: `s + "x"` with `s == null` is `"x"` in C# and throws in the translated program. -/
theorem C111_null_refuted : ∃ (env : Nat → Option WStr) (e : Src) (toks : List Tok) (t : Tree), emit e = .ok toks ∧ read toks [] none = some t ∧
    csharp env e = some (w "x") ∧ value env t = .throw .argumentNull := by
  refine ⟨fun n => if n = 0 then none else some (w "x"), .args (.atom 0) (.atom 1) .nil, _, .call [.atom 0, .atom 1], rfl, rfl, ?_, ?_⟩
  · simp [csharp, joinArgs]
  · simp [value, values, Res.bind, call_null]

end Verif.Concat
