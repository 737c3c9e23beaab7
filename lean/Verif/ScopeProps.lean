import Verif.ScopeModel
import Verif.StmtModel
/-!
# C102, C103: a method is one function body, and its local variables are declared where they are used
-/
namespace Verif.Scope

/-! ## Specification: block scope in C++ -/

/-- The text is well scoped, given the scopes that are open (innermost first): every variable used is declared before in a scope that is still open,
and no scope declares a variable twice. -/
def Scoped : List (List Nat) → List Tok → Prop
  | _, [] => True
  | ss, .opn :: r => Scoped ([] :: ss) r
  | _ :: ss, .cls :: r => Scoped ss r
  | [], .cls :: _ => False
  | s :: ss, .decl v :: r => v ∉ s ∧ Scoped ((v :: s) :: ss) r
  | [], .decl _ :: _ => False
  | ss, .catchOpn v :: r => Scoped ([v] :: ss) r
  | ss, .use vs :: r => (∀ v ∈ vs, ∃ s ∈ ss, v ∈ s) ∧ Scoped ss r

/-- The variables declared by declarations, in order. -/
def declared : List Tok → List Nat
  | [] => []
  | .decl v :: r => v :: declared r
  | _ :: r => declared r

/-- The variables that the text written for a tree mentions, each with the variables of the handlers around it. -/
def uses (ctx : List Nat) : Tree → List (List Nat × Nat)
  | .nop | .nil | .bnil | .hnil | .snil | .silent _ => []
  | .simple _ _ u => u.map (ctx, ·)
  | .ite _ u t f => u.map (ctx, ·) ++ (uses ctx t ++ uses ctx f)
  | .block b => uses ctx b
  | .container b => uses ctx b
  | .tryCatch f _ h => uses ctx f ++ uses ctx h
  | .switch _ u s => u.map (ctx, ·) ++ uses ctx s
  | .cons a r => uses ctx a ++ uses ctx r
  | .bcons b r => uses ctx b ++ uses ctx r
  | .hcons v _ f _ n => uses (v :: ctx) f ++ uses ctx n
  | .scons b r => uses ctx b ++ uses ctx r

/-! ## Declarations -/

theorem fresh_nil {vs cur : List Nat} (h : ∀ v ∈ vs, v ∈ cur) : fresh vs cur = [] := by
  induction vs with
  | nil => rfl
  | cons v vs ih => rw [fresh, if_pos (h v (by simp))]; exact ih (fun x hx => h x (by simp [hx]))

theorem mem_fresh {vs : List Nat} : ∀ {cur : List Nat} {x}, x ∈ fresh vs cur ↔ x ∈ vs ∧ x ∉ cur := by
  induction vs with
  | nil => simp [fresh]
  | cons v vs ih =>
    intro cur x
    rw [fresh]
    split
    · rename_i h
      rw [ih]
      constructor
      · rintro ⟨a, b⟩; exact ⟨by simp [a], b⟩
      · rintro ⟨a, b⟩
        rcases List.mem_cons.mp a with e | e
        · subst e; exact absurd h b
        · exact ⟨e, b⟩
    · rename_i h
      rw [List.mem_cons, ih]
      simp only [List.mem_cons]
      by_cases e : x = v
      · subst e; simp [h]
      · simp [e]

theorem nodup_fresh {vs : List Nat} : ∀ {cur : List Nat}, (fresh vs cur).Nodup := by
  induction vs with
  | nil => simp [fresh]
  | cons v vs ih =>
    intro cur
    rw [fresh]
    split
    · exact ih
    · rw [List.nodup_cons]
      refine ⟨?_, ih⟩
      rw [mem_fresh]
      simp

/-- Nothing is declared inside a tree whose variables are known. -/
theorem emit_cur (t : Tree) : ∀ cur, (∀ v ∈ stores t, v ∈ cur) → (emit t cur).2 = cur ∧ declared (emit t cur).1 = [] := by
  have dapp : ∀ a b, declared (a ++ b) = declared a ++ declared b := by
    intro a b
    induction a with
    | nil => rfl
    | cons x xs ih => cases x <;> simp [declared, ih]
  induction t with
  | nop | nil | bnil | hnil | snil | simple _ _ _ | silent _ => intro cur _; exact ⟨rfl, rfl⟩
  | ite d u t f iht ihf =>
    intro cur h
    simp only [stores, List.mem_append] at h
    have h1 := iht cur (fun v hv => h v (.inr (.inl hv)))
    have h2 := ihf cur (fun v hv => h v (.inr (.inr hv)))
    rw [emit]
    simp only [h1.1, h2.1]
    refine ⟨by split <;> rfl, ?_⟩
    split <;> simp [declared, dapp, h1.2, h2.2]
  | block b ih =>
    intro cur h
    rw [emit, fresh_nil (vs := stores b) h]
    exact ih cur h
  | container b ih => intro cur h; rw [emit]; exact ih cur h
  | tryCatch f r hs ihf _ ihh =>
    intro cur h
    simp only [stores, List.mem_append] at h
    rw [emit, fresh_nil (fun v hv => h v (.inl hv))]
    have h1 := ihf cur (fun v hv => h v (.inl hv))
    have h2 := ihh cur (fun v hv => h v (.inr (.inr hv)))
    simp only [List.nil_append, h1.1]
    exact ⟨h2.1, by simp [declared, dapp, h1.2, h2.2]⟩
  | switch d u s ih =>
    intro cur h
    simp only [stores, List.mem_append] at h
    have h1 := ih cur (fun v hv => h v (.inr hv))
    rw [emit]
    exact ⟨h1.1, by simp [declared, dapp, h1.2]⟩
  | cons a r iha ihr | scons a r iha ihr =>
    intro cur h
    simp only [stores, List.mem_append] at h
    have h1 := iha cur (fun v hv => h v (.inl hv))
    have h2 := ihr cur (fun v hv => h v (.inr hv))
    rw [emit]
    simp only [h1.1]
    exact ⟨h2.1, by simp [dapp, h1.2, h2.2]⟩
  | bcons b r ihb ihr =>
    intro cur h
    simp only [stores, List.mem_append] at h
    have h1 := ihb cur (fun v hv => h v (.inl hv))
    have h2 := ihr cur (fun v hv => h v (.inr hv))
    rw [emit, fresh_nil (fun v hv => h v (.inl hv))]
    simp only [List.nil_append, h1.1]
    exact ⟨h2.1, by simp [declared, dapp, h1.2, h2.2]⟩
  | hcons v d f r n ihf _ ihn =>
    intro cur h
    simp only [stores, List.mem_append] at h
    have h1 := ihf cur (fun v hv => h v (.inr (.inl hv)))
    have h2 := ihn cur (fun v hv => h v (.inr (.inr (.inr hv))))
    rw [emit, fresh_nil (fun v hv => h v (.inr (.inl hv)))]
    simp only [List.nil_append, h1.1]
    exact ⟨h2.1, by simp [declared, dapp, h1.2, h2.2]⟩

/-- The variables visible in the open scopes. -/
def Vis (ss : List (List Nat)) (v : Nat) : Prop := ∃ s ∈ ss, v ∈ s

theorem vis_cons (a : List Nat) (ss : List (List Nat)) (v : Nat) : Vis (a :: ss) v ↔ v ∈ a ∨ Vis ss v := by
  unfold Vis
  constructor
  · rintro ⟨s, hs, hv⟩
    rcases List.mem_cons.mp hs with e | e
    · subst e; exact .inl hv
    · exact .inr ⟨s, e, hv⟩
  · rintro (h | ⟨s, hs, hv⟩)
    · exact ⟨a, by simp, h⟩
    · exact ⟨s, by simp [hs], hv⟩

theorem scoped_use (ss : List (List Nat)) (vs : List Nat) (r : List Tok) : Scoped ss (.use vs :: r) ↔ (∀ v ∈ vs, Vis ss v) ∧ Scoped ss r := by
  cases ss <;> rfl

theorem scoped_opn (ss : List (List Nat)) (r : List Tok) : Scoped ss (.opn :: r) ↔ Scoped ([] :: ss) r := by cases ss <;> rfl
theorem scoped_catch (ss : List (List Nat)) (v : Nat) (r : List Tok) : Scoped ss (.catchOpn v :: r) ↔ Scoped ([v] :: ss) r := by cases ss <;> rfl
theorem scoped_cls (s : List Nat) (ss : List (List Nat)) (r : List Tok) : Scoped (s :: ss) (.cls :: r) ↔ Scoped ss r := Iff.rfl

/-- Inside a tree whose variables are known, the text is well scoped exactly when every use is visible: in the scopes around the tree or as the
variable of a handler. -/
theorem scoped_emit (X : Nat → Prop) (t : Tree) : ∀ cur, (∀ v ∈ stores t, v ∈ cur) → ∀ ss ctx K, (∀ v, Vis ss v ↔ v ∈ ctx ∨ X v) →
    (Scoped ss ((emit t cur).1 ++ K) ↔ (∀ p ∈ uses ctx t, p.2 ∈ p.1 ∨ X p.2) ∧ Scoped ss K) := by
  have huse : ∀ (u ctx : List Nat) (ss : List (List Nat)), (∀ v, Vis ss v ↔ v ∈ ctx ∨ X v) →
      ((∀ v ∈ u, Vis ss v) ↔ ∀ p ∈ u.map (fun v => (ctx, v)), p.2 ∈ p.1 ∨ X p.2) := by
    intro u ctx ss hv
    simp only [List.mem_map, forall_exists_index, and_imp, forall_apply_eq_imp_iff₂]
    exact forall_congr' fun v => imp_congr_right fun _ => hv v
  have hsplit : ∀ (a b : List (List Nat × Nat)), (∀ p ∈ a ++ b, p.2 ∈ p.1 ∨ X p.2) ↔ (∀ p ∈ a, p.2 ∈ p.1 ∨ X p.2) ∧ (∀ p ∈ b, p.2 ∈ p.1 ∨ X p.2) := by
    intro a b
    simp only [List.mem_append]
    constructor
    · intro h; exact ⟨fun p hp => h p (.inl hp), fun p hp => h p (.inr hp)⟩
    · rintro ⟨h1, h2⟩ p (hp | hp)
      · exact h1 p hp
      · exact h2 p hp
  have hopn : ∀ (ctx : List Nat) (ss : List (List Nat)), (∀ v, Vis ss v ↔ v ∈ ctx ∨ X v) → ∀ v, Vis ([] :: ss) v ↔ v ∈ ctx ∨ X v := by
    intro ctx ss hv v
    rw [vis_cons, hv]
    simp
  have hcat : ∀ (w : Nat) (ctx : List Nat) (ss : List (List Nat)), (∀ v, Vis ss v ↔ v ∈ ctx ∨ X v) → ∀ v, Vis ([w] :: ss) v ↔ v ∈ w :: ctx ∨ X v := by
    intro w ctx ss hv v
    rw [vis_cons, hv]
    simp [or_assoc]
  induction t with
  | nop | nil | bnil | hnil | snil | silent _ => intro cur _ ss ctx K _; simp [emit, uses]
  | simple d i u =>
    intro cur _ ss ctx K hv
    simp only [emit, uses, List.cons_append, List.nil_append]
    rw [scoped_use, huse u ctx ss hv]
  | ite d u t f iht ihf =>
    intro cur h ss ctx K hv
    simp only [stores, List.mem_append] at h
    have c1 := (emit_cur t cur (fun v hv => h v (.inr (.inl hv)))).1
    rw [emit]
    simp only [c1, uses]
    have e1 := fun K => iht cur (fun v hv => h v (.inr (.inl hv))) ([] :: ss) ctx K (hopn ctx ss hv)
    have e2 := fun K => ihf cur (fun v hv => h v (.inr (.inr hv))) ([] :: ss) ctx K (hopn ctx ss hv)
    by_cases hf : f = .nop
    · subst hf
      simp only [if_pos rfl, List.cons_append, List.append_assoc, List.nil_append]
      rw [scoped_use, scoped_opn, e1, scoped_cls, huse u ctx ss hv, hsplit, hsplit]
      simp [uses, and_assoc]
    · simp only [if_neg hf, List.cons_append, List.append_assoc, List.nil_append]
      rw [scoped_use, scoped_opn, e1, scoped_cls, scoped_opn, e2, scoped_cls, huse u ctx ss hv, hsplit, hsplit]
      simp only [and_assoc]
  | block b ih =>
    intro cur h ss ctx K hv
    rw [emit, fresh_nil (vs := stores b) h]
    exact ih cur h ss ctx K hv
  | container b ih => intro cur h ss ctx K hv; rw [emit]; exact ih cur h ss ctx K hv
  | tryCatch f r hs ihf _ ihh =>
    intro cur h ss ctx K hv
    simp only [stores, List.mem_append] at h
    rw [emit, fresh_nil (fun v hv => h v (.inl hv))]
    have c1 := (emit_cur f cur (fun v hv => h v (.inl hv))).1
    have e1 := fun K => ihf cur (fun v hv => h v (.inl hv)) ([] :: ss) ctx K (hopn ctx ss hv)
    have e2 := fun K => ihh cur (fun v hv => h v (.inr (.inr hv))) ss ctx K hv
    simp only [List.nil_append, c1, List.map_nil, List.cons_append, List.append_assoc, uses]
    rw [scoped_opn, e1, scoped_cls, e2, hsplit]
    simp only [and_assoc]
  | switch d u s ih =>
    intro cur h ss ctx K hv
    simp only [stores, List.mem_append] at h
    have e1 := fun K => ih cur (fun v hv => h v (.inr hv)) ([] :: ss) ctx K (hopn ctx ss hv)
    rw [emit]
    simp only [List.nil_append, List.cons_append, List.append_assoc, uses]
    rw [scoped_use, scoped_opn, e1, scoped_cls, huse u ctx ss hv, hsplit]
    simp only [and_assoc]
  | cons a r iha ihr | scons a r iha ihr =>
    intro cur h ss ctx K hv
    simp only [stores, List.mem_append] at h
    have c1 := (emit_cur a cur (fun v hv => h v (.inl hv))).1
    rw [emit]
    simp only [c1, List.append_assoc, uses]
    rw [iha cur (fun v hv => h v (.inl hv)) ss ctx _ hv, ihr cur (fun v hv => h v (.inr hv)) ss ctx _ hv, hsplit]
    simp only [and_assoc]
  | bcons b r ihb ihr =>
    intro cur h ss ctx K hv
    simp only [stores, List.mem_append] at h
    have c1 := (emit_cur b cur (fun v hv => h v (.inl hv))).1
    rw [emit, fresh_nil (fun v hv => h v (.inl hv))]
    simp only [List.nil_append, c1, List.map_nil, List.cons_append, List.append_assoc, uses]
    rw [scoped_opn, ihb cur (fun v hv => h v (.inl hv)) _ ctx _ (hopn ctx ss hv), scoped_cls, ihr cur (fun v hv => h v (.inr hv)) ss ctx _ hv, hsplit]
    simp only [and_assoc]
  | hcons w d f r n ihf _ ihn =>
    intro cur h ss ctx K hv
    simp only [stores, List.mem_append] at h
    have c1 := (emit_cur f cur (fun v hv => h v (.inr (.inl hv)))).1
    rw [emit, fresh_nil (fun v hv => h v (.inr (.inl hv)))]
    simp only [List.nil_append, c1, List.map_nil, List.cons_append, List.append_assoc, uses]
    rw [scoped_catch, ihf cur (fun v hv => h v (.inr (.inl hv))) _ (w :: ctx) _ (hcat w ctx ss hv), scoped_cls,
      ihn cur (fun v hv => h v (.inr (.inr (.inr hv)))) ss ctx _ hv, hsplit]
    simp only [and_assoc]

theorem scoped_decls (ds : List Nat) : ∀ (s : List Nat) (ss : List (List Nat)) (r : List Tok), ds.Nodup → (∀ v ∈ ds, v ∉ s) →
    (Scoped (s :: ss) (ds.map .decl ++ r) ↔ Scoped ((ds.reverse ++ s) :: ss) r) := by
  induction ds with
  | nil => intro s ss r _ _; simp
  | cons v ds ih =>
    intro s ss r hn hd
    have hn' := List.nodup_cons.mp hn
    have := ih (v :: s) ss r hn'.2 (by
      intro x hx hm
      rcases List.mem_cons.mp hm with e | e
      · subst e; exact hn'.1 hx
      · exact hd x (by simp [hx]) e)
    simp only [List.map_cons, List.cons_append, List.reverse_cons, List.append_assoc, List.nil_append]
    rw [← this]
    exact ⟨fun h => h.2, fun h => ⟨hd v (by simp), h⟩⟩

/-- Specification: a text that is the body of a function with these parameters (their scope is that of the outermost braces) is well scoped. -/
def FunScoped (params : List Nat) : List Tok → Prop
  | .opn :: r => Scoped [params] r
  | _ => False

/-- C103: in a method that consists of one block, every local variable is declared once, as a new name, and is declared before and in scope at every place
that mentions it, exactly when every variable mentioned is a parameter, the variable of a handler around the place, or stored (or passed by reference)
somewhere outside array initialisers.  Missing: methods of several blocks and initialisers (refuted below). -/
theorem C103_scope_partial (params : List Nat) (b : Tree) :
    (FunScoped params (emitMain params (.bcons b .bnil)) ↔ ∀ p ∈ uses [] b, p.2 ∈ p.1 ∨ p.2 ∈ params ∨ p.2 ∈ stores b) ∧
    (declared (emitMain params (.bcons b .bnil))).Nodup ∧
    ∀ v, v ∈ declared (emitMain params (.bcons b .bnil)) ↔ v ∈ stores b ∧ v ∉ params := by
  have dapp : ∀ a b, declared (a ++ b) = declared a ++ declared b := by
    intro a b
    induction a with
    | nil => rfl
    | cons x xs ih => cases x <;> simp [declared, ih]
  have ddecl : ∀ ds : List Nat, declared (ds.map Tok.decl) = ds := by
    intro ds; induction ds with
    | nil => rfl
    | cons v ds ih => simp [declared, ih]
  have hcur : ∀ v ∈ stores b, v ∈ fresh (stores b) params ++ params := by
    intro v hv
    by_cases h : v ∈ params
    · simp [h]
    · simp [mem_fresh, hv, h]
  have c := emit_cur b _ hcur
  have he : emitMain params (.bcons b .bnil) =
      .opn :: ((fresh (stores b) params).map .decl ++ ((emit b (fresh (stores b) params ++ params)).1 ++ [.cls])) := by
    unfold emitMain
    simp only [emit, List.cons_append, List.append_assoc]
  have hd : declared (emitMain params (.bcons b .bnil)) = fresh (stores b) params := by
    rw [he]
    simp [declared, dapp, ddecl, c.2]
  refine ⟨?_, ?_, ?_⟩
  · rw [he]
    show Scoped [params] _ ↔ _
    rw [scoped_decls _ _ _ _ nodup_fresh (fun v hv => (mem_fresh.mp hv).2),
      scoped_emit (fun v => v ∈ params ∨ v ∈ stores b) b _ hcur _ [] _ (by
        intro v
        rw [vis_cons]
        simp only [List.mem_append, List.mem_reverse, mem_fresh, Vis, List.not_mem_nil, false_and, exists_false, or_false, false_or]
        by_cases h : v ∈ params <;> simp [h])]
    exact ⟨fun h => h.1, fun h => ⟨h, trivial⟩⟩
  · rw [hd]; exact nodup_fresh
  · intro v; rw [hd]; exact mem_fresh

/-- A method with one parameter (1) that stores variable 2, loops over two blocks that store and use variables 3 and 2, and has a handler with
variable 4. -/
def sample : Tree :=
  .cons (.simple [2] [] [2, 1])
  (.cons (.container (.bcons (.cons (.ite [] [3, 2] (.block (.cons (.simple [3] [] [3]) .nil)) (.simple [] [] [1])) .nil) (.bcons (.cons (.simple [5] [] [5, 3]) .nil) .bnil)))
  (.cons (.tryCatch (.cons (.simple [2] [] [2]) .nil) .bnil (.hcons 4 [] (.cons (.simple [] [] [4, 5]) .nil) .bnil .hnil)) .nil))

example : FunScoped [1] (emitMain [1] (.bcons sample .bnil)) := (C103_scope_partial [1] sample).1.mpr (by decide)

example : emitMain [1] (.bcons sample .bnil) =
    [.opn, .decl 2, .decl 3, .decl 5, .use [2, 1], .opn, .use [3, 2], .opn, .use [3], .cls, .opn, .use [1], .cls, .cls, .opn, .use [5, 3], .cls,
     .opn, .use [2], .cls, .catchOpn 4, .use [4, 5], .cls, .cls] := by decide +kernel

/-- C103 fails: in a method of two blocks that both store and use variable 2, the second block uses a variable that is declared in the braces of the
first (whatever variables are visible around the two blocks, unless it is one of them). -/
theorem C103_blocks_refuted (params : List Nat) (h : 2 ∉ params) :
    ¬ Scoped [params] (emitMain params (.bcons (.cons (.simple [2] [] [2]) .nil) (.bcons (.cons (.simple [2] [] [2]) .nil) .bnil))) := by
  have hf : fresh [2] params = [2] := by simp [fresh, h]
  have hf' : fresh [2] (2 :: params) = [] := by simp [fresh]
  simp [emitMain, emit, stores, hf, hf', Scoped, h]

/-- C103 fails: a variable that gets its value inside an array initialiser (`int[] a = { F(out x) }; return x;`) is not declared at all. -/
theorem C103_initializer_refuted : ¬ FunScoped [] (emitMain [] (.bcons (.cons (.simple [1] [2] [1, 2]) (.cons (.simple [] [] [2]) .nil)) .bnil)) := by
  rw [(C103_scope_partial [] _).1]
  decide

end Verif.Scope

/-! ## C102 -/
namespace Verif.Stmt

/-- Specification: following the braces from nesting depth `d`; `none` when a brace is closed that was not opened. -/
def nest : Nat → List Item → Option Nat
  | d, [] => some d
  | d, .opn :: r => nest (d + 1) r
  | 0, .cls :: _ => none
  | d + 1, .cls :: r => nest d r
  | d, _ :: r => nest d r

/-- Specification: the text is one compound statement: a brace that is closed by the last brace and not before. -/
def OneBody (o : List Item) : Prop := ∃ b, o = .opn :: b ++ [.cls] ∧ nest 0 b = some 0

theorem nest_append (a : List Item) : ∀ d b, nest d (a ++ b) = (nest d a).bind (fun e => nest e b) := by
  induction a with
  | nil => intro d b; rfl
  | cons x xs ih =>
    intro d b
    cases x <;> try (simp only [List.cons_append, nest]; exact ih _ _)
    cases d with
    | zero => rfl
    | succ d => simp only [List.cons_append, nest]; exact ih _ _

/-- Balanced text. -/
def Bal (o : List Item) : Prop := ∀ d, nest d o = some d

theorem bal_append {a b : List Item} (ha : Bal a) (hb : Bal b) : Bal (a ++ b) := by
  intro d; rw [nest_append, ha d]; exact hb d
theorem bal_nil : Bal [] := fun _ => rfl
theorem bal_braces {a : List Item} (ha : Bal a) : Bal (.opn :: a ++ [.cls]) := by
  intro d; rw [List.cons_append, nest, nest_append, ha (d + 1)]; rfl
theorem bal_one (x : Item) (h1 : x ≠ .opn) (h2 : x ≠ .cls) : Bal [x] := by
  intro d; cases x <;> first | rfl | exact absurd rfl h1 | exact absurd rfl h2

theorem bal_blockLabel (lbl : Nat) (b : IL) : Bal (blockLabel lbl b) := by
  unfold blockLabel
  split
  · exact bal_nil
  · split
    · exact bal_nil
    · exact bal_one _ (by simp) (by simp)
  · exact bal_one _ (by simp) (by simp)

theorem bal_semiIf (t : IL) : Bal (semiIf t) := by
  unfold semiIf
  split
  iterate 4 exact bal_nil
  exact bal_one _ (by simp) (by simp)

theorem bal_semiSec (t : IL) : Bal (semiSec t) := by
  unfold semiSec
  split
  · exact bal_nil
  · exact bal_one _ (by simp) (by simp)

theorem bal_caseHead (ls : LongSet) : Bal [caseHead ls] := by
  unfold caseHead
  split
  · exact bal_one _ (by simp) (by simp)
  · split <;> exact bal_one _ (by simp) (by simp)

theorem bal_emit (main : Nat) (inj : Bool) (il : IL) : ∀ stk st, Bal (emit main inj il stk st).1 := by
  induction il with
  | nop | silent _ | nil | bnil | hnil | snil => intro stk st; exact bal_nil
  | act k => intro stk st; exact bal_one _ (by simp) (by simp)
  | leave t e v => intro stk st; rw [emit]; split <;> exact bal_one _ (by simp) (by simp)
  | branch l => intro stk st; exact bal_one _ (by simp) (by simp)
  | ite c t f iht ihf =>
    intro stk st
    rw [emit]
    have h1 := iht stk st
    have h2 := ihf stk (emit main inj t stk st).2
    have hA : Bal (Item.ifHead c :: Item.opn :: (emit main inj t stk st).1 ++ semiIf t ++ [.cls]) := by
      have := bal_append (bal_one (.ifHead c) (by simp) (by simp)) (bal_braces (bal_append h1 (bal_semiIf t)))
      simpa using this
    show Bal (_ ++ Item.cls :: (if f = .nop then [] else _))
    split
    · simpa using hA
    · have hB := bal_append (bal_one .elseHead (by simp) (by simp)) (bal_braces (bal_append h2 (bal_semiIf f)))
      have := bal_append hA hB
      simpa using this
  | block b ih => intro stk st; rw [emit]; exact ih _ _
  | container id bs ih =>
    intro stk st
    rw [emit]
    refine bal_append (ih _ _) ?_
    split
    · exact bal_one _ (by simp) (by simp)
    · exact bal_nil
  | tryCatch tid lbl f r hs ihf _ ihh =>
    intro stk st
    rw [emit]
    have h1 := ihf ((st.n + 1) :: stk) ⟨st.n + 1, st.cur⟩
    have h2 := ihh ((st.n + 1) :: stk) (emit main inj f ((st.n + 1) :: stk) ⟨st.n + 1, st.cur⟩).2
    have := bal_append (bal_one .tryHead (by simp) (by simp)) (bal_append (bal_braces (bal_append (bal_blockLabel lbl f) h1))
      (bal_append h2 (bal_append (bal_one (.leaveLabel (tid :: handlerIds hs) (st.n + 1)) (by simp) (by simp)) (bal_one .semi (by simp) (by simp)))))
    simpa using this
  | switch v ss ih =>
    intro stk st
    rw [emit]
    have := bal_append (bal_one (.switchHead v) (by simp) (by simp)) (bal_braces (ih stk st))
    simpa using this
  | cons a r iha ihr =>
    intro stk st
    rw [emit]
    split
    · exact bal_nil
    · exact bal_append (iha _ _) (ihr _ _)
  | bcons lbl b r ihb ihr =>
    intro stk st
    rw [emit]
    have hi : Bal (if inj = true ∧ (emit main inj b stk st).2.cur = main then [Item.inject] else []) := by
      split
      · exact bal_one _ (by simp) (by simp)
      · exact bal_nil
    have := bal_append (bal_braces (bal_append (bal_append (bal_blockLabel lbl b) (ihb stk st)) hi)) (ihr stk (emit main inj b stk st).2)
    simpa using this
  | hcons hid lbl f r n ihf _ ihn =>
    intro stk st
    rw [emit]
    have := bal_append (bal_one (.catchHead hid) (by simp) (by simp)) (bal_append (bal_braces (bal_append (bal_blockLabel lbl f) (ihf stk st)))
      (ihn stk (emit main inj f stk st).2))
    simpa using this
  | scons ls b r ihb ihr =>
    intro stk st
    rw [emit]
    have := bal_append (bal_caseHead ls) (bal_append (ihb stk st) (bal_append (bal_semiSec b) (ihr stk (emit main inj b stk st).2)))
    simpa using this

/-- The block list of a container. -/
def blocksOf : List (Nat × IL) → IL
  | [] => .bnil
  | (l, b) :: r => .bcons l b (blocksOf r)

/-- C102: the braces of a method body always match, and what is written after the header of a method is the body of one function exactly when the
method consists of one block. -/
theorem C102_one_function_partial (main : Nat) (inj : Bool) (L : List (Nat × IL)) :
    nest 0 (emitMain main inj (blocksOf L)) = some 0 ∧ (OneBody (emitMain main inj (blocksOf L)) ↔ L.length = 1) := by
  refine ⟨bal_emit main inj (.container main (blocksOf L)) [] ⟨0, main⟩ 0, ?_⟩
  have he : emitMain main inj (blocksOf L) = (emit main inj (blocksOf L) [1] ⟨1, main⟩).1 := by
    unfold emitMain; rw [emit]; simp
  rw [he]
  cases L with
  | nil =>
    constructor
    · rintro ⟨b, h, _⟩; cases h
    · intro h; cases h
  | cons p L =>
    obtain ⟨l, b⟩ := p
    generalize hX : blockLabel l b ++ (emit main inj b [1] ⟨1, main⟩).1 ++
      (if inj = true ∧ (emit main inj b [1] ⟨1, main⟩).2.cur = main then [Item.inject] else []) = X
    have hbal : Bal X := by
      rw [← hX]
      refine bal_append (bal_append (bal_blockLabel l b) (bal_emit main inj b _ _)) ?_
      split
      · exact bal_one _ (by simp) (by simp)
      · exact bal_nil
    have heq : (emit main inj (blocksOf ((l, b) :: L)) [1] ⟨1, main⟩).1 =
        .opn :: X ++ .cls :: (emit main inj (blocksOf L) [1] (emit main inj b [1] ⟨1, main⟩).2).1 := by
      rw [← hX, blocksOf, emit]
      simp
    rw [heq]
    cases L with
    | nil => exact ⟨fun _ => rfl, fun _ => ⟨X, rfl, hbal 0⟩⟩
    | cons q L =>
      obtain ⟨l2, b2⟩ := q
      constructor
      · rintro ⟨c, h1, h2⟩
        exfalso
        rw [List.cons_append, List.cons_append, List.cons.injEq] at h1
        have h1 := h1.2
        -- the first closing brace of depth 0 comes right after X
        generalize hR : (emit main inj (blocksOf ((l2, b2) :: L)) [1] (emit main inj b [1] ⟨1, main⟩).2).1 = R at h1
        have hR' : R ≠ [] := by
          rw [← hR, blocksOf, emit]
          simp
        obtain ⟨R', z, rfl⟩ : ∃ R' z, R = R' ++ [z] := by
          have := List.dropLast_concat_getLast hR'
          exact ⟨_, _, this.symm⟩
        have h3 : X ++ Item.cls :: R' ++ [z] = c ++ [Item.cls] := by rw [← h1]; simp
        have h4 := (List.append_inj' h3 rfl).1
        rw [← h4, nest_append, hbal 0] at h2
        cases h2
      · intro h; simp at h

example : OneBody (emitMain 9 false (blocksOf [(0, .cons (.act 1) (.cons (.leave 9 0 none) .nil))])) :=
  (C102_one_function_partial 9 false _).2.mpr rfl

/-- C102 fails: a method of two blocks (`L: work; if (c) goto L; return;` when the decompiler keeps the label) ends after its first block. -/
theorem C102_two_blocks_refuted : ¬ OneBody (emitMain 9 false (blocksOf [(0, .cons (.act 1) (.cons (.branch 5) .nil)), (5, .cons (.act 2) (.cons (.leave 9 0 none) .nil))])) := by
  rw [(C102_one_function_partial 9 false _).2]
  decide

end Verif.Stmt
