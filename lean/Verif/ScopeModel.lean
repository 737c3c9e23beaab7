import Verif.Prelude
/-!
# Model of the declaration of local variables (/repo/CppTranslator/MyIlInstructionVisitor.cs)

Variables are named by numbers (the translator identifies them by name).  An instruction without statements inside is given by the variables it stores
or takes the address of, in the order in which `DeclareLocalVariables` meets them, and by the local variables its text mentions (after
`variableTranslation`).  Labels, jumps and separators play no role here and are left out of the text.
-/
namespace Verif.Scope

/-- An instruction tree. -/
inductive Tree where
  /-- an absent branch of an `if` -/
  | nop
  /-- an instruction without statements inside: a store, a call, a leave with a value, a throw, ...; `inits` are the variables stored (or whose
  address is taken) inside an array initialiser of the instruction, `defs` the others -/
  | simple (defs inits uses : List Nat)
  /-- an instruction whose visitor writes nothing (`TryFinally`, `LockInstruction`, ..., lines 1368-1377); its children are still walked for declarations -/
  | silent (body : Tree)
  | ite (defs uses : List Nat) (t f : Tree)
  | block (body : Tree)
  | container (blocks : Tree)
  /-- `TryCatch`: block 0 of the try body, its other blocks, the handlers -/
  | tryCatch (first rest handlers : Tree)
  | switch (defs uses : List Nat) (sections : Tree)
  | nil
  | cons (a rest : Tree)
  | bnil
  | bcons (body rest : Tree)
  | hnil
  /-- handler with variable `v`, filter that stores `defs`, block 0 of its body and the other blocks -/
  | hcons (v : Nat) (defs : List Nat) (first rest next : Tree)
  | snil
  | scons (body rest : Tree)
deriving Repr, DecidableEq

/-- The variables `DeclareLocalVariables` (lines 341-359) meets, in order: every `StLoc` and `LdLoca` of the subtree, except inside
array initialisers (lines 343-344). -/
def stores : Tree → List Nat
  | .nop | .nil | .bnil | .hnil | .snil => []
  | .simple d _ _ => d
  | .silent b => stores b
  | .ite d _ t f => d ++ (stores t ++ stores f)
  | .block b => stores b
  | .container b => stores b
  | .tryCatch f r h => stores f ++ (stores r ++ stores h)
  | .switch d _ s => d ++ stores s
  | .cons a r => stores a ++ stores r
  | .bcons b r => stores b ++ stores r
  | .hcons _ d f r n => d ++ (stores f ++ (stores r ++ stores n))
  | .scons b r => stores b ++ stores r

/-- Pieces of the text. -/
inductive Tok where
  | opn
  | cls
  /-- `T v;` -/
  | decl (v : Nat)
  /-- `catch (T v) {` -/
  | catchOpn (v : Nat)
  /-- the text of an instruction that mentions these variables -/
  | use (vs : List Nat)
deriving Repr, DecidableEq

/-- `CheckVariableAddition`, lines 360-367, and `DeclareVariableIfNeeded`, lines 1166-1176, for a sequence of variables: those that are not in
`CurrentVariables` yet. -/
def fresh : List Nat → List Nat → List Nat
  | [], _ => []
  | v :: vs, cur => if v ∈ cur then fresh vs cur else v :: fresh vs (v :: cur)

/-- The visitor; `cur` is `CurrentVariables` before and after.
* `WriteBlock`, lines 318-340 (the declarations, then the instructions), is called for `bcons` (`VisitBlockContainer`, lines 297-316), `block`
  (`VisitBlock`), the first block of a `try` (`HandleTryBlock`, lines 1346-1360) and of a handler (`VisitTryCatch`, lines 1319-1345);
* `ite`: lines 739-757 with the braces of `WriteBlockWithBraces`;  * `switch`: lines 1262-1295, braces around all sections. -/
def emit : Tree → List Nat → List Tok × List Nat
  | .nop, cur => ([], cur)
  | .simple _ _ u, cur => ([.use u], cur)
  | .silent _, cur => ([], cur)
  | .ite _ u t f, cur =>
    let (ot, c1) := emit t cur
    let (of, c2) := emit f c1
    (.use u :: .opn :: ot ++ .cls :: (if f = .nop then [] else .opn :: of ++ [.cls]), if f = .nop then c1 else c2)
  | .block b, cur =>
    let ds := fresh (stores b) cur
    let (o, c1) := emit b (ds ++ cur)
    (ds.map .decl ++ o, c1)
  | .container b, cur => emit b cur
  | .tryCatch f _ h, cur =>
    let ds := fresh (stores f) cur
    let (o, c1) := emit f (ds ++ cur)
    let (oh, c2) := emit h c1
    (.opn :: ds.map .decl ++ o ++ .cls :: oh, c2)
  | .switch _ u s, cur =>
    let (o, c1) := emit s cur
    (.use u :: .opn :: o ++ [.cls], c1)
  | .nil, cur => ([], cur)
  | .cons a r, cur =>
    let (oa, c1) := emit a cur
    let (or, c2) := emit r c1
    (oa ++ or, c2)
  | .bnil, cur => ([], cur)
  | .bcons b r, cur =>
    let ds := fresh (stores b) cur
    let (o, c1) := emit b (ds ++ cur)
    let (or, c2) := emit r c1
    (.opn :: ds.map .decl ++ o ++ .cls :: or, c2)
  | .hnil, cur => ([], cur)
  | .hcons v _ f _ n, cur =>
    let ds := fresh (stores f) cur
    let (o, c1) := emit f (ds ++ cur)
    let (on, c2) := emit n c1
    (.catchOpn v :: ds.map .decl ++ o ++ .cls :: on, c2)
  | .snil, cur => ([], cur)
  | .scons b r, cur =>
    let (o, c1) := emit b cur
    let (or, c2) := emit r c1
    (o ++ or, c2)

/-- `StartMainBlock`, lines 278-287, and `InitilizeLocalVariableNames`, lines 288-296: the parameters are known already. -/
def emitMain (params : List Nat) (blocks : Tree) : List Tok := (emit (.container blocks) params).1

end Verif.Scope
