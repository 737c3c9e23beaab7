import Verif.Prelude
/-!
# Model of the statement part of the translator (/repo/CppTranslator/MyIlInstructionVisitor.cs)

The decompiler hands the translator one instruction tree per method.  Expressions and simple statements are opaque here (`act k`); the control
structure is modelled: block containers, blocks, leave, branch, if, switch and try/catch, the numbering of the `leaveBlock` labels, the block
labels, and the statement injected into static constructors.
-/
namespace Verif.Stmt

/-- `LongSet` of the decompiler: the labels of a switch section, as inclusive intervals in ascending order. -/
abbrev LongSet := List (Int × Int)

/-- One instruction tree.  The instruction list of a block (`nil`/`cons`), the block list of a container (`bnil`/`bcons`), the handlers of a try
(`hnil`/`hcons`) and the sections of a switch (`snil`/`scons`) are in the same type so that the visitor is one structural recursion. -/
inductive IL where
  | nop
  /-- a simple statement; `k` names the text written for it -/
  | act (k : Nat)
  /-- an instruction whose visitor only calls `Default` and writes nothing: `TryFinally` (line 1373), `TryFault`, `LockInstruction`,
  `UsingInstruction`, `PinnedRegion`, `YieldReturn`, ...; `body` is what it contains -/
  | silent (body : IL)
  /-- `Leave`: the container it leaves, the entry label of that container (`TargetLabel`; 0 is the text `IL_0000`), the value it carries, if any -/
  | leave (target entry : Nat) (value : Option Nat)
  /-- `Branch` to the block with this label -/
  | branch (lbl : Nat)
  | ite (c : Nat) (t f : IL)
  /-- an inline block (`VisitBlock`) -/
  | block (body : IL)
  | container (id : Nat) (blocks : IL)
  /-- `TryCatch` whose try block is the container `tid`; `first`/`lbl` is its block 0 and `rest` its other blocks -/
  | tryCatch (tid lbl : Nat) (first rest handlers : IL)
  | switch (v : Nat) (sections : IL)
  | nil
  | cons (a rest : IL)
  | bnil
  | bcons (lbl : Nat) (body rest : IL)
  | hnil
  /-- handler with body container `hid`; `first`/`lbl` is its block 0 and `rest` its other blocks -/
  | hcons (hid lbl : Nat) (first rest next : IL)
  | snil
  | scons (labels : LongSet) (body rest : IL)
deriving Repr, DecidableEq

/-- What is written, piece by piece.  `goto` carries the container the instruction leaves and `leaveLabel` the containers that end at the label:
both are for stating properties, the text consists only of the number. -/
inductive Item where
  | text (k : Nat)
  | ifHead (c : Nat)
  | elseHead
  | switchHead (v : Nat)
  | caseHead (v : Int)
  | defaultHead
  /-- a section without labels: only the colon is written -/
  | bareColon
  | opn
  | cls
  /-- `return` or `return(...)` -/
  | ret (target : Nat) (value : Option Nat)
  /-- `goto leaveBlock<n>` -/
  | goto (target n : Nat)
  /-- `goto IL_xxxx` -/
  | jump (lbl : Nat)
  /-- `IL_xxxx:` -/
  | blockLabel (lbl : Nat)
  /-- `leaveBlock<n>:` -/
  | leaveLabel (owners : List Nat) (n : Nat)
  | tryHead
  | catchHead (hid : Nat)
  /-- the injected statement -/
  | inject
  /-- the `;` written after a branch of an `if` that is not a block, after the body of a switch section and after the label that ends a try; the `;` that ends a simple statement or a
  jump belongs to its piece -/
  | semi
deriving Repr, DecidableEq

/-- `container.LeaveCount > 0`: some leave of container `id` occurs in the tree (the decompiler counts the leaves connected to the tree). -/
def leaves (id : Nat) : IL → Bool
  | .nop | .act _ | .branch _ | .nil | .bnil | .hnil | .snil => false
  | .silent b => leaves id b
  | .leave t _ _ => t = id
  | .ite _ t f => leaves id t || leaves id f
  | .block b => leaves id b
  | .container _ b => leaves id b
  | .tryCatch _ _ f r h => leaves id f || leaves id r || leaves id h
  | .switch _ s => leaves id s
  | .cons a r => leaves id a || leaves id r
  | .bcons _ b r => leaves id b || leaves id r
  | .hcons _ _ f r n => leaves id f || leaves id r || leaves id n
  | .scons _ b r => leaves id b || leaves id r

/-- The body containers of the handlers of a try. -/
def handlerIds : IL → List Nat
  | .hcons hid _ _ _ n => hid :: handlerIds n
  | _ => []

/-- `AddLabelIfNeeded`, lines 368-385 (called where the formatter is at the start of a line): nothing for a block that consists of one leave, nor
when the first instruction is a container whose entry block has the same label. -/
def blockLabel (lbl : Nat) : IL → List Item
  | .cons (.leave _ _ _) .nil => []
  | .cons (.container _ (.bcons l _ _)) _ => if l = lbl then [] else [.blockLabel lbl]
  | _ => [.blockLabel lbl]

/-- The visitor's fields: `blockIndex` (line 253) and `currentReturnContainer` (line 299; it is never restored). -/
structure St where
  n : Nat
  cur : Nat
deriving Repr, DecidableEq

/-- `FormatSwitchCases`, lines 1272-1294: the first value of the section's label set decides what is written; the loop stops after it. -/
def caseHead : LongSet → Item
  | [] => .bareColon
  | (lo, _) :: _ => if lo = -2 ^ 63 then .defaultHead else .caseHead lo

/-- Line 329: with an injected statement, a last instruction that returns nothing from the method is not written. -/
def dropped (inj : Bool) (a rest : IL) : Bool :=
  match a, rest with
  | .leave _ 0 none, .nil => inj
  | _, _ => false

/-- A simple statement or a jump: the `;` written after it (lines 335, 785 and 1292) ends it. -/
def ended : IL → Bool
  | .act _ | .leave _ _ _ | .branch _ => true
  | _ => false

/-- `WriteBlockWithBraces`, lines 778-787: a `;` after an instruction that is not a block. -/
def semiIf : IL → List Item
  | .block _ | .act _ | .leave _ _ _ | .branch _ => []
  | _ => [.semi]

/-- `FormatSwitchCases`, line 1292: a `;` after the body of a section. -/
def semiSec (b : IL) : List Item := if ended b then [] else [.semi]

/-- The visitor.  `main` is the method's own container, `inj` whether a statement is injected, `stk` the stack of leave-block numbers
(lines 251-263; `leave` on an empty stack throws in C#, which cannot happen below `VisitBlockContainer`).
* `nil`/`cons`: `WriteBlock`, lines 318-340;  * `ite`: `VisitIfInstruction`, lines 739-757 (statement form);
* `container`/`bcons`: `VisitBlockContainer`, lines 297-316;  * `leave`: `VisitLeave`, lines 979-1000;  * `branch`: lines 403-408;
* `switch`/`scons`: lines 1261-1294;  * `tryCatch`/`hcons`: `VisitTryCatch` and `HandleTryBlock`, lines 1319-1360. -/
def emit (main : Nat) (inj : Bool) : IL → List Nat → St → List Item × St
  | .nop, _, st => ([], st)
  | .act k, _, st => ([.text k], st)
  | .silent _, _, st => ([], st)
  | .leave t e v, stk, st => (if e = 0 then [.ret t v] else [.goto t (stk.headD 0)], st)
  | .branch l, _, st => ([.jump l], st)
  | .ite c t f, stk, st =>
    let (ot, s1) := emit main inj t stk st
    let (of, s2) := emit main inj f stk s1
    (.ifHead c :: .opn :: ot ++ semiIf t ++ .cls :: (if f = .nop then [] else .elseHead :: .opn :: of ++ semiIf f ++ [.cls]), if f = .nop then s1 else s2)
  | .block b, stk, st => emit main inj b stk st
  | .container id bs, stk, st =>
    let n1 := st.n + 1
    let (o, s1) := emit main inj bs (n1 :: stk) ⟨n1, id⟩
    (o ++ (if id ≠ main ∧ leaves id bs = true then [.leaveLabel [id] n1] else []), s1)
  | .tryCatch tid lbl f _ hs, stk, st =>
    let n1 := st.n + 1
    let (o, s1) := emit main inj f (n1 :: stk) ⟨n1, st.cur⟩
    let (oh, s2) := emit main inj hs (n1 :: stk) s1
    (.tryHead :: .opn :: blockLabel lbl f ++ o ++ .cls :: oh ++ [.leaveLabel (tid :: handlerIds hs) n1, .semi], s2)
  | .switch v ss, stk, st =>
    let (o, s1) := emit main inj ss stk st
    (.switchHead v :: .opn :: o ++ [.cls], s1)
  | .nil, _, st => ([], st)
  | .cons a r, stk, st =>
    if dropped inj a r = true then ([], st)
    else
      let (oa, s1) := emit main inj a stk st
      let (or, s2) := emit main inj r stk s1
      (oa ++ or, s2)
  | .bnil, _, st => ([], st)
  | .bcons lbl b r, stk, st =>
    let (ob, s1) := emit main inj b stk st
    let (or, s2) := emit main inj r stk s1
    (.opn :: blockLabel lbl b ++ ob ++ (if inj = true ∧ s1.cur = main then [.inject] else []) ++ .cls :: or, s2)
  | .hnil, _, st => ([], st)
  | .hcons hid lbl f _ n, stk, st =>
    let (o, s1) := emit main inj f stk st
    let (on, s2) := emit main inj n stk s1
    (.catchHead hid :: .opn :: blockLabel lbl f ++ o ++ .cls :: on, s2)
  | .snil, _, st => ([], st)
  | .scons ls b r, stk, st =>
    let (o, s1) := emit main inj b stk st
    let (or, s2) := emit main inj r stk s1
    (caseHead ls :: o ++ (semiSec b ++ or), s2)

/-- `StartMainBlock`, lines 278-287: the body of one method. -/
def emitMain (main : Nat) (inj : Bool) (blocks : IL) : List Item :=
  (emit main inj (.container main blocks) [] ⟨0, main⟩).1

end Verif.Stmt
