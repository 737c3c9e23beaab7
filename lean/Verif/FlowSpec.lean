import Verif.StmtProps
import Verif.SwitchProps
/-!
# Specification for C101: what a method body does, before and after translation

Both meanings are given over the same uninterpreted simple statements, conditions and switch values (`Interp`), and both are functions of a number of
jumps: a run that jumps more often ends with `timeout` in the state it has reached.
-/
namespace Verif.Stmt

/-- Result of evaluating something in a state: a value and a new state, or an exception. -/
inductive Ev (σ ε α : Type) where
  | ok (a : α) (s : σ)
  | raise (x : ε) (s : σ)

/-- The meaning of the pieces that the control-flow model leaves opaque. -/
structure Interp (σ ε : Type) where
  /-- simple statement number `k` -/
  act : Nat → σ → Ev σ ε Unit
  /-- condition number `c` -/
  cond : Nat → σ → Ev σ ε Bool
  /-- switch value number `v` -/
  val : Nat → σ → Ev σ ε Int
  /-- returned value number `v` -/
  ret : Nat → σ → Ev σ ε Int
  /-- whether handler `h` is for exception `x` -/
  catches : Nat → ε → Bool
  /-- entering handler `h` with exception `x` -/
  bind : Nat → ε → σ → σ

/-- How a run ends. -/
inductive Out (σ ε : Type) where
  /-- the method returns (with or without a value) -/
  | ret (value : Option Int) (s : σ)
  /-- an exception leaves the method -/
  | uncaught (x : ε) (s : σ)
  /-- the allowed number of jumps is used up -/
  | timeout (s : σ)
  /-- control reaches a place from which the program does not say how to go on -/
  | stuck

/-- A continuation. -/
abbrev Cont (σ ε : Type) := σ → Out σ ε
/-- A continuation for exceptions. -/
abbrev HCont (σ ε : Type) := ε → σ → Out σ ε

def stuckK {σ ε : Type} : Cont σ ε := fun _ => .stuck

/-! ## The instruction tree -/

/-- Where a jump of the instruction tree goes: to a block, or behind a container. -/
inductive Tgt where
  | block (l : Nat)
  | after (id : Nat)
deriving DecidableEq

variable {σ ε : Type}

/-- Return: the value is computed first. -/
def Interp.leave (I : Interp σ ε) (v : Option Nat) (h : HCont σ ε) : Cont σ ε := fun s =>
  match v with
  | none => .ret none s
  | some v => match I.ret v s with
    | .ok x s => .ret (some x) s
    | .raise x s => h x s

mutual
/-- Run an instruction (or the rest of a block's instructions).  `J` is what a jump does, `h` what an exception does, `k` what comes next.
The end of a block of a container has no next instruction.  The instructions that the translator does not know (`silent`) are given no meaning. -/
def exec (I : Interp σ ε) (main : Nat) (J : Tgt → Cont σ ε) : IL → HCont σ ε → Cont σ ε → Cont σ ε
  | .nop, _, k, s => k s
  | .act a, h, k, s => match I.act a s with
    | .ok _ s => k s
    | .raise x s => h x s
  | .silent _, _, _, _ => .stuck
  | .leave t _ v, h, _, s => if t = main then I.leave v h s else J (.after t) s
  | .branch l, _, _, s => J (.block l) s
  | .ite c t f, h, k, s => match I.cond c s with
    | .ok true s => exec I main J t h k s
    | .ok false s => exec I main J f h k s
    | .raise x s => h x s
  | .block b, h, k, s => exec I main J b h k s
  | .container _ bs, h, _, s => exec I main J bs h stuckK s
  | .tryCatch _ _ f _ hs, h, _, s => exec I main J f (fun x s => handle I main J hs h x s) stuckK s
  | .switch v ss, h, k, s => match I.val v s with
    | .ok x s => select I main J ss x h k s
    | .raise x s => h x s
  | .nil, _, k, s => k s
  | .cons a r, h, k, s => exec I main J a h (fun s => exec I main J r h k s) s
  | .bcons _ b _, h, _, s => exec I main J b h stuckK s
  | .bnil, _, _, _ | .hnil, _, _, _ | .hcons _ _ _ _ _, _, _, _ | .snil, _, _, _ | .scons _ _ _, _, _, _ => .stuck
/-- The section whose labels contain the value. -/
def select (I : Interp σ ε) (main : Nat) (J : Tgt → Cont σ ε) : IL → Int → HCont σ ε → Cont σ ε → Cont σ ε
  | .scons ls b r, x, h, k, s => if ls.has x then exec I main J b h k s else select I main J r x h k s
  | _, _, _, _, _ => .stuck
/-- The first handler for the exception; without one it goes on to the handlers further out. -/
def handle (I : Interp σ ε) (main : Nat) (J : Tgt → Cont σ ε) : IL → HCont σ ε → HCont σ ε
  | .hcons hid _ f _ n, h, x, s => if I.catches hid x then exec I main J f h stuckK (I.bind hid x s) else handle I main J n h x s
  | _, h, x, s => h x s
end

/-- What is run after a jump into (or inside) a tree: from the block with the label, or from behind the container.  (Containers are unique, so the
order in which they are looked at does not matter; behind the body of a try and behind each of its handlers is behind the try.) -/
def enter (I : Interp σ ε) (main : Nat) (J : Tgt → Cont σ ε) (g : Tgt) : IL → HCont σ ε → Cont σ ε → Option (Cont σ ε)
  | .nop, _, _ | .act _, _, _ | .silent _, _, _ | .leave _ _ _, _, _ | .branch _, _, _ | .nil, _, _ | .bnil, _, _ | .hnil, _, _ | .snil, _, _ => none
  | .ite _ t f, h, k => (enter I main J g t h k).or (enter I main J g f h k)
  | .block b, h, k => enter I main J g b h k
  | .container id bs, h, k => (enter I main J g bs h stuckK).or (if g = .after id then some k else none)
  | .tryCatch tid lbl f rest hs, h, k =>
    let h' : HCont σ ε := fun x s => handle I main J hs h x s
    (if g = .block lbl then some (exec I main J f h' stuckK) else none).or
    ((enter I main J g f h' stuckK).or ((enter I main J g rest h' stuckK).or ((enter I main J g hs h k).or
      (if g ∈ (tid :: handlerIds hs).map Tgt.after then some k else none))))
  | .switch _ ss, h, k => enter I main J g ss h k
  | .cons a r, h, k => (enter I main J g a h (exec I main J r h k)).or (enter I main J g r h k)
  | .bcons lbl b r, h, k =>
    (if g = .block lbl then some (exec I main J b h stuckK) else none).or ((enter I main J g b h stuckK).or (enter I main J g r h k))
  | .hcons _ lbl f rest n, h, k =>
    (if g = .block lbl then some (exec I main J f h stuckK) else none).or
    ((enter I main J g f h stuckK).or ((enter I main J g rest h stuckK).or (enter I main J g n h k)))
  | .scons _ b r, h, k => (enter I main J g b h k).or (enter I main J g r h k)

/-- A jump with `n` jumps left. -/
def jumpIL (I : Interp σ ε) (main : Nat) (blocks : IL) : Nat → Tgt → Cont σ ε
  | 0, _, s => .timeout s
  | n + 1, g, s => match enter I main (jumpIL I main blocks n) g blocks Out.uncaught stuckK with
    | some k => k s
    | none => .stuck

/-- A method: run its first block. -/
def runIL (I : Interp σ ε) (main : Nat) (blocks : IL) (n : Nat) : Cont σ ε := exec I main (jumpIL I main blocks n) blocks Out.uncaught stuckK

/-! ## The method bodies the theorem is about -/

/-- Control may come to the end of an instruction (or of a list of instructions, or of one of the sections of a switch), judging by its form. -/
def falls : IL → Bool
  | .nop | .act _ | .nil | .tryCatch _ _ _ _ _ => true
  | .ite _ t f => falls t || falls f
  | .block b => falls b
  | .container id bs => leaves id bs
  | .switch _ ss => falls ss
  | .cons a r => if r = .nil then falls a else falls r
  | .scons _ b r => falls b || falls r
  | .bcons _ _ r | .hcons _ _ _ _ r => falls r
  | .silent _ | .leave _ _ _ | .branch _ | .bnil | .hnil | .snil => false

/-- What a part of an instruction tree is. -/
inductive Kind where
  | instr
  | list
  | blocks
  | handlers
  | sections

/-- The trees of the theorem: built as the decompiler builds them, where the body of a `try` and of a handler is one block, the sections of a switch
are in the decompiler's normal form, each has the default label or one label only, and control does not come to the end of a section with
another one behind it. -/
def Shape : Kind → IL → Prop
  | .instr, .nop | .instr, .act _ | .instr, .silent _ | .instr, .leave _ _ _ | .instr, .branch _ => True
  | .instr, .ite _ t f => Shape .instr t ∧ Shape .instr f
  | .instr, .block b => Shape .list b
  | .instr, .container _ bs => Shape .blocks bs
  | .instr, .tryCatch _ _ f r hs => Shape .list f ∧ r = .bnil ∧ Shape .handlers hs
  | .instr, .switch _ ss => Shape .sections ss ∧ (sectionsOf ss).WF ∧
      ∀ p ∈ sectionsOf ss, p.1.has (-2 ^ 63) ∨ ∃ v, p.1 = [(v, v)]
  | .list, .nil => True
  | .list, .cons a r => Shape .instr a ∧ Shape .list r
  | .blocks, .bnil => True
  | .blocks, .bcons _ b r => Shape .list b ∧ Shape .blocks r
  | .handlers, .hnil => True
  | .handlers, .hcons _ _ f r n => Shape .list f ∧ r = .bnil ∧ Shape .handlers n
  | .sections, .snil => True
  | .sections, .scons _ b r => Shape .instr b ∧ (falls b = false ∨ r = .snil) ∧ Shape .sections r
  | _, _ => False

/-! ## C++ -/

/-- A C++ statement sequence (each form carries the statements after it; `nil` is the end of the sequence) and chains of handlers. -/
inductive CS where
  | nil
  /-- a simple statement -/
  | text (k : Nat) (r : CS)
  /-- the empty statement -/
  | semi (r : CS)
  /-- a label: `blockLabel` or `leaveLabel` -/
  | label (i : Item) (r : CS)
  /-- a jump: `goto` or `jump` -/
  | jump (i : Item) (r : CS)
  | ret (t : Nat) (v : Option Nat) (r : CS)
  | ite (c : Nat) (t : CS) (r : CS)
  | iteElse (c : Nat) (t f : CS) (r : CS)
  /-- a compound statement -/
  | group (b r : CS)
  | switch (v : Nat) (b r : CS)
  /-- a label of the enclosing switch: `caseHead` or `defaultHead` (or, with no label at all, `bareColon`) -/
  | case (i : Item) (r : CS)
  /-- `try` body, handlers, statements after them -/
  | tryc (b hs r : CS)
  /-- a handler and the further handlers -/
  | catch (hid : Nat) (b next : CS)
deriving DecidableEq

/-- The text. -/
def CS.flat : CS → List Item
  | .nil => []
  | .text k r => .text k :: r.flat
  | .semi r => .semi :: r.flat
  | .label i r => i :: r.flat
  | .jump i r => i :: r.flat
  | .ret t v r => .ret t v :: r.flat
  | .ite c t r => .ifHead c :: .opn :: t.flat ++ .cls :: r.flat
  | .iteElse c t f r => .ifHead c :: .opn :: t.flat ++ .cls :: (.elseHead :: .opn :: f.flat ++ .cls :: r.flat)
  | .group b r => .opn :: b.flat ++ .cls :: r.flat
  | .switch v b r => .switchHead v :: .opn :: b.flat ++ .cls :: r.flat
  | .case i r => i :: r.flat
  | .tryc b hs r => .tryHead :: .opn :: b.flat ++ .cls :: (hs.flat ++ r.flat)
  | .catch hid b n => .catchHead hid :: .opn :: b.flat ++ .cls :: n.flat

/-- The trees that are C++: each form is used for what it is meant for. -/
def CS.WF : CS → Prop
  | .nil => True
  | .text _ r => r.WF
  | .semi r => r.WF
  | .label i r => ((∃ l, i = .blockLabel l) ∨ ∃ ow n, i = .leaveLabel ow n) ∧ r.WF
  | .jump i r => ((∃ t n, i = .goto t n) ∨ ∃ l, i = .jump l) ∧ r.WF
  | .ret _ _ r => r.WF
  | .ite _ t r => t.WF ∧ r.WF
  | .iteElse _ t f r => t.WF ∧ f.WF ∧ r.WF
  | .group b r => b.WF ∧ r.WF
  | .switch _ b r => b.WF ∧ r.WF
  | .case i r => ((∃ v, i = .caseHead v) ∨ i = .defaultHead ∨ i = .bareColon) ∧ r.WF
  | .tryc b hs r => b.WF ∧ Catches hs ∧ r.WF
  | .catch _ _ _ => False
where
  /-- a chain of handlers -/
  Catches : CS → Prop
  | .nil => True
  | .catch _ b n => b.WF ∧ Catches n
  | _ => False

mutual
/-- Run a statement sequence.  `J` is what a `goto` does, `h` what an exception does, `k` what comes after the sequence. -/
def execC (I : Interp σ ε) (J : Item → Cont σ ε) : CS → HCont σ ε → Cont σ ε → Cont σ ε
  | .nil, _, k, s => k s
  | .text a r, h, k, s => match I.act a s with
    | .ok _ s => execC I J r h k s
    | .raise x s => h x s
  | .semi r, h, k, s => execC I J r h k s
  | .label _ r, h, k, s => execC I J r h k s
  | .jump i _, _, _, s => J i s
  | .ret _ v _, h, _, s => I.leave v h s
  | .ite c t r, h, k, s => match I.cond c s with
    | .ok true s => execC I J t h (fun s => execC I J r h k s) s
    | .ok false s => execC I J r h k s
    | .raise x s => h x s
  | .iteElse c t f r, h, k, s => match I.cond c s with
    | .ok true s => execC I J t h (fun s => execC I J r h k s) s
    | .ok false s => execC I J f h (fun s => execC I J r h k s) s
    | .raise x s => h x s
  | .group b r, h, k, s => execC I J b h (fun s => execC I J r h k s) s
  | .switch v b r, h, k, s => match I.val v s with
    | .ok x s =>
      match (atCase I J (.caseHead x) b h (fun s => execC I J r h k s)).or (atCase I J .defaultHead b h (fun s => execC I J r h k s)) with
      | some k' => k' s
      | none => execC I J r h k s
    | .raise x s => h x s
  | .case _ r, h, k, s => execC I J r h k s
  | .tryc b hs r, h, k, s => execC I J b (fun x s => handleC I J hs h (fun s => execC I J r h k s) x s) (fun s => execC I J r h k s) s
  | .catch _ _ _, _, _, _ => .stuck
/-- What is run from the switch label `i` on (a label inside an inner switch belongs to that one). -/
def atCase (I : Interp σ ε) (J : Item → Cont σ ε) (i : Item) : CS → HCont σ ε → Cont σ ε → Option (Cont σ ε)
  | .nil, _, _ => none
  | .text _ r, h, k => atCase I J i r h k
  | .semi r, h, k => atCase I J i r h k
  | .label _ r, h, k => atCase I J i r h k
  | .jump _ r, h, k => atCase I J i r h k
  | .ret _ _ r, h, k => atCase I J i r h k
  | .ite _ t r, h, k => (atCase I J i t h (fun s => execC I J r h k s)).or (atCase I J i r h k)
  | .iteElse _ t f r, h, k =>
    (atCase I J i t h (fun s => execC I J r h k s)).or ((atCase I J i f h (fun s => execC I J r h k s)).or (atCase I J i r h k))
  | .group b r, h, k => (atCase I J i b h (fun s => execC I J r h k s)).or (atCase I J i r h k)
  | .switch _ _ r, h, k => atCase I J i r h k
  | .case j r, h, k => if j = i then some (fun s => execC I J r h k s) else atCase I J i r h k
  | .tryc b _ r, h, k =>
    (atCase I J i b h (fun s => execC I J r h k s)).or (atCase I J i r h k)
  | .catch _ _ n, h, k => atCase I J i n h k
/-- The first handler for the exception; at its end control goes on after the `try`. -/
def handleC (I : Interp σ ε) (J : Item → Cont σ ε) : CS → HCont σ ε → Cont σ ε → HCont σ ε
  | .catch hid b n, h, k, x, s => if I.catches hid x then execC I J b h k (I.bind hid x s) else handleC I J n h k x s
  | _, h, _, x, s => h x s
end

/-- What is run from the first label with the property `p` on. -/
def enterC (I : Interp σ ε) (J : Item → Cont σ ε) (p : Item → Bool) : CS → HCont σ ε → Cont σ ε → Option (Cont σ ε)
  | .nil, _, _ => none
  | .text _ r, h, k => enterC I J p r h k
  | .semi r, h, k => enterC I J p r h k
  | .label i r, h, k => if p i then some (execC I J r h k) else enterC I J p r h k
  | .jump _ r, h, k => enterC I J p r h k
  | .ret _ _ r, h, k => enterC I J p r h k
  | .ite _ t r, h, k => (enterC I J p t h (execC I J r h k)).or (enterC I J p r h k)
  | .iteElse _ t f r, h, k => (enterC I J p t h (execC I J r h k)).or ((enterC I J p f h (execC I J r h k)).or (enterC I J p r h k))
  | .group b r, h, k => (enterC I J p b h (execC I J r h k)).or (enterC I J p r h k)
  | .switch _ b r, h, k => (enterC I J p b h (execC I J r h k)).or (enterC I J p r h k)
  | .case _ r, h, k => enterC I J p r h k
  | .tryc b hs r, h, k =>
    (enterC I J p b (fun x s => handleC I J hs h (execC I J r h k) x s) (execC I J r h k)).or
      ((enterC I J p hs h (execC I J r h k)).or (enterC I J p r h k))
  | .catch _ b n, h, k => (enterC I J p b h k).or (enterC I J p n h k)

/-- The label a jump goes to: the text of a jump and of a label is only the number. -/
def goesTo : Item → Item → Bool
  | .goto _ n, .leaveLabel _ m => n = m
  | .jump l, .blockLabel m => l = m
  | _, _ => false

/-- A jump with `n` jumps left. -/
def jumpC (I : Interp σ ε) (body : CS) : Nat → Item → Cont σ ε
  | 0, _, s => .timeout s
  | n + 1, i, s => match enterC I (jumpC I body n) (goesTo i) body Out.uncaught stuckK with
    | some k => k s
    | none => .stuck

/-- A function: run its body. -/
def runC (I : Interp σ ε) (body : CS) (n : Nat) : Cont σ ε := execC I (jumpC I body n) body Out.uncaught stuckK

end Verif.Stmt
