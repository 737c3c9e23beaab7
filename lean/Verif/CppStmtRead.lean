import Verif.CppRead
import Verif.MethodProps
import Mathlib.Data.List.Forall2
/-!
# Specification: how a C++ compiler reads the characters of a function body

Independent of the translator: characters to lexemes (CppRead), lexemes to the pieces statements consist of ([stmt.stmt]), each piece to its meaning in the scope of the function's
variables, pieces to statements (`CS.flat` of FlowSpec), and the run of the statements (`runC` of FlowSpec).
-/
namespace Verif.Read
open Cpp Sem
open Verif.Stmt Verif.Method
open Verif.IntVal (Ty)

/-! ## Lexemes to pieces -/

/-- The pieces of statements, with the lexemes of the expressions in them. -/
inductive Piece where
  | opn | cls | semi | elseP | tryP | defaultP
  | ifP (ls : List Lexeme)
  | switchP (ls : List Lexeme)
  | catchP (ls : List Lexeme)
  | caseP (ls : List Lexeme)
  | retP (ls : List Lexeme)
  | exprP (ls : List Lexeme)
  | throwP (ls : List Lexeme)
  | gotoP (l : WStr)
  | labelP (l : WStr)
deriving DecidableEq, Repr

/-- What has a parenthesis behind it. -/
inductive Head | ifH | switchH | catchH
deriving DecidableEq, Repr

def Head.piece : Head → List Lexeme → Piece
  | .ifH => .ifP
  | .switchH => .switchP
  | .catchH => .catchP

/-- The piece being read. -/
inductive PS where
  /-- none -/
  | start
  /-- a statement that starts with this word -/
  | first (s : WStr)
  /-- the word before a parenthesis -/
  | head (k : Head)
  /-- inside the parenthesis, at this depth -/
  | group (k : Head) (depth : Nat) (acc : List Lexeme)
  | ret (acc : List Lexeme)
  | expr (acc : List Lexeme)
  | thr (acc : List Lexeme)
  | case (acc : List Lexeme)
  | default
  | goto
  | gotoEnd (l : WStr)
deriving DecidableEq, Repr

abbrev pt (s : String) : Lexeme := .punct (w s)
abbrev wd (s : String) : Lexeme := .word (w s)

def isKw (s : WStr) : Bool := (CppLex.keywords.map w).contains s

/-- The lexemes that are in no expression. -/
def isEnd (x : Lexeme) : Bool := x = pt ";" || x = pt "{" || x = pt "}"

/-- One lexeme: the pieces it completes and what is read next. Statements that start with other keywords, and conditionals in `case` labels, are outside this fragment. -/
def step : PS → Lexeme → Option (List Piece × PS)
  | .start, x =>
    if x = pt "{" then some ([.opn], .start)
    else if x = pt "}" then some ([.cls], .start)
    else if x = pt ";" then some ([.semi], .start)
    else if x = wd "else" then some ([.elseP], .start)
    else if x = wd "try" then some ([.tryP], .start)
    else if x = wd "if" then some ([], .head .ifH)
    else if x = wd "switch" then some ([], .head .switchH)
    else if x = wd "catch" then some ([], .head .catchH)
    else if x = wd "return" then some ([], .ret [])
    else if x = wd "throw" then some ([], .thr [])
    else if x = wd "case" then some ([], .case [])
    else if x = wd "default" then some ([], .default)
    else if x = wd "goto" then some ([], .goto)
    else match x with
      | .word s => if isKw s then none else some ([], .first s)
      | _ => some ([], .expr [x])
  | .first s, x =>
    if x = pt ":" then some ([.labelP s], .start)
    else if x = pt ";" then some ([.exprP [.word s]], .start)
    else if isEnd x then none
    else some ([], .expr [.word s, x])
  | .head k, x => if x = pt "(" then some ([], .group k 0 []) else none
  | .group k d acc, x =>
    if isEnd x then none
    else if x = pt "(" then some ([], .group k (d + 1) (acc ++ [x]))
    else if x = pt ")" then (if d = 0 then some ([k.piece acc], .start) else some ([], .group k (d - 1) (acc ++ [x])))
    else some ([], .group k d (acc ++ [x]))
  | .ret acc, x => if x = pt ";" then some ([.retP acc], .start) else if isEnd x then none else some ([], .ret (acc ++ [x]))
  | .expr acc, x => if x = pt ";" then some ([.exprP acc], .start) else if isEnd x then none else some ([], .expr (acc ++ [x]))
  | .thr acc, x => if x = pt ";" then some ([.throwP acc], .start) else if isEnd x then none else some ([], .thr (acc ++ [x]))
  | .case acc, x => if x = pt ":" then some ([.caseP acc], .start) else if isEnd x then none else some ([], .case (acc ++ [x]))
  | .default, x => if x = pt ":" then some ([.defaultP], .start) else none
  | .goto, .word s => if isKw s then none else some ([], .gotoEnd s)
  | .goto, _ => none
  | .gotoEnd s, x => if x = pt ";" then some ([.gotoP s], .start) else none

/-- The pieces of a text. -/
def split : PS → List Lexeme → Option (List Piece)
  | st, [] => if st = .start then some [] else none
  | st, x :: r => (step st x).bind fun y => (split y.2 r).map (y.1 ++ ·)

/-! ## Declarations -/

/-- The type with this name. -/
def typeNamed (s : WStr) : Option Ty :=
  match position library s with
  | some (_, .type ty) => some ty
  | _ => none

/-- `T n;` -/
def declOf : Piece → Option (WStr × Ty)
  | .exprP [.word t, .word n] => if isKw n then none else (typeNamed t).map fun ty => (n, ty)
  | _ => none

/-- The declarations at the start, and the rest. -/
def decls : List Piece → List (WStr × Ty) × List Piece
  | [] => ([], [])
  | p :: r => match declOf p with
    | some d => (d :: (decls r).1, (decls r).2)
    | none => ([], p :: r)

/-- The declarations of a body: those at the start of the outermost block, after its label if it has one; declarations elsewhere are outside this fragment. A variable of the body starts with
whatever the run starts with. -/
def bodyOf : List Piece → List (WStr × Ty) × List Piece
  | .opn :: .labelP l :: r => ((decls r).1, .opn :: .labelP l :: (decls r).2)
  | .opn :: r => ((decls r).1, .opn :: (decls r).2)
  | r => ([], r)

/-! ## The meaning of the pieces -/

/-- The pieces, understood. -/
inductive RP where
  | opn | cls | semi | elseP | tryP | defaultP
  | ifP (c : RX)
  | switchP (c : RX)
  /-- `catch (T* v)` -/
  | catchP (T : WStr)
  | caseP (v : Int)
  | ret (value : Option RX)
  /-- variable `k` of type `ty` becomes `c` -/
  | asg (k : Nat) (ty : Ty) (c : RX)
  /-- the static field kept in variable `k`, of type `ty`, becomes `c` -/
  | asgF (k : Nat) (ty : Ty) (c : RX)
  /-- function `f` is called; what it returns is not used -/
  | callP (f : Nat) (args : List CX)
  /-- an object of the class `T`, made without arguments, is thrown -/
  | thr (T : WStr)
  | gotoP (l : WStr)
  | labelP (l : WStr)

/-- The lexemes are the expression `c`, with at most one call of a function of the program. -/
def ReadsL (vars : List (WStr × Ty)) (funs : List Fun) (ls : List Lexeme) (c : RX) : Prop :=
  ∃ ts t, resolve (entities vars funs) ls = some ts ∧ Parses ts t ∧ readX (entities vars funs) t = some c

/-- A `throw` statement throws a new object in parentheses, `((new T()))`; others are outside this fragment. -/
def thrownOf (T : WStr) : List Lexeme := [pt "(", pt "(", wd "new", .word T, pt "(", pt ")", pt ")", pt ")"]

/-- The lexemes are a call of function `f`. -/
def ReadsCall (vars : List (WStr × Ty)) (funs : List Fun) (ls : List Lexeme) (f : Nat) (args : List CX) : Prop :=
  ∃ ts k t ps, resolve (entities vars funs) ls = some ts ∧ Parses ts (.call (.id k) t) ∧ funcOf (entities vars funs) k = some (f, ps) ∧ argsOf (entities vars funs) ps t = some args

/-- A piece and its meaning. An expression statement is a call `A::f(...)`, an assignment to a static field `A::x`, an assignment to a variable, or the increment or decrement of one ([expr.pre.incr]: `++x` is `x += 1`). The value of a `case` label
is the same in all states. (That it is converted to the type of the `switch` is not modelled.) -/
def ReadPiece (vars : List (WStr × Ty)) (funs : List Fun) : Piece → RP → Prop
  | .opn, .opn | .cls, .cls | .semi, .semi | .elseP, .elseP | .tryP, .tryP | .defaultP, .defaultP => True
  | .ifP ls, .ifP c => ReadsL vars funs ls c
  | .switchP ls, .switchP c => ReadsL vars funs ls c
  | .catchP ls, .catchP T => ∃ v, ls = [.word T, pt "*", .word v] ∧ isKw T = false ∧ isKw v = false ∧ v ∉ vars.map (·.1)
  | .caseP ls, .caseP v => ∃ c, ReadsL vars funs ls ⟨none, c⟩ ∧ ∀ env, c.eval env = .ok v
  | .retP ls, .ret none => ls = []
  | .retP ls, .ret (some c) => ls ≠ [] ∧ ReadsL vars funs ls c
  | .exprP ls, .asg k ty c => ∃ n, vars[k]? = some (n, ty) ∧
      ((∃ le, ls = .word n :: pt "=" :: le ∧ ReadsL vars funs le c) ∨
       (ls = [pt "++", .word n] ∧ c = ⟨none, .arith .add (.var ty k) (.lit 1)⟩) ∨
       (ls = [pt "--", .word n] ∧ c = ⟨none, .arith .sub (.var ty k) (.lit 1)⟩))
  | .exprP ls, .asgF k ty c => ∃ a b le p, ls = .word a :: pt "::" :: .word b :: pt "=" :: le ∧ funs.find? (fun p => p.name == a ++ w "::" ++ b) = some p ∧ p.place = some k ∧ p.ret = ty ∧
      ReadsL vars funs le c
  | .exprP ls, .callP f args => (∃ a b le, ls = .word a :: pt "::" :: .word b :: pt "(" :: le) ∧ ReadsCall vars funs ls f args
  | .throwP ls, .thr T => ls = thrownOf T ∧ isKw T = false
  | .gotoP l, .gotoP l' => l = l'
  | .labelP l, .labelP l' => l = l'
  | _, _ => False

/-! ## Statements -/

/-- Names as numbers. -/
def code : WStr → Nat
  | [] => 0
  | c :: r => 2 ^ c * (2 * code r + 1)

/-- Piece number `i` in the notation of FlowSpec. -/
def RP.item (i : Nat) : RP → Item
  | .opn => .opn | .cls => .cls | .semi => .semi | .elseP => .elseHead | .tryP => .tryHead | .defaultP => .defaultHead
  | .ifP _ => .ifHead i
  | .switchP _ => .switchHead i
  | .catchP _ => .catchHead i
  | .caseP v => .caseHead v
  | .ret none => .ret 0 none
  | .ret (some _) => .ret 0 (some i)
  | .asg _ _ _ => .text i
  | .asgF _ _ _ => .text i
  | .callP _ _ => .text i
  | .thr _ => .text i
  | .gotoP l => .jump (code l)
  | .labelP l => .blockLabel (code l)

/-- The pieces, numbered from `i` on. -/
def itemsFrom (i : Nat) : List RP → List Item
  | [] => []
  | p :: r => p.item i :: itemsFrom (i + 1) r

/-- A number that is none of a piece of the kind. -/
def noPiece {α : Type} (s : Env) : Ev Env Fault α := .raise .undefined s

/-- What the pieces do when there are no calls and no `throw` statements, in a function of result type `R`; `classes T x`: a handler for the class `T` catches `x`. -/
def meaning (classes : WStr → Exc → Bool) (R : Ty) (ps : List RP) : Interp Env Fault where
  act i s := match ps[i]? with
    | some (.asg k ty ⟨none, c⟩) => assign s k (c.eval s >>= fun v => .ok (ty.wrap v))
    | _ => noPiece s
  cond i s := match ps[i]? with
    | some (.ifP ⟨none, c⟩) => look s (c.eval s >>= fun v => .ok (decide (v ≠ 0)))
    | _ => noPiece s
  val i s := match ps[i]? with
    | some (.switchP ⟨none, c⟩) => look s (c.eval s)
    | _ => noPiece s
  ret i s := match ps[i]? with
    | some (.ret (some ⟨none, c⟩)) => look s (c.eval s >>= fun v => .ok (R.wrap v))
    | _ => noPiece s
  catches i x := match ps[i]?, x with
    | some (.catchP T), .exc x => classes T x
    | _, _ => false
  bind _ _ s := s

/-- The characters are, for a function with these parameters in a program with the functions `funs`, the statements `b` made of the pieces `ps`. -/
def ReadsBody (params : List (WStr × Ty)) (chars : WStr) (ps : List RP) (b : CS) (funs : List Fun := []) : Prop :=
  ∃ ls raw, lex chars = some ls ∧ split .start ls = some raw ∧ ((params ++ (bodyOf raw).1).map (·.1)).Nodup ∧
    List.Forall₂ (ReadPiece (params ++ (bodyOf raw).1) funs) (bodyOf raw).2 ps ∧ b.WF ∧ b.flat = itemsFrom 0 ps

/-- Run the body the characters are; `n` jumps. -/
def runBody (classes : WStr → Exc → Bool) (R : Ty) (ps : List RP) (b : CS) (n : Nat) : Env → Out Env Fault := runC (meaning classes R ps) b n

end Verif.Read
