import Verif.StmtModel
import Verif.ExprText
import Verif.CompoundModel
import Verif.MethodProps
/-!
# Model: the characters written for the body of a method (/repo/CppTranslator/MyIlInstructionVisitor.cs)

The visitor of StmtModel again, now writing characters through the formatter of FmtModel. Simple statements store integer expressions in local variables or parameters; conditions, switch
values and returned values are integer expressions. No statement is injected (that is for static constructors only).
-/
namespace Verif.Text
open Sem Stmt Method
open Verif.IntVal (Ty)

/-- What a method body is written from: `src` the variables (names in the source), `target k` the variable store `k` is for, the characters of stores, conditions, switch values and of what
follows `return`, `cls h` and `exVar h` the class and the variable of handler `h`. `throws k`: statement `k` is no store but a `throw` statement, with the text `store k`; `other k`: a call, or a
store to a static field. -/
structure Cfg where
  ci : Fmt.CharInfo
  /-- `Environment.NewLine` -/
  nl : WStr
  main : Nat
  src : List (WStr × Ty)
  target : Nat → Nat
  store : Nat → WStr
  cond : Nat → WStr
  val : Nat → WStr
  ret : Nat → WStr
  cls : Nat → WStr
  exVar : Nat → WStr
  throws : Nat → Bool := fun _ => false
  other : Nat → Bool := fun _ => false

/-- A type's name, CppTypeVisitor.cs lines 173-200 (`FormatTypeDelaration`, `FormatType`). -/
def tyName : Ty → WStr
  | .sbyte => w "SByte" | .int16 => w "Int16" | .int32 => w "Int32" | .int64 => w "Int64"
  | .byte => w "Byte" | .uint16 => w "UInt16" | .uint32 => w "UInt32" | .uint64 => w "UInt64"

/-- The source name of a variable. -/
def Cfg.srcName (C : Cfg) (k : Nat) : WStr := ((C.src[k]?).map (·.1)).getD []
/-- The source type of a variable. -/
def Cfg.srcType (C : Cfg) (k : Nat) : Ty := ((C.src[k]?).map (·.2)).getD .int32
/-- The name written for a variable: Formatter.cs lines 177-183. -/
def Cfg.name (C : Cfg) (k : Nat) : WStr := written C.ci (C.srcName k)
/-- At most `fuel + 1` hexadecimal digits. -/
def hexAux : Nat → Nat → WStr
  | 0, n => [Fmt.hexDigit n]
  | fuel + 1, n => if n < 16 then [Fmt.hexDigit n] else hexAux fuel (n / 16) ++ [Fmt.hexDigit (n % 16)]
/-- Hexadecimal digits, without leading zeros. -/
def hex (n : Nat) : WStr := hexAux n n

/-- A block's label, as the decompiler names it: `IL_` and the offset in at least four hexadecimal digits. -/
def labelText (n : Nat) : WStr := w "IL_" ++ (List.replicate (4 - (hex n).length) 48 ++ hex n)
/-- `NewLeaveBlock`, lines 260-264. -/
def leaveText (n : Nat) : WStr := w "leaveBlock" ++ dec n

/-- `VisitLeave`, lines 979-1000. -/
def Cfg.leave (C : Cfg) (stk : List Nat) (e : Nat) (v : Option Nat) : WStr :=
  if e = 0 then
    match v with
    | none => w "return"
    | some v => w "return" ++ C.ret v
  else w "goto " ++ leaveText (stk.headD 0)

/-- The visitor's state: the formatter, `blockIndex` and the names in `CurrentVariables`. -/
structure VS where
  fs : Fmt.St
  n : Nat
  vars : List WStr

/-- The simple statements of a tree, the stores among them in the order in which `DeclareLocalVariables` (lines 342-357) finds them. -/
def stores : IL → List Nat
  | .nop | .leave _ _ _ | .branch _ | .nil | .bnil | .hnil | .snil => []
  | .act k => [k]
  | .silent b => stores b
  | .ite _ t f => stores t ++ stores f
  | .block b => stores b
  | .container _ b => stores b
  | .tryCatch _ _ f r h => stores f ++ stores r ++ stores h
  | .switch _ s => stores s
  | .cons a r => stores a ++ stores r
  | .bcons _ b r => stores b ++ stores r
  | .hcons _ _ f r n => stores f ++ stores r ++ stores n
  | .scons _ b r => stores b ++ stores r

/-- `AppendIndented(String.Empty)` at the start of a line (lines 330-331 and 1175-1176). -/
def startLine (fs : Fmt.St) : Res Fmt.St := if fs.onNewline then Fmt.appendIndented fs [] else .ok fs

/-- Statement `k` needs no declaration: it is no store (lines 346-353), or its variable is among `vs` already (lines 1167-1168). -/
def Cfg.known (C : Cfg) (vs : List WStr) (k : Nat) : Prop := (C.throws k = true ∨ C.other k = true) ∨ C.srcName (C.target k) ∈ vs

instance (C : Cfg) (vs : List WStr) (k : Nat) : Decidable (C.known vs k) := inferInstanceAs (Decidable (_ ∨ _))

/-- `CheckVariableAddition` and `DeclareVariableIfNeeded`, lines 359-366 and 1165-1175. -/
def Cfg.declare1 (C : Cfg) (s : VS) (k : Nat) : Res VS :=
  if C.known s.vars k then .ok s
  else
    startLine s.fs >>= fun fs =>
    Fmt.appendIndented (Fmt.appendLine C.nl (Fmt.append (Fmt.append (Fmt.append fs (tyName (C.srcType (C.target k)))) (w " ")) (C.name (C.target k))) (w ";")) [] >>= fun fs =>
    .ok { s with fs := fs, vars := C.srcName (C.target k) :: s.vars }

/-- `DeclareLocalVariables`, lines 342-357. -/
def Cfg.declare (C : Cfg) : List Nat → VS → Res VS
  | [], s => .ok s
  | k :: r, s => C.declare1 s k >>= fun s => C.declare r s

/-- `AddLabelIfNeeded`, lines 368-385. -/
def Cfg.addLabel (C : Cfg) (lbl : Nat) (b : IL) (fs : Fmt.St) : Fmt.St :=
  if Stmt.blockLabel lbl b = [] then fs
  else if fs.onNewline then Fmt.appendLine C.nl (Fmt.append fs (labelText lbl)) (w ":")
  else fs

/-- The first lines of `WriteBlock` (318-327). -/
def Cfg.startBlock (C : Cfg) (lbl : Nat) (b : IL) (s : VS) : Res VS := C.declare (stores b) { s with fs := C.addLabel lbl b s.fs }

/-- `FormatSwitchCases`, lines 1272-1291. -/
def caseText (fs : Fmt.St) : LongSet → Res Fmt.St
  | [] => .ok fs
  | (lo, _) :: _ => if lo = -2 ^ 63 then Fmt.appendIndented fs (w "default") else Fmt.appendIndented fs (w "case ") >>= fun fs => .ok (Fmt.append fs (decInt lo))

/-- The end of `WriteBlockWithBraces`, lines 783-786: a `;` after an instruction that is not a block. -/
def endBrace (nl : WStr) (t : IL) (fs : Fmt.St) : Res Fmt.St :=
  Fmt.closeBrace nl (match t with
    | .block _ => fs
    | _ => Fmt.append fs (w ";")) false

/-- The visitor. The lines are those of `Stmt.emit`. Where several pieces of text are appended one after the other they are put together here (no part of the formatter is looked at in between).
`ub` marks two places that are not modelled further because they are never reached: an `if` statement in the middle of a line (it would be written as an expression), and an inline block at
the start of a line (it would be given a label). -/
def Cfg.visit (C : Cfg) : IL → List Nat → VS → Res VS
  | .nop, _, s => .ok s
  | .act k, _, s => .ok { s with fs := Fmt.append s.fs (C.store k) }
  | .silent _, _, s => .ok s
  | .leave _ e v, stk, s => .ok { s with fs := Fmt.append s.fs (C.leave stk e v) }
  | .branch l, _, s => .ok { s with fs := Fmt.append s.fs (w "goto " ++ labelText l) }
  | .ite c t f, stk, s =>
    if s.fs.chars then .ub
    else
      Fmt.openBrace C.nl (Fmt.append s.fs (w "if " ++ (w "(" ++ (C.cond c ++ w ")")))) >>= fun fs =>
      Fmt.appendIndented fs [] >>= fun fs =>
      C.visit t stk { s with fs := fs } >>= fun s =>
      endBrace C.nl t s.fs >>= fun fs =>
      if f = .nop then .ok { s with fs := fs }
      else
        Fmt.appendIndented fs (w "else ") >>= fun fs =>
        Fmt.openBrace C.nl fs >>= fun fs =>
        Fmt.appendIndented fs [] >>= fun fs =>
        C.visit f stk { s with fs := fs } >>= fun s =>
        endBrace C.nl f s.fs >>= fun fs => .ok { s with fs := fs }
  | .block b, stk, s =>
    if s.fs.onNewline then .ub
    else C.declare (stores b) s >>= fun s => C.visit b stk s
  | .container id bs, stk, s =>
    C.visit bs ((s.n + 1) :: stk) { s with n := s.n + 1 } >>= fun s' =>
    .ok (if id ≠ C.main ∧ leaves id bs = true then { s' with fs := Fmt.appendLine C.nl (Fmt.append s'.fs (leaveText (s.n + 1))) (w ":") } else s')
  | .tryCatch _ lbl f _ hs, stk, s =>
    Fmt.openBrace C.nl (Fmt.append s.fs (w "try")) >>= fun fs =>
    C.startBlock lbl f { s with fs := fs, n := s.n + 1 } >>= fun s1 =>
    C.visit f ((s.n + 1) :: stk) s1 >>= fun s2 =>
    Fmt.closeBrace C.nl s2.fs false >>= fun fs =>
    C.visit hs ((s.n + 1) :: stk) { s2 with fs := fs } >>= fun s3 =>
    .ok { s3 with fs := Fmt.appendLine C.nl (Fmt.append s3.fs (leaveText (s.n + 1))) (w ":;") }
  | .switch v ss, stk, s =>
    Fmt.openBrace C.nl (Fmt.append s.fs (w "switch(" ++ (C.val v ++ w ")"))) >>= fun fs =>
    C.visit ss stk { s with fs := fs } >>= fun s =>
    Fmt.closeBrace C.nl s.fs false >>= fun fs => .ok { s with fs := fs }
  | .nil, _, s => .ok s
  | .cons a r, stk, s =>
    startLine s.fs >>= fun fs =>
    C.visit a stk { s with fs := fs } >>= fun s =>
    C.visit r stk { s with fs := Fmt.appendLine C.nl (if s.fs.chars then Fmt.append s.fs (w ";") else s.fs) [] }
  | .bnil, _, s => .ok s
  | .bcons lbl b r, stk, s =>
    Fmt.openBrace C.nl s.fs >>= fun fs =>
    C.startBlock lbl b { s with fs := fs } >>= fun s =>
    C.visit b stk s >>= fun s =>
    Fmt.closeBrace C.nl s.fs false >>= fun fs =>
    C.visit r stk { s with fs := fs }
  | .hnil, _, s => .ok s
  | .hcons hid lbl f _ n, stk, s =>
    Fmt.appendIndented s.fs (w "catch (" ++ (written C.ci (C.cls hid) ++ (w "*" ++ (w " " ++ (written C.ci (C.exVar hid) ++ w ")"))))) >>= fun fs =>
    Fmt.openBrace C.nl fs >>= fun fs =>
    C.startBlock lbl f { s with fs := fs } >>= fun s =>
    C.visit f stk s >>= fun s =>
    Fmt.closeBrace C.nl s.fs false >>= fun fs =>
    C.visit n stk { s with fs := fs }
  | .snil, _, s => .ok s
  | .scons ls b r, stk, s =>
    caseText s.fs ls >>= fun fs =>
    Fmt.appendIndented (Fmt.appendLine C.nl fs (w ":")) [] >>= fun fs =>
    C.visit b stk { s with fs := fs } >>= fun s =>
    C.visit r stk { s with fs := Fmt.appendLine C.nl s.fs (w ";") }

/-- `StartMainBlock`, lines 278-296: the first `params` variables are the parameters. The result is what the formatter received. -/
def Cfg.method (C : Cfg) (params : Nat) (blocks : IL) (fs : Fmt.St) : Res WStr :=
  C.visit (.container C.main blocks) [] ⟨fs, 0, (C.src.take params).map (·.1)⟩ >>= fun s => .ok (s.fs.out.drop fs.out.length)

/-! ## Bodies without calls -/

/-- A method body without calls: `P` the expressions of its statements. -/
structure Body where
  ci : Fmt.CharInfo
  nl : WStr
  main : Nat
  src : List (WStr × Ty)
  P : Pieces
  cls : Nat → WStr
  exVar : Nat → WStr

/-- The name written for a variable: Formatter.cs lines 177-183. -/
def Body.name (C : Body) (k : Nat) : WStr := written C.ci (((C.src[k]?).map (·.1)).getD [])
/-- An expression. -/
def Body.expr (C : Body) (e : X) : WStr := text C.name e

/-- `VisitStLoc` 1127-1135, `HandleStoreVariable` 1136-1145 and `HandleIncrementAndDecrement` 1146-1165. -/
def Body.store (C : Body) (k : Nat) : WStr :=
  match stloc (C.P.target k) (C.P.value k) with
  | .preInc => w "++" ++ C.name (C.P.target k)
  | .preDec => w "--" ++ C.name (C.P.target k)
  | .assign _ => C.name (C.P.target k) ++ (w " = " ++ C.expr (C.P.value k))

/-- `GetTypeForInstruction`, CppTypeVisitor.cs lines 248-265: the type of a variable, otherwise the default. -/
def typeFor (R : Ty) : X → Ty
  | .var ty _ => ty
  | _ => R

/-- What is written after `return`: `VisitLeave`, lines 982-992. -/
def Body.ret (C : Body) (v : Nat) : WStr := w "(" ++ (w "(" ++ tyName (typeFor C.P.retType (C.P.ret v)) ++ w ")" ++ C.expr (C.P.ret v) ++ w ")")

/-- What the body is written from. -/
def Body.cfg (C : Body) : Cfg where
  ci := C.ci
  nl := C.nl
  main := C.main
  src := C.src
  target := C.P.target
  store := C.store
  cond c := C.expr (C.P.cond c)
  val v := C.expr (C.P.val v)
  ret := C.ret
  cls := C.cls
  exVar := C.exVar

end Verif.Text
