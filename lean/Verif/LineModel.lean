import Verif.FmtModel
/-!
# Model: how the instruction visitor decides between `if` statement and conditional expression

CppTranslator/MyIlInstructionVisitor.cs lines 318-340 (`WriteBlock`), 739-788 (`VisitIfInstruction`, `BuildCondition`, `WriteBlockWithBraces`). The visitor has one function for both; it looks at the formatter's
`CharactersAddedToLine` (Formatter.cs lines 46, 144, 201, 212, 280). Labels and declarations of variables, which end their own lines, are left out (C93, C103).
-/
namespace Verif.Line
open Verif.Fmt

/-- An instruction as far as the order in which its text is written goes. -/
inductive I where
  /-- a piece of text written with `Append` -/
  | text (t : WStr)
  /-- an instruction without text -/
  | nop
  /-- `a`, then `b`: for `x.F(y)` the operand, the operator and name, the arguments (`FormatCall` lines 415-437, `VisitLdFlda`, `VisitStObj`) -/
  | seq (a b : I)
  /-- `IfInstruction` -/
  | cond (c t f : I)
  /-- `Block` with its instructions -/
  | block (body : I)
  | done
  | stmt (a rest : I)
  deriving DecidableEq, Repr

/-- `trueInst as Block` is null, line 784. -/
def notBlock : I → Bool
  | .block _ => false
  | _ => true

/-- The function called: an instruction's visit, or `BuildCondition` (with `justCondition`) when the instruction is an `if`. -/
inductive Mode | visit | build (just : Bool)
deriving DecidableEq, Repr

/-- ` ? (`, `) : (`, `)` -/
def qm : WStr := [32, 63, 32, 40]
def colon : WStr := [41, 32, 58, 32, 40]
def rp : WStr := [41]

/-- The visit of an instruction, acting on the formatter. -/
def go (nl : WStr) : Mode → I → St → Res St
  | _, .text t, s => .ok (append s t)
  | _, .nop, s => .ok s
  | _, .seq a b, s => go nl .visit a s >>= go nl .visit b
  | .build just, .cond c t f, s =>
    go nl (.build just) c s >>= fun s =>
      if just then
        go nl .visit t (append s qm) >>= fun s => go nl .visit f (append s colon) >>= fun s => .ok (append s rp)
      else .ok s
  | .visit, .cond c t f, s =>
    if s.chars then
      go nl (.build true) c (append s [40]) >>= fun s =>
        go nl .visit t (append s qm) >>= fun s => go nl .visit f (append s colon) >>= fun s => .ok (append (append s rp) rp)
    else
      go nl (.build false) c (append (append s [105, 102, 32]) [40]) >>= fun s =>
        openBrace nl (append s rp) >>= fun s => appendIndented s [] >>= fun s => go nl .visit t s >>= fun s =>
        closeBrace nl (if notBlock t then append s [59] else s) false >>= fun s =>
        if f = .nop then .ok s
        else
          appendIndented s [101, 108, 115, 101, 32] >>= fun s =>
            openBrace nl s >>= fun s => appendIndented s [] >>= fun s => go nl .visit f s >>= fun s =>
            closeBrace nl (if notBlock f then append s [59] else s) false
  | _, .block body, s => go nl .visit body s
  | _, .done, s => .ok s
  | _, .stmt a rest, s =>
    (if s.onNewline then appendIndented s [] else .ok s) >>= fun s => go nl .visit a s >>= fun s =>
      go nl .visit rest (appendLine nl (if s.chars then append s [59] else s) [])

end Verif.Line
