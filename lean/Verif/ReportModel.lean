import Verif.TypesModel
/-!
# Model: which library types and members are checked against the table of supported ones

CppTranslator/MyIlInstructionVisitor.cs and CppTypeVisitor.cs: the calls of `ValidateCall` and of `FormatTypeDelaration` (which validates) and of
`FormatType` (which does not). Names are full names as in the table.
-/
namespace Verif.Report
open Verif.Types

mutual
/-- Instructions that mention types or members. A parameter is its type's full name and whether it is primitive or an enum (so that the argument is
cast, line 564). -/
inductive Inst where
  /-- anything else, with its operands -/
  | other (args : Insts)
  /-- a call; `ctor` if the method is a constructor, whose name is mapped to the empty name (line 66) -/
  | call (ctor : Bool) (name : WStr) (params : List (WStr × Bool)) (args : Insts)
  | newobj (name : WStr) (params : List (WStr × Bool)) (args : Insts)
  | cast (type : WStr) (arg : Inst)
  | box (type : WStr) (arg : Inst)
  | unbox (type : WStr) (arg : Inst)
  | newarr (type : WStr) (args : Insts)
  | elema (type : WStr) (array : Inst) (args : Insts)
  | sfield (type : WStr) (field : WStr)
  | dflt (type : WStr)
  | userAssign (name : WStr) (params : List (WStr × Bool)) (target value : Inst)
  /-- a store to a local variable declared here -/
  | stloc (type : WStr) (value : Inst)
inductive Insts where
  | nil
  | cons (a : Inst) (t : Insts)
end

/-- Casts of arguments: `DoCastOnCallParamterIfNeeded`, lines 562-571, validates the type of each primitive or enum parameter. -/
def casts : List (WStr × Bool) → List WStr
  | [] => []
  | (t, true) :: l => t :: casts l
  | (_, false) :: l => casts l

mutual
/-- The names given to `ValidateType` while the instruction is translated, in order (the checks of argument casts are listed before those of the arguments; only the
set matters). -/
def validated : Inst → List WStr
  | .other args => validatedAll args
  -- `FormatCall`, lines 413-436: `ValidateCall` first; a constructor writes nothing, its arguments are not visited (lines 418-420)
  | .call ctor name params args => params.map (·.1) ++ [signature name (params.map (·.1))] ++ if ctor then [] else casts params ++ validatedAll args
  -- `VisitNewObj`, lines 1045-1054: the class name is appended without a check
  | .newobj _ params args => casts params ++ validatedAll args
  -- `VisitCastClass`, lines 578-585
  | .cast t a => t :: validated a
  -- `VisitBox`, lines 387-393 with `FormatType`
  | .box _ a => validated a
  -- `VisitUnboxAny`, lines 1383-1399 with `FormatType`
  | .unbox _ a => validated a
  -- `VisitNewArr`, lines 1022-1030 with `FormatType`
  | .newarr _ args => validatedAll args
  -- `VisitLdElema`, lines 872-882 with `FormatTypeDelaration`
  | .elema t a args => t :: validated a ++ validatedAll args
  -- `VisitLdsFlda`, lines 948-954 with `FormatType`
  | .sfield _ _ => []
  -- `VisitDefaultValue`, lines 660-667 with `FormatType`
  | .dflt _ => []
  -- `VisitUserDefinedCompoundAssign`, lines 1401-1413 with `FormatType`
  | .userAssign _ _ a b => validated a ++ validated b
  -- `DeclareVariableIfNeeded`, lines 1165-1175 with `FormatTypeDelaration`
  | .stloc t a => t :: validated a
def validatedAll : Insts → List WStr
  | .nil => []
  | .cons a t => validated a ++ validatedAll t
end

/-- The log after translating an instruction with this table of supported names. -/
def log (table : List WStr) (e : Inst) : List WStr := ((validated e).foldl validate { legal := table, errors := [] }).errors

end Verif.Report
