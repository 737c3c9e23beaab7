import Verif.Prelude
/-!
# Model: which instructions of a method's tree are written

CppTranslator/MyIlInstructionVisitor.cs lines 165-1430: the visitor has one method for each kind of instruction. Most visit every operand; the rest only call `base.VisitX`, which calls `Default`
(lines 165-169), which does nothing. Only which nodes are visited is modelled; the text is in ExprModel, StmtModel, ConcatModel and others. Forms whose text stands for several nodes
(`++x` for `x = x + 1`, lines 1147-1166 and 1076-1099; array initialisers, lines 1204-1256; concatenation blocks, lines 481-495) are single nodes here; `UserDefinedCompoundAssign`,
which writes its target twice, is in C118; conditions that are conditionals are in C104.
-/
namespace Verif.Visit

/-- The kinds of instructions. A `call` is to a method or (`true`) to a constructor, and a `block` may (`true`) have a final instruction: the value of a block used as an expression. -/
inductive Kind where
  | nop
  | call (ctor : Bool)
  | block (final : Bool)
  | addressOf | binaryNumeric | bitNot | blockContainer | box | branch | callVirt | castClass | comp | conv | defaultValue | ifInstruction | ldcF4 | ldcF8
  | ldcI4 | ldcI8 | ldElema | ldFlda | ldLen | ldLoc | ldLoca | ldNull | ldObj | ldsFlda | ldStr | leave | newArr | newObj | numericCompoundAssign
  | rethrow | stLoc | stObj | switchInstruction | switchSection | throw | tryCatch | tryCatchHandler | unboxAny
  | arglist | await | callIndirect | ckfinite | cpblk | debugBreak | dynamicBinaryOperator | dynamicCompoundAssign | dynamicConvert | dynamicGetIndex
  | dynamicGetMember | dynamicInvokeConstructor | dynamicInvoke | dynamicInvokeMember | dynamicIsEvent | dynamicLogicOperator | dynamicSetIndex
  | dynamicSetMember | dynamicUnaryOperator | expressionTreeCast | ilFunction | initblk | invalidBranch | invalidExpression | isInst | ldcDecimal | ldFtn
  | ldMemberToken | ldTypeToken | ldVirtDelegate | ldVirtFtn | locAlloc | locAllocSpan | lock | makeRefAny | nullableRewrap | nullableUnwrap
  | nullCoalescing | pinnedRegion | refAnyType | refAnyValue | sizeOf | stringToInt | threeValuedBoolAnd | threeValuedBoolOr | tryFault | tryFinally
  | unbox | userDefinedLogicOperator | using | yieldReturn
deriving DecidableEq, Repr

/-- What a visitor method does: it writes the node and visits its operands; or nothing at all; or it visits all operands but the last; or only the last. -/
inductive How where
  | whole
  | nothing
  | butLast
  | lastOnly
deriving DecidableEq, Repr

/-- The visitor methods, in the order of the file. -/
def how : Kind → How
  -- lines 1056-1059: nothing to write
  | .nop => .whole
  -- lines 402-431: of a call to a constructor nothing is written (`specialCallNames`, line 66; lines 419-420)
  | .call ctor => if ctor then .nothing else .whole
  -- lines 255-259, 317-339: the instructions of a block; its final instruction is not looked at
  | .block final => if final then .butLast else .whole
  -- lines 1324-1342: of a handler the body is visited, not the filter
  | .tryCatchHandler => .lastOnly
  -- lines 171-177, 189-253, 297-316, 387-400, 408-412, 578-585, 592-648, 660-667, 739-787, 819-900, 907-929, 936-962, 979-1000, 1022-1054, 1076-1099, 1116-1120, 1127-1203, 1262-1295, 1311-1361, 1383-1399
  | .addressOf | .binaryNumeric | .bitNot | .blockContainer | .box | .branch | .callVirt | .castClass | .comp | .conv | .defaultValue | .ifInstruction
  | .ldcF4 | .ldcF8 | .ldcI4 | .ldcI8 | .ldElema | .ldFlda | .ldLen | .ldLoc | .ldLoca | .ldNull | .ldObj | .ldsFlda | .ldStr | .leave | .newArr | .newObj
  | .numericCompoundAssign | .rethrow | .stLoc | .stObj | .switchInstruction | .switchSection | .throw | .tryCatch | .unboxAny => .whole
  -- lines 179-187, 573-576, 587-590, 650-658, 669-737, 789-817, 902-905, 931-934, 964-977, 1002-1020, 1061-1074, 1101-1114, 1122-1125, 1257-1260, 1301-1309, 1368-1381, 1415-1428: `return base.VisitX(inst);`
  | .arglist | .await | .callIndirect | .ckfinite | .cpblk | .debugBreak | .dynamicBinaryOperator | .dynamicCompoundAssign | .dynamicConvert
  | .dynamicGetIndex | .dynamicGetMember | .dynamicInvokeConstructor | .dynamicInvoke | .dynamicInvokeMember | .dynamicIsEvent | .dynamicLogicOperator
  | .dynamicSetIndex | .dynamicSetMember | .dynamicUnaryOperator | .expressionTreeCast | .ilFunction | .initblk | .invalidBranch | .invalidExpression
  | .isInst | .ldcDecimal | .ldFtn | .ldMemberToken | .ldTypeToken | .ldVirtDelegate | .ldVirtFtn | .locAlloc | .locAllocSpan | .lock | .makeRefAny
  | .nullableRewrap | .nullableUnwrap | .nullCoalescing | .pinnedRegion | .refAnyType | .refAnyValue | .sizeOf | .stringToInt | .threeValuedBoolAnd
  | .threeValuedBoolOr | .tryFault | .tryFinally | .unbox | .userDefinedLogicOperator | .using | .yieldReturn => .nothing

mutual
/-- An instruction with its operands; the numbers tell the instructions apart. -/
inductive Inst where
  | node (k : Kind) (id : Nat) (operands : Insts)
inductive Insts where
  | nil
  | cons (i : Inst) (r : Insts)
end

/-- Which of the operands' texts are written. -/
def pick {α : Type} : How → List α → List α
  | .whole, l => l
  | .nothing, _ => []
  | .butLast, l => l.dropLast
  | .lastOnly, l => l.getLast?.toList

/-- The node's own text is written. -/
def own : How → Bool
  | .nothing => false
  | _ => true

mutual
/-- `AcceptVisitor`: the instructions written, in order. -/
def visit : Inst → List Nat
  | .node k id f => (if own (how k) then [id] else []) ++ (pick (how k) (visits f)).flatten
def visits : Insts → List (List Nat)
  | .nil => []
  | .cons i r => visit i :: visits r
end

end Verif.Visit
