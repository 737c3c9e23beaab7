import Verif.Prelude
/-!
# Model: exceptions in translated code

CppTranslator/MyIlInstructionVisitor.cs lines 1116-1120 (`rethrow`), 1311-1317 (`throw`), 1319-1361 (`try`/`catch`) and the exception classes of
DotNetLibrary/include/Exception.h. The body of a handler is taken to be one block (C102 says what happens to others); `finally` is C91's.
-/
namespace Verif.Try

/-- `Object` (the type of `catch { }` without a type) and the exception classes of Exception.h that .NET has too. -/
inductive Lib where
  | object | exception | indexOutOfRange | argumentNull | rank | argumentOutOfRange | argument | notImplemented | invalidCast | invalidOperation | format
  | overflow | arithmetic | divideByZero
deriving DecidableEq, Repr

/-- The C++ base class: Exception.h lines 89-197, every class is declared `: public Exception`; line 26, `Exception: public Object`. -/
def Lib.cppBase : Lib → Option Lib
  | .object => none
  | .exception => some .object
  | _ => some .exception

/-- An exception class: classes of the program, most derived first, each the base of the one before, on top of a library class. The translator keeps the
base class and makes it public (C85). -/
structure Cls where
  user : List Nat
  root : Lib
deriving DecidableEq, Repr

mutual
/-- Statements: an action (known by its number), `throw e` where `e` is an expression of static type `st` whose value is an
object of class `c`, `throw;`, sequence, `try` with handlers. -/
inductive Stmt where
  | skip
  | act (n : Nat)
  | throw (st c : Cls)
  | rethrow
  | seq (a b : Stmt)
  | tryCatch (body : Stmt) (hs : Handlers)
/-- `catch (T e) when (filter) { body }`; the filter, if there is one, is given by its value. -/
inductive Handlers where
  | nil
  | cons (type : Cls) (filter : Option Bool) (body : Stmt) (rest : Handlers)
end

mutual
/-- The C++ statements. -/
inductive Cpp where
  | skip
  | act (n : Nat)
  | throw (st c : Cls)
  | rethrow
  | seq (a b : Cpp)
  | tryCatch (body : Cpp) (hs : CppHandlers)
inductive CppHandlers where
  | nil
  | cons (type : Cls) (body : Cpp) (rest : CppHandlers)
end

mutual
/-- Lines 1116-1120, 1311-1317, 1319-1361. -/
def translate : Stmt → Cpp
  | .skip => .skip
  | .act n => .act n
  | .throw st c => .throw st c
  | .rethrow => .rethrow
  | .seq a b => .seq (translate a) (translate b)
  | .tryCatch b hs => .tryCatch (translate b) (translateHandlers hs)
/-- Lines 1322-1340: `catch (T* name) { ... }` for each handler in order; `handler.Filter` is not looked at. -/
def translateHandlers : Handlers → CppHandlers
  | .nil => .nil
  | .cons t _ b r => .cons t (translate b) (translateHandlers r)
end

end Verif.Try
