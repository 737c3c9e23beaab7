import Verif.AllocModel
import Verif.TextModel
import Verif.TryModel
/-!
# Model: exception objects, running a translated module, the platform's data, the translator's log

DotNetLibrary/include/Exception.h lines 26-87, DotNetLibrarySupport/DotNetLibrarySupport.cpp, CppTranslator/CppTraceListener.cs, CppTranslator/Program.cs lines 48-75.
-/
namespace Verif.Support

/-! ## Exception objects -/

/-- An `Exception` object: Exception.h lines 29-30. Pointers are indices of the list of all exception objects, `none` is `nullptr`. -/
structure ExcObj where
  message : Option WStr
  inner : Option Nat
deriving DecidableEq, Repr

/-- The constructors: lines 36-39, 44-47, 53-56. -/
inductive Ctor where
  | plain
  | message (m : Option WStr)
  | full (m : Option WStr) (inner : Option Nat)
deriving DecidableEq, Repr

/-- `new Exception(...)`. -/
def construct : Ctor → ExcObj
  | .plain => { message := none, inner := none }
  | .message m => { message := m, inner := none }
  | .full m i => { message := m, inner := i }

/-- The objects after a sequence of constructions. -/
def build (cs : List Ctor) : List ExcObj := cs.map construct

/-- `get_Message()`, lines 61-63. -/
def getMessage (h : List ExcObj) (p : Nat) : Res (Option WStr) :=
  match h[p]? with
  | none => .ub
  | some o => .ok o.message

/-- `get_InnerException()`, lines 68-70. -/
def getInner (h : List ExcObj) (p : Nat) : Res (Option Nat) :=
  match h[p]? with
  | none => .ub
  | some o => .ok o.inner

/-- `GetBaseException()`, lines 75-77. -/
def getBase (h : List ExcObj) (p : Nat) : Res (Option Nat) :=
  match h[p]? with
  | none => .ub
  | some o => .ok o.inner

/-- The message a class of the library gives to `Exception(String*)`: Exception.h lines 89-197. `Exception()` itself gives none. -/
def libMessage : Try.Lib → Option WStr
  | .object | .exception => none
  | .indexOutOfRange => some (w "Index out of range")
  | .argumentNull => some (w "Arguement is null")
  | .rank => some (w "Rank exception")
  | .argumentOutOfRange => some (w "Arguement out of range")
  | .argument => some (w "Bad Arguement")
  | .notImplemented => some (w "Functionality not implemented")
  | .invalidCast => some (w "Invalid Cast")
  | .invalidOperation => some (w "Invalid Operation")
  | .format => some (w "Bad Format")
  | .overflow => some (w "Overflow")
  | .arithmetic => some (w "Overflow")
  | .divideByZero => some (w "Divide by Zero")

/-! ## Running -/

/-- How the translated `RunCode` ends: it returns, an exception object leaves it (its message), something else does (a C++ exception of the run-time system), or it has undefined behaviour. -/
inductive Ending where
  | returns
  | throws (message : Option WStr)
  | foreign
  | undefined
deriving DecidableEq, Repr

/-- What `RunCode` does: the messages it sends, in order, and its end. -/
structure Behaviour where
  sends : List (Option WStr)
  ending : Ending
deriving DecidableEq, Repr

/-- `printf("%ls\n", message->get_Buffer())`, DotNetLibrarySupport.cpp line 29: a null message is dereferenced; the characters up to the first NUL are printed and the line is ended; when one of them has no
multibyte form in the locale (`can` is false) `printf` fails: nothing is printed, not even the end of the line (glibc). -/
def send (can : Nat → Bool) (out : List WStr) : Option WStr → Res (List WStr)
  | none => .ub
  | some m => if (m.takeWhile (· != 0)).all can then .ok (out ++ [m.takeWhile (· != 0)]) else .ok out

/-- All messages in order. -/
def sendAll (can : Nat → Bool) : List WStr → List (Option WStr) → Res (List WStr)
  | out, [] => .ok out
  | out, m :: ms => send can out m >>= fun o => sendAll can o ms

/-- `Run()`, lines 36-45, after `PlatformSetup`: the lines on the console, and whether `Run` returns (true) or something leaves it. -/
def run (can : Nat → Bool) (b : Behaviour) : Res (List WStr × Bool) :=
  sendAll can [] b.sends >>= fun out =>
    match b.ending with
    | .returns => .ok (out, true)
    | .throws m => send can out m >>= fun o => .ok (o, true)
    | .foreign => .ok (out, false)
    | .undefined => .ub

/-! ## The platform's data -/

/-- The platform's array and double (lines 50, 63), the allocator, and the wrappers made so far. -/
structure Platform where
  data : List Int
  alloc : AllocModel.State
deriving Repr

/-- `new Array(arrayData, Int32Type, 4)` in `get_ArrayData`, lines 55-58: the wrapper is allocated (`size` is `sizeof(Array)`, positive), its elements are the platform's (Array.cpp lines 43-46). The pointer `operator new` returns is used
without a test: a null pointer is written to by the constructor. -/
def getArray (size : Nat) (p : Platform) : Res (Platform × AllocModel.Ptr) :=
  AllocModel.new p.alloc size true >>= fun r =>
    match r.2 with
    | .null => .ub
    | q => .ok ({ p with alloc := r.1 }, q)

/-- `ArrayData[i]`: an access to the property, then the element (Array.cpp `ComputeIndex`, lines 114-122: an index outside 0..3 throws). -/
def readElem (size : Nat) (p : Platform) (i : Int) : Res (Platform × Int) :=
  getArray size p >>= fun r =>
    if i < 0 then .throw .indexOutOfRange
    else match r.1.data[i.toNat]? with
      | none => .throw .indexOutOfRange
      | some v => .ok (r.1, v)

/-- `ArrayData[i] = v`. -/
def writeElem (size : Nat) (p : Platform) (i v : Int) : Res Platform :=
  getArray size p >>= fun r =>
    if i < 0 ∨ r.1.data.length ≤ i.toNat then .throw .indexOutOfRange
    else .ok { r.1 with data := r.1.data.set i.toNat v }

/-- An access to the platform's array. -/
inductive Acc where
  | read (i : Int)
  | write (i v : Int)
deriving DecidableEq, Repr

/-- A sequence of accesses, with the values read. -/
def accessAll (size : Nat) : Platform → List Acc → Res (Platform × List Int)
  | p, [] => .ok (p, [])
  | p, .read i :: r => readElem size p i >>= fun x => accessAll size x.1 r >>= fun y => .ok (y.1, x.2 :: y.2)
  | p, .write i v :: r => writeElem size p i v >>= fun x => accessAll size x r

/-- `arrayData`, line 50, and an allocator. -/
def platformStart (a : AllocModel.State) : Platform := { data := [1, 2, 3, 4], alloc := a }

/-! ## The translator's log -/

inductive Severity where
  | critical | error | warning | information | verbose
deriving DecidableEq, Repr

/-- `TraceEventType.ToString()`. -/
def Severity.text : Severity → WStr
  | .critical => w "Critical"
  | .error => w "Error"
  | .warning => w "Warning"
  | .information => w "Information"
  | .verbose => w "Verbose"

/-- `Trace.Listeners` (`none`: a listener of another class, `some path`: a CppTraceListener) and the text files. -/
structure Log where
  listeners : List (Option WStr)
  files : WStr → WStr

/-- `AddListener`, CppTraceListener.cs lines 110-120. -/
def addListener (pathToOutput : WStr) (l : Log) : Log :=
  if l.listeners.any (·.isSome) then l else { l with listeners := l.listeners ++ [some (pathToOutput ++ w ".err")] }

/-- The first CppTraceListener is taken out. -/
def removeFirst : List (Option WStr) → List (Option WStr)
  | [] => []
  | none :: r => none :: removeFirst r
  | some _ :: r => r

/-- `RemoveListener`, lines 125-136. -/
def removeListener (l : Log) : Log := { l with listeners := removeFirst l.listeners }

/-- `WriteTrace`, lines 71-80, with `WriteLine`, lines 59-65: the file is opened for appending. `now` is the text of `DateTime.Now`, `nl` the end of line. -/
def writeTrace (nl now : WStr) (s : Severity) (m : WStr) (path : WStr) (files : WStr → WStr) : WStr → WStr :=
  fun p => if p = path then files p ++ (now ++ w ": " ++ s.text ++ w " = " ++ m ++ nl) else files p

/-- A trace event reaches every listener in turn; only CppTraceListeners write to log files. -/
def traceTo (nl now : WStr) (s : Severity) (m : WStr) : List (Option WStr) → (WStr → WStr) → (WStr → WStr)
  | [], f => f
  | none :: r, f => traceTo nl now s m r f
  | some p :: r, f => traceTo nl now s m r (writeTrace nl now s m p f)

/-- What the translator does with its log. -/
inductive LogOp where
  | add (path : WStr)
  | remove
  | trace (now : WStr) (s : Severity) (m : WStr)
deriving DecidableEq, Repr

def logStep (nl : WStr) (l : Log) : LogOp → Log
  | .add p => addListener p l
  | .remove => removeListener l
  | .trace now s m => { l with files := traceTo nl now s m l.listeners l.files }

def logRun (nl : WStr) (l : Log) (ops : List LogOp) : Log := ops.foldl (logStep nl) l

/-- `Main`, Program.cs lines 48-75, as far as the log is concerned: `path` is `none` when `GetPathToAssembly` fails; `body` are the events traced by the rest, `failed` the text of the exception and its stack trace when one ends it. -/
def mainOps (path : Option WStr) (now : WStr) (body : List LogOp) (failed : Option (WStr × WStr)) : List LogOp :=
  let report (e : WStr × WStr) : List LogOp := [.trace now .error (w "Exception: " ++ e.1), .trace now .error (w "StackTrace: " ++ e.2)]
  match path with
  | none => (match failed with
    | some e => report e
    | none => [])
  | some p => .add p :: (body ++ (match failed with
    | some e => report e
    | none => [.remove]))

end Verif.Support
