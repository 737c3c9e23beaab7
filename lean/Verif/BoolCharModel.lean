import Verif.StringModel
/-!
# Model of Boolean (/repo/DotNetLibrary/src/BooleanValue.cpp), Char (CharValue.cpp) and Object::ToString (Object.cpp)

A Char is its code unit (`Nat`); the C++ type is `wchar_t` (DotnetTypes.h line 40).
-/
namespace Verif.BCModel
open SBModel StrModel

/-- Object.cpp lines 38-43: `ToString()` through a virtual `FormatString` on a fresh 128-cell stack buffer whose
contents (`garbage`) are indeterminate. -/
def objToString (fmt : List Nat → Int → Res (List Nat × Int)) (garbage : List Nat) : Res WStr :=
  (fmt garbage 128) >>= fun r =>
    match poke r.1 r.2 [0] with
    | none => .ub
    | some m => newString m 0 r.2

/-! ## Boolean -/

/-- BooleanValue.cpp lines 22-25: the texts. -/
def trueString : WStr := w "True"
/-- BooleanValue.cpp lines 22-25: the texts. -/
def falseString : WStr := w "False"

/-- BooleanValue.cpp lines 63-71: `CompareTo(Boolean)`. -/
def boolCompareTo (value other : Bool) : Int := if value = other then 0 else if value = false then -1 else 1

/-- An `Object*` as far as Boolean and Char look at it: null, a boxed value of the same class, anything else. -/
inductive Boxed (α : Type) where
  | null
  | same (a : α)
  | other
  deriving DecidableEq, Repr

/-- BooleanValue.cpp lines 73-79: `CompareTo(Object*)`. -/
def boolCompareToObj (value : Bool) : Boxed Bool → Res Int
  | .null => .ok 1
  | .other => .throw .argument
  | .same b => .ok (boolCompareTo value b)

/-- BooleanValue.cpp lines 81-87: `Equals(Object*)`. -/
def boolEqualsObj (value : Bool) : Boxed Bool → Res Bool
  | .null => .ok false
  | .other => .ok false
  | .same b => .ok (b == value)

/-- BooleanValue.cpp lines 93-104: `FormatString`. -/
def boolFormat (value : Bool) (mem : List Nat) (whereSize : Int) : Res (List Nat × Int) :=
  if value then (copyChars mem whereSize (cells trueString) trueString.length) >>= fun m => .ok (m, (trueString.length : Int))
  else (copyChars mem whereSize (cells falseString) falseString.length) >>= fun m => .ok (m, (falseString.length : Int))

/-- `Boolean.ToString()`: Object.cpp lines 38-43 with the `FormatString` above. -/
def boolToString (value : Bool) (garbage : List Nat) : Res WStr := objToString (boolFormat value) garbage

/-- BooleanValue.cpp lines 105-115: `Parse`. `String::Compare` only looks at as many characters as `s` has. -/
def boolParse (L : Locale) (s : Option WStr) : Res Bool :=
  match s with
  | none => .throw .argument
  | some v =>
    (StrModel.compare L (some v) (some trueString) true) >>= fun r =>
      if r = 0 then .ok true
      else (StrModel.compare L (some v) (some falseString) true) >>= fun r =>
        if r = 0 then .ok false else .throw .format

/-! ## Char -/

/-- CharValue.cpp lines 58-60: `CompareTo(Char)`. -/
def charCompareTo (value other : Nat) : Int := (value : Int) - other

/-- CharValue.cpp lines 61-69: `CompareTo(Object*)`. -/
def charCompareToObj (value : Nat) : Boxed Nat → Res Int
  | .null => .ok 1
  | .other => .throw .argument
  | .same b => .ok ((value : Int) - b)

/-- CharValue.cpp lines 70-75: `Equals(Object*)`: no null test, so null is dereferenced. -/
def charEqualsObj (value : Nat) : Boxed Nat → Res Bool
  | .null => .ub
  | .other => .ok false
  | .same b => .ok (value == b)

/-- CharValue.cpp lines 76-78: `Equals(Char)`. -/
def charEquals (value other : Nat) : Bool := value == other

/-- CharValue.cpp lines 79-84: `FormatString`; no terminator is written. -/
def charFormat (value : Nat) (mem : List Nat) (whereSize : Int) : Res (List Nat × Int) :=
  if whereSize < 2 then .throw .indexOutOfRange
  else match poke mem 0 [value] with
    | none => .ub
    | some m => .ok (m, 1)

/-- CharValue.cpp lines 219-224: `ToString()`. -/
def charToString (value : Nat) (garbage : List Nat) : Res WStr := objToString (charFormat value) garbage

/-- CharValue.cpp lines 92-96: `GetNumericValue(Char)`; the result is a Double holding this integer. -/
def getNumericValue (c : Nat) : Int := if isDigit c then (c : Int) - 48 else -1

/-- The `(String*, Int32)` overloads of CharValue.cpp lines 85-91 and 97-192, which all have this body with `f` the
overload on one Char (IsControl, IsDigit, IsLetter, IsLetterOrDigit, IsLower, IsNumber, IsPunctuation, IsSeparator, IsUpper,
IsWhiteSpace, GetNumericValue). -/
def onStringAt {α : Type} (f : Nat → α) (v : Option WStr) (index : Int) : Res α :=
  match v with
  | none => .throw .argumentNull
  | some v =>
    if index ≥ v.length then .throw .argumentOutOfRange
    else (getChars v index) >>= fun c => .ok (f c)

/-- CharValue.cpp lines 193-201: `Parse`. -/
def charParse (s : Option WStr) : Res Nat :=
  match s with
  | none => .throw .argumentNull
  | some v => if v.length ≠ 1 then .throw .format else getChars v 0

/-- CharValue.cpp lines 208-218: `TryParse`: the answer and the value of `result`. -/
def charTryParse (s : Option WStr) : Res (Bool × Nat) :=
  match s with
  | none => .ok (false, 0)
  | some v => if v.length ≠ 1 then .ok (false, 0) else (getChars v 0) >>= fun c => .ok (true, c)

end Verif.BCModel
