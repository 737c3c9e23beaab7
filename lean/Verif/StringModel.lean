import Verif.StringBuilderModel
/-!
# Model of String (/repo/DotNetLibrary/src/StringDotNet.cpp) and CharEnumerator (CharEnumerator.cpp)

A string value is the list of its characters; its memory block is those characters followed by one NUL cell
(`cells`). A `String*`/`Array*` argument is an `Option`, `none` being the null pointer. Where the code builds a
`StringBuilder`, the builder model (cell by cell) is used.

Simplifications: pointer identity only matters where the code compares pointers (then it is a parameter); freshly
allocated memory is zeroed (the global `operator new`, /repo/PlatformSupport/PlatformSupport.cpp lines 33-50), so the
constructor of lines 80-93 gives NULs for `chr == 0`; results that are `this` or a shared constant are represented by
their characters.
-/
namespace Verif.StrModel
open SBModel

/-- The memory block of a string: constructors of StringDotNet.cpp lines 32-52 and 73-78 put a NUL after the characters. -/
def cells (v : WStr) : List Nat := v ++ [0]

/-- StringDotNet.cpp lines 32-36: `String(const Char*)`, on the cells readable behind the pointer. -/
def newLiteral (mem : List Nat) : Res WStr :=
  match wcslen mem with
  | none => .ub
  | some k => .ok (mem.take k)

/-- StringDotNet.cpp lines 53-79: `String(Array*, startIndex, length)`. A null array with a negative length is
dereferenced in line 56. -/
def newFromArray (values : Option ArrArg) (startIndex length : Int) : Res WStr :=
  match values with
  | none => if length < 0 then .ub else .ok []
  | some a =>
    let n := if length < 0 then (a.data.length : Int) else length
    if n = 0 then .ok []
    else
      let start := if startIndex < 0 then 0 else startIndex
      if n > a.data.length - start then .throw .argumentOutOfRange
      else if a.isChar = false then .throw .argumentOutOfRange
      else if a.oneDim = false then .throw .rank
      else .ok ((a.data.drop start.toNat).take n.toNat)

/-- StringDotNet.cpp lines 80-93: `String(Char, amount)`; `length + 1` overflows for the largest amount. -/
def newRepeat (c : Nat) (amount : Int) : Res WStr :=
  if amount < 0 then .throw .argumentOutOfRange
  else (i32 (amount + 1)) >>= fun _ => .ok (List.replicate amount.toNat c)

/-- StringDotNet.cpp lines 99-106: `get_Chars`/`Address`. -/
def getChars (v : WStr) (i : Int) : Res Nat :=
  if i < 0 ∨ i ≥ v.length then .throw .indexOutOfRange
  else match v[i.toNat]? with
    | some c => .ok c
    | none => .ub

/-- The loop of StringDotNet.cpp lines 113-131 on the cells behind the two pointers; reading past a block is `ub`. -/
def cmpLoop (L : Locale) (ignoreCase ordinal : Bool) : List Nat → List Nat → Nat → Res Int
  | _, _, 0 => .ok 0
  | a :: s, b :: t, n + 1 =>
    let c1 := if ignoreCase then L.toLower a else a
    let c2 := if ignoreCase then L.toLower b else b
    if ignoreCase = false ∧ ordinal = false ∧ L.isUpper c1 ∧ L.isLower c2 then .ok 1
    else if ignoreCase = false ∧ ordinal = false ∧ L.isUpper c2 ∧ L.isLower c1 then .ok (-1)
    else if c1 = 0 ∨ c1 ≠ c2 then .ok (if c1 > c2 then 1 else if c1 < c2 then -1 else 0)
    else cmpLoop L ignoreCase ordinal s t n
  | _, _, _ + 1 => .ub

/-- StringDotNet.cpp lines 107-133: `Compare(Char*, index, Char*, index, length, ignoreCase, ordinal)`. A pointer
outside its block is `ub`. -/
def compareAt (L : Locale) (s1 : WStr) (i1 : Int) (s2 : WStr) (i2 length : Int) (ignoreCase ordinal : Bool) : Res Int :=
  if i1 < 0 ∨ i1 > v1 ∨ i2 < 0 ∨ i2 > v2 then .ub
  else cmpLoop L ignoreCase ordinal ((cells s1).drop i1.toNat) ((cells s2).drop i2.toNat) length.toNat
where
  v1 : Int := (cells s1).length
  v2 : Int := (cells s2).length

/-- StringDotNet.cpp lines 134-136: `Compare(s1, s2, ignoreCase)`; null pointers are dereferenced. -/
def compare (L : Locale) (s1 s2 : Option WStr) (ignoreCase : Bool) : Res Int :=
  match s1, s2 with
  | some a, some b => compareAt L a 0 b 0 a.length ignoreCase false
  | _, _ => .ub

/-- StringDotNet.cpp lines 141-143: `CompareOrdinal(s1, s2)`. -/
def compareOrdinal (L : Locale) (s1 s2 : Option WStr) : Res Int :=
  match s1, s2 with
  | some a, some b => compareAt L a 0 b 0 a.length false true
  | _, _ => .ub

/-- An `Object*` as far as String looks at it. -/
inductive Obj where
  | null
  | str (v : WStr)
  | other
  deriving DecidableEq, Repr

/-- StringDotNet.cpp lines 155-159: `CompareTo(String*)`. -/
def compareTo (L : Locale) (v : WStr) (s : Option WStr) : Res Int :=
  match s with
  | none => .ok 1
  | some b => compare L (some v) (some b) false

/-- StringDotNet.cpp lines 147-154: `CompareTo(Object*)`: line 152 drops the result, line 153 returns 0. -/
def compareToObj (L : Locale) (v : WStr) : Obj → Res Int
  | .null => .ok 1
  | .other => .throw .argument
  | .str b => (compareTo L v (some b)) >>= fun _ => .ok 0

/-- StringDotNet.cpp lines 238-246: `op_Inequality`. The pointer test of line 239 only shortens the case of one and the
same string; for two nulls it decides. -/
def opInequality (s1 s2 : Option WStr) : Res Bool :=
  match s1, s2 with
  | none, none => .ok false
  | some a, some b =>
    if a.length ≠ b.length then .ok true
    else match wcsEq (cells a) (cells b) with
      | none => .ub
      | some e => .ok (!e)
  | _, _ => .ok true

/-- StringDotNet.cpp lines 252-254, 265-267: `Equals(String*)`, `Equals(String*, String*)`. -/
def equals (s1 s2 : Option WStr) : Res Bool := (opInequality s1 s2) >>= fun b => .ok (!b)

/-- StringDotNet.cpp lines 247-251, 255-264: `Equals` with an `Object*`. -/
def equalsObj (s1 : Option WStr) : Obj → Res Bool
  | .str b => equals s1 (some b)
  | _ => .ok false

/-- An object array handed to Concat/Join: whether its elements are references, its rank, and the texts its elements'
`ToString` gives (`none` = null element). -/
structure ObjArr where
  refs : Bool
  oneDim : Bool
  items : List (Option WStr)
  deriving DecidableEq, Repr

/-- Result of building: `sb.ToString()` when the calls before it returned. -/
def build : Out → Res WStr
  | .done s => toStr s
  | .threw e _ => .throw e
  | .ub => .ub

/-- StringBuilder.cpp lines 255-257 as used below: `Append(Object*)` appends the object's text; a null object is
dereferenced. -/
def appendObj (s : SB) : Option WStr → Out
  | none => .ub
  | some t => appendStr s (some t) 0 (-1)

/-- The loop of StringDotNet.cpp lines 167-168. -/
def concatLoop : List (Option WStr) → SB → Out
  | [], s => .done s
  | o :: t, s => (appendObj s o).andThen (concatLoop t)

/-- StringDotNet.cpp lines 160-170: `Concat(Array*)`. `Array::GetRawDataType` (Array.h line 148) is `ObjectType` for
every array, so an array of values that are not references passes line 164 and its elements are used as pointers. -/
def concatArray (values : Option ObjArr) : Res WStr :=
  match values with
  | none => .throw .argumentNull
  | some a =>
    if a.oneDim = false then .throw .rank
    else if a.refs = false ∧ a.items ≠ [] then .ub
    else build (concatLoop a.items initial)

/-- Lines 176-187: an optional operand. -/
def appendOptional (s : SB) : Option WStr → Out
  | none => .done s
  | some t => appendStr s (some t) 0 (-1)

/-- The operands 2..7 of StringDotNet.cpp lines 176-187. -/
def concatRest : List (Option WStr) → SB → Out
  | [], s => .done s
  | o :: t, s => (appendOptional s o).andThen (concatRest t)

/-- StringDotNet.cpp lines 171-189: `Concat(o1, ..., o7)` for a first operand and up to six more. -/
def concat (o1 : Option WStr) (rest : List (Option WStr)) : Res WStr :=
  match o1 with
  | none => .throw .argumentNull
  | some t => build ((appendStr initial (some t) 0 (-1)).andThen (concatRest rest))

/-- `StringBuilder sb(this)`: StringBuilder.cpp lines 49-50. -/
def sbOf (v : WStr) : Out := createFrom (some v) 0 v.length 128

/-- `sb.CountSubStrings(what, start, len) != 0` on a builder made from `v` (a null `what` is dereferenced). -/
def countNonZero (v : WStr) (what : Option WStr) (start len : Int) : Res Bool :=
  match sbOf v with
  | .threw e _ => .throw e
  | .ub => .ub
  | .done s =>
    match what with
    | none => .ub
    | some p => (countSubStrings s p start len) >>= fun n => .ok (n != 0)

/-- StringDotNet.cpp lines 190-193: `Contains`. -/
def contains (v : WStr) (what : Option WStr) : Res Bool := countNonZero v what 0 v.length

/-- StringDotNet.cpp lines 219-231: `EndsWith(String*)`; `same` says that the argument is this very object. -/
def endsWith (v : WStr) (what : Option WStr) (same : Bool) : Res Bool :=
  match what with
  | none => .throw .argumentNull
  | some p =>
    if same then .ok true
    else if p.length = 0 then .ok true
    else countNonZero v (some p) (v.length - p.length) p.length

/-- StringDotNet.cpp lines 509-521: `StartsWith(String*)`. -/
def startsWith (v : WStr) (what : Option WStr) (same : Bool) : Res Bool :=
  match what with
  | none => .throw .argumentNull
  | some p =>
    if same then .ok true
    else if p.length = 0 then .ok true
    else countNonZero v (some p) 0 p.length

/-- StringDotNet.cpp lines 232-237: `EndsWith(Char)`. -/
def endsWithChar (v : WStr) (c : Nat) : Res Bool :=
  if (v.length : Int) - 1 < 0 then .ok false
  else match v[v.length - 1]? with
    | some d => .ok (d == c)
    | none => .ub

/-- StringDotNet.cpp lines 194-198: `Copy`. -/
def copy (s : Option WStr) : Res WStr :=
  match s with
  | none => .throw .argumentNull
  | some v => newString (cells v) 0 v.length

/-- StringDotNet.cpp lines 199-218: `CopyTo`; the result is the new content of the destination array. -/
def copyTo (v : WStr) (sourceIndex : Int) (dest : Option ArrArg) (destIndex count : Int) : Res WStr :=
  match dest with
  | none => .throw .argumentNull
  | some a =>
    if a.oneDim = false then .throw .rank
    else if a.isChar = false then .throw .argumentNull
    else if count < 0 then .throw .argumentNull
    else if sourceIndex < 0 then .throw .argumentNull
    else if count > v.length - sourceIndex then .throw .argumentNull
    else if destIndex > a.data.length - count ∨ destIndex < 0 then .throw .argumentNull
    else if sourceIndex ≥ v.length then .throw .indexOutOfRange
    else if destIndex ≥ a.data.length then .throw .indexOutOfRange
    else match peek (cells v) sourceIndex count with
      | none => .ub
      | some xs => match poke a.data destIndex xs with
        | none => .ub
        | some d => .ok d

/-- The loop of StringDotNet.cpp lines 281-284, `n` iterations from `i` up. -/
def indexLoop (p : Nat → Bool) (v : WStr) : Nat → Int → Res Int
  | 0, _ => .ok (-1)
  | n + 1, i => (getChars v i) >>= fun c => if p c then .ok i else indexLoop p v n (i + 1)

/-- StringDotNet.cpp lines 277-286: `IndexOf(Char, startIndex, count)`. -/
def indexOf (v : WStr) (c : Nat) (startIndex count : Int) : Res Int :=
  (i32 (v.length - startIndex)) >>= fun room =>
  if count > room then .throw .argumentNull
  else (i32 (startIndex + count)) >>= fun endIndex =>
    indexLoop (fun d => d == c) v (endIndex - startIndex).toNat startIndex

/-- StringDotNet.cpp lines 271-273: `IndexOf(Char)`. -/
def indexOf0 (v : WStr) (c : Nat) : Res Int := indexOf v c 0 v.length

/-- StringDotNet.cpp lines 274-276: `IndexOf(Char, startIndex)`. -/
def indexOf1 (v : WStr) (c : Nat) (startIndex : Int) : Res Int :=
  (i32 (v.length - startIndex)) >>= fun n => indexOf v c startIndex n

/-- ISO C `wcsstr` on the texts before the first NUL: offset of the first occurrence of `needle` in `hay`. -/
def findText (hay needle : WStr) : Option Nat :=
  if needle <+: hay then some 0
  else match hay with
    | [] => none
    | _ :: t => (findText t needle).map (· + 1)

/-- The text a `Char*` denotes: the cells before the first NUL. -/
def cText (mem : List Nat) : WStr := mem.takeWhile (· ≠ 0)

/-- StringDotNet.cpp lines 297-310: `IndexOf(String*, startIndex, count)`. Line 302 keeps `startIndex` within the block. -/
def indexOfStr (v : WStr) (value : Option WStr) (startIndex count : Int) : Res Int :=
  match value with
  | none => .throw .argumentNull
  | some p =>
    if startIndex < 0 ∨ count < 0 then .throw .argumentNull
    else if count > v.length - startIndex then .throw .argumentNull
    else match findText (cText ((cells v).drop startIndex.toNat)) (cText (cells p)) with
      | none => .ok (-1)
      | some k =>
        let delta : Int := startIndex + k
        .ok (if delta > startIndex + count then -1 else delta)

/-- StringDotNet.cpp lines 287-291: `IndexOf(String*)`. -/
def indexOfStr0 (v : WStr) (value : Option WStr) : Res Int :=
  match value with
  | none => .throw .argumentNull
  | some p => indexOfStr v (some p) 0 v.length

/-- StringDotNet.cpp lines 292-296: `IndexOf(String*, startIndex)`. -/
def indexOfStr1 (v : WStr) (value : Option WStr) (startIndex : Int) : Res Int :=
  match value with
  | none => .throw .argumentNull
  | some p => (i32 (v.length - startIndex)) >>= fun n => indexOfStr v (some p) startIndex n

/-- StringDotNet.cpp lines 321-341: `IndexOfAny(Array*, startIndex, count)`; the inner loop (lines 333-338) asks whether
the character is an element of the array (the order of the elements does not matter to the result). -/
def indexOfAny (v : WStr) (arr : Option ArrArg) (startIndex count : Int) : Res Int :=
  match arr with
  | none => .throw .argumentNull
  | some a =>
    if startIndex < 0 ∨ count < 0 then .throw .argumentNull
    else if count > v.length - startIndex then .throw .argumentNull
    else if a.oneDim = false then .throw .rank
    else if a.isChar = false then .throw .argumentNull
    else indexLoop (fun d => a.data.contains d) v count.toNat startIndex

/-- StringDotNet.cpp lines 342-350: `Insert`. -/
def insert (v : WStr) (startIndex : Int) (value : Option WStr) : Res WStr :=
  match value with
  | none => .throw .argumentNull
  | some p =>
    if startIndex < 0 ∨ startIndex > v.length then .throw .argumentOutOfRange
    else build ((sbOf v).andThen fun s => insertStr s startIndex (some p) 1)

/-- StringDotNet.cpp lines 351-353. -/
def isNullOrEmpty (s : Option WStr) : Bool :=
  match s with
  | none => true
  | some v => v.length == 0

/-- StringDotNet.cpp lines 354-362. -/
def isNullOrWhiteSpace (L : Locale) (s : Option WStr) : Bool :=
  if isNullOrEmpty s then true else (s.getD []).all L.isSpace

/-- The loop of StringDotNet.cpp lines 382-387 / 409-414; `sep` appends the separator. -/
def joinLoop (sep : SB → Out) : Bool → List (Option WStr) → SB → Out
  | _, [], s => .done s
  | isFirst, o :: t, s =>
    (if isFirst then .done s else sep s).andThen fun s => (appendObj s o).andThen (joinLoop sep false t)

/-- StringDotNet.cpp lines 363-389 and 390-416 (`Join`); `sep` appends the separator. -/
def joinWith (sep : SB → Out) (values : Option ObjArr) (startIndex count : Int) : Res WStr :=
  match values with
  | none => .throw .argumentNull
  | some a =>
    if a.items.length = 0 then .ok []
    else if a.oneDim = false then .throw .rank
    else if startIndex < 0 then .throw .argumentNull
    else
      let n := if count < 0 then (a.items.length : Int) - startIndex else count
      if n > a.items.length - startIndex then .throw .argumentNull
      else if 0 < n ∧ a.refs = false then .ub
      else build (joinLoop sep true ((a.items.drop startIndex.toNat).take n.toNat) initial)

/-- StringDotNet.cpp lines 363-389: `Join(Char, Array*, startIndex, count)`. -/
def joinChar (c : Nat) : Option ObjArr → Int → Int → Res WStr := joinWith fun s => appendChar s c 1

/-- StringDotNet.cpp lines 390-416: `Join(String*, Array*, startIndex, count)`. -/
def joinStr (sep : Option WStr) : Option ObjArr → Int → Int → Res WStr := joinWith fun s => appendStr s sep 0 (-1)

/-- The loop of StringDotNet.cpp lines 423-426, `n` iterations from `i` down. -/
def lastLoop (p : Nat → Bool) (v : WStr) : Nat → Int → Res Int
  | 0, _ => .ok (-1)
  | n + 1, i => (getChars v i) >>= fun c => if p c then .ok i else lastLoop p v n (i - 1)

/-- StringDotNet.cpp lines 418-422: the defaults of the backward searches: effective start and number of steps. -/
def lastRange (v : WStr) (startIndex count : Int) : Res (Int × Nat) :=
  let start := if startIndex < 0 then (v.length : Int) - 1 else startIndex
  (if count < 0 then i32 (start + 1) else .ok count) >>= fun n =>
  .ok (start, n.toNat)

/-- StringDotNet.cpp lines 417-428: `LastIndexOf(Char, startIndex, count)`. -/
def lastIndexOf (v : WStr) (c : Nat) (startIndex count : Int) : Res Int :=
  (lastRange v startIndex count) >>= fun r => lastLoop (fun d => d == c) v r.2 r.1

/-- The loop of StringDotNet.cpp lines 437-444, `n` iterations from `i` down. A pointer outside the block is `ub`. -/
def lastStrLoop (v p : WStr) (start : Int) : Nat → Int → Res Int
  | 0, _ => .ok (-1)
  | n + 1, i =>
    if i < 0 ∨ i > v.length then .ub
    else match findText (cText ((cells v).drop i.toNat)) (cText (cells p)) with
      | none => lastStrLoop v p start n (i - 1)
      | some k => if i + k ≤ start then .ok (i + k) else lastStrLoop v p start n (i - 1)

/-- StringDotNet.cpp lines 429-446: `LastIndexOf(String*, startIndex, count)`. -/
def lastIndexOfStr (v : WStr) (value : Option WStr) (startIndex count : Int) : Res Int :=
  match value with
  | none => .throw .argumentNull
  | some p => (lastRange v startIndex count) >>= fun r => lastStrLoop v p r.1 r.2 r.1

/-- StringDotNet.cpp lines 447-467: `LastIndexOfAny`. With an empty array the inner loop of lines 459-464 never calls
`get_Chars`, so no index is checked. -/
def lastIndexOfAny (v : WStr) (arr : Option ArrArg) (startIndex count : Int) : Res Int :=
  match arr with
  | none => .throw .argumentNull
  | some a => (lastRange v startIndex count) >>= fun r =>
    if a.oneDim = false then .throw .rank
    else if a.isChar = false then .throw .argumentNull
    else if a.data = [] then .ok (-1)
    else lastLoop (fun d => a.data.contains d) v r.2 r.1

/-- StringDotNet.cpp lines 468-479: `PadLeft`; `new StringBuilder(length + width)`. -/
def padLeft (v : WStr) (width : Int) (c : Nat) : Res WStr :=
  if width < 0 then .throw .argumentOutOfRange
  else if width - v.length ≤ 0 then .ok v
  else (i32 (v.length + width)) >>= fun capacity =>
    build ((create capacity maximumCapacity).andThen fun s =>
      (appendChar s c (width - v.length)).andThen fun s => appendStr s (some v) 0 (-1))

/-- StringDotNet.cpp lines 480-491: `PadRight`. -/
def padRight (v : WStr) (width : Int) (c : Nat) : Res WStr :=
  if width < 0 then .throw .argumentOutOfRange
  else if width - v.length ≤ 0 then .ok v
  else (i32 (v.length + width)) >>= fun capacity =>
    build ((create capacity maximumCapacity).andThen fun s =>
      (appendStr s (some v) 0 (-1)).andThen fun s => appendChar s c (width - v.length))

/-- StringDotNet.cpp lines 492-498: `Remove`. `ov`: see `SBModel.remove`. -/
def remove (ov : Bool) (v : WStr) (startIndex count : Int) : Res WStr :=
  match sbOf v with
  | .threw e _ => .throw e
  | .ub => .ub
  | .done s => (if count < 0 then i32 (v.length - startIndex) else .ok count) >>= fun n =>
    build (SBModel.remove ov s startIndex n)

/-- StringDotNet.cpp lines 499-503: `Replace(Char, Char)`. -/
def replaceChar (v : WStr) (old new : Nat) : Res WStr :=
  build ((sbOf v).andThen fun s => SBModel.replaceChar s old new 0 s.len)

/-- StringDotNet.cpp lines 504-508: `Replace(String*, String*)`. -/
def replaceStr (v : WStr) (old new : Option WStr) : Res WStr :=
  build ((sbOf v).andThen fun s => SBModel.replaceStr s old new 0 s.len)

/-- StringDotNet.cpp lines 522-542: `Substring(startIndex, length)`. -/
def substring (v : WStr) (startIndex length : Int) : Res WStr :=
  if startIndex < 0 then .throw .argumentOutOfRange
  else if startIndex > v.length then .throw .argumentOutOfRange
  else
    let n := if length < 0 then (v.length : Int) - startIndex else length
    if startIndex > v.length - n then .throw .argumentOutOfRange
    else if n = 0 then .ok []
    else if startIndex = 0 ∧ n = v.length then .ok v
    else newString (cells v) startIndex n

/-- The loop of StringDotNet.cpp lines 556-558. -/
def charLoop (v : WStr) : Nat → Int → Res WStr
  | 0, _ => .ok []
  | n + 1, i => (getChars v i) >>= fun c => (charLoop v n (i + 1)) >>= fun t => .ok (c :: t)

/-- StringDotNet.cpp lines 543-560: `ToCharArray(startIndex, length)`. A negative array size (line 554) does not lead to
any managed exception; it is `ub` here. -/
def toCharArray (v : WStr) (startIndex length : Int) : Res WStr :=
  if startIndex < 0 then .throw .argumentOutOfRange
  else
    let n := if length < 0 then (v.length : Int) - startIndex else length
    if startIndex > v.length - n then .throw .argumentOutOfRange
    else if n < 0 then .ub
    else charLoop v n.toNat startIndex

/-- The loop of StringDotNet.cpp lines 566-568 / 583-585: `n` iterations reading `src` and writing `dst` at offset `i`. -/
def caseLoop (f : Nat → Nat) (src : List Nat) : Nat → Int → List Nat → Res (List Nat)
  | 0, _, dst => .ok dst
  | n + 1, i, dst =>
    match peek src i 1 with
    | some [c] => match poke dst i [f c] with
      | some d => caseLoop f src n (i + 1) d
      | none => .ub
    | _ => .ub

/-- StringDotNet.cpp lines 561-571 / 578-588: allocate a string of `length` NULs, write the mapped characters, write the
terminator; the result's characters are the first `length` cells. -/
def mapCase (f : Nat → Nat) (v : WStr) : Res WStr :=
  (newRepeat 0 v.length) >>= fun fresh =>
  (caseLoop f (cells v) v.length 0 (cells fresh)) >>= fun dst =>
  match poke dst v.length [0] with
  | none => .ub
  | some d => .ok (d.take v.length)

/-- StringDotNet.cpp lines 561-574: `ToLower`, `ToLowerInvariant`. -/
def toLower (L : Locale) (v : WStr) : Res WStr := mapCase L.toLower v

/-- StringDotNet.cpp lines 578-591: `ToUpper`, `ToUpperInvariant`. -/
def toUpper (L : Locale) (v : WStr) : Res WStr := mapCase L.toUpper v

/-- StringDotNet.cpp lines 27-30. -/
def whiteSpaceChars : WStr :=
  [0x9, 0xA, 0xB, 0xC, 0xD, 0x20, 0xA0, 0x2000, 0x2001, 0x2002, 0x2003, 0x2004, 0x2005, 0x2006, 0x2007, 0x2008,
   0x2009, 0x200A, 0x200B, 0x3000, 0xFEFF]

/-- StringDotNet.cpp lines 645-651: `IsWhiteSpace(value, separators, size)`. -/
def isWhiteSpace (c : Nat) : WStr → Bool
  | [] => false
  | d :: t => if c = d then true else isWhiteSpace c t

/-- The loop of StringDotNet.cpp lines 630-634: the first index from `i` whose character is no separator, at most the
length (`n` iterations left). -/
def trimStartLoop (v sep : WStr) : Nat → Int → Res Int
  | 0, i => .ok i
  | n + 1, i => (getChars v i) >>= fun c => if isWhiteSpace c sep then trimStartLoop v sep n (i + 1) else .ok i

/-- The loop of StringDotNet.cpp lines 637-641, downwards (`n` iterations left). -/
def trimEndLoop (v sep : WStr) : Nat → Int → Res Int
  | 0, i => .ok i
  | n + 1, i => (getChars v i) >>= fun c => if isWhiteSpace c sep then trimEndLoop v sep n (i - 1) else .ok i

/-- StringDotNet.cpp lines 625-644: `TrimHelper(Char*, size, trimStart, trimEnd)`. -/
def trimHelper (v sep : WStr) (atStart atEnd : Bool) : Res WStr :=
  (if atStart then trimStartLoop v sep v.length 0 else .ok 0) >>= fun start =>
  (if atEnd then trimEndLoop v sep (v.length - start).toNat (v.length - 1) else .ok ((v.length : Int) - 1)) >>= fun last =>
  newString (cells v) start (last - start + 1)

/-- StringDotNet.cpp lines 592-624: `Trim()`, `Trim(Array*)`, `TrimStart(Array*)`, `TrimEnd(Array*)`: `none` or an empty
array stands for the white-space table. Lines 601-604 check the element type before the rank. -/
def trim (v : WStr) (sep : Option ArrArg) (atStart atEnd : Bool) : Res WStr :=
  match sep with
  | none => trimHelper v whiteSpaceChars atStart atEnd
  | some a =>
    if a.data.length = 0 then trimHelper v whiteSpaceChars atStart atEnd
    else if a.isChar = false then .throw .argumentOutOfRange
    else if a.oneDim = false then .throw .rank
    else trimHelper v a.data atStart atEnd

/-- StringDotNet.cpp lines 658-663: `CopyChars(where, whereSize, source, sourceSize)` where `mem` is the destination block
and `src` the cells readable behind `source`; the result is the block afterwards. A negative byte count is `ub`. -/
def copyChars (mem : List Nat) (whereSize : Int) (src : List Nat) (sourceSize : Int) : Res (List Nat) :=
  let n := if sourceSize > whereSize then whereSize - 1 else sourceSize
  match peek src 0 n with
  | none => .ub
  | some xs => match poke mem 0 xs with
    | none => .ub
    | some m => match poke m n [0] with
      | none => .ub
      | some m => .ok m

/-- StringDotNet.cpp lines 652-657: `FormatString`: the block afterwards and the reported length. -/
def formatString (v : WStr) (mem : List Nat) (whereSize : Int) : Res (List Nat × Int) :=
  if whereSize < v.length then .throw .indexOutOfRange
  else (copyChars mem whereSize (cells v) v.length) >>= fun m => .ok (m, (v.length : Int))

/-! ## CharEnumerator -/

/-- The data members of CharEnumerator (CharEnumerator.h lines 29-31). The string is the enumerated one. -/
structure Enum where
  index : Int
  cur : Nat
  deriving DecidableEq, Repr

/-- CharEnumerator.cpp lines 22-26. -/
def Enum.new : Enum := ⟨-1, 0⟩

/-- CharEnumerator.cpp lines 27-33: `get_Current`. -/
def Enum.current (v : WStr) (e : Enum) : Res Nat :=
  if e.index = -1 then .throw .invalidOperation
  else if e.index ≥ v.length then .throw .invalidOperation
  else .ok e.cur

/-- CharEnumerator.cpp lines 34-43: `MoveNext`. -/
def Enum.moveNext (v : WStr) (e : Enum) : Res (Bool × Enum) :=
  if e.index < (v.length : Int) - 1 then
    (getChars v (e.index + 1)) >>= fun c => .ok (true, ⟨e.index + 1, c⟩)
  else .ok (false, ⟨v.length, e.cur⟩)

/-- CharEnumerator.cpp lines 44-47: `Reset`. -/
def Enum.reset (_ : Enum) : Enum := ⟨-1, 0⟩

end Verif.StrModel
