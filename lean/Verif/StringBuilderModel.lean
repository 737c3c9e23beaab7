import Verif.TextModel
/-!
# Model of StringBuilder (/repo/DotNetLibrary/src/StringBuilder.cpp)

The builder's memory is modelled cell by cell: every read and write is checked against the size of the block the code
allocated, and an access outside it is the distinct outcome `ub`. Exceptions carry the state the object is left in.

Simplifications: allocation always succeeds (no `bad_alloc`), deallocation is not modelled, a `String*`/`Char*` argument
never points into the builder's own buffer, and the object's other base-class members are ignored.
-/
namespace Verif.SBModel

/-- StringBuilder.h line 25: `MaximumCapacity` = `Int32Value::MaxValue`. -/
def maximumCapacity : Int := 2147483647

/-- The data members of StringBuilder.h lines 35-39. `buf` is the memory block `chunkChars` points to: `internalMemory`
(129 cells) when `internal`, else the heap block of `currentCapacity+1` cells. `currentLength` and `currentCapacity` are
`Int32` in the source; they are only ever assigned values checked to be non-negative, hence `Nat` here. -/
structure SB where
  buf : List Nat
  len : Nat
  cap : Nat
  internal : Bool
  maxCap : Int
  deriving DecidableEq, Repr

/-- What a mutating call does: return normally, throw leaving the object in a state, or undefined behaviour. -/
inductive Out where
  | done (s : SB)
  | threw (e : Exc) (s : SB)
  | ub
  deriving DecidableEq, Repr

/-- Statement sequencing. -/
def Out.andThen : Out → (SB → Out) → Out
  | .done s, f => f s
  | .threw e s, _ => .threw e s
  | .ub, _ => .ub

theorem andThen_done (s : SB) (f : SB → Out) : (Out.done s).andThen f = f s := Eq.trans rfl rfl

/-- Reading `n` cells from offset `i`; `none` when any of them lies outside the block. -/
def peek (buf : List Nat) (i n : Int) : Option (List Nat) :=
  if 0 ≤ i ∧ 0 ≤ n ∧ i + n ≤ buf.length then some ((buf.drop i.toNat).take n.toNat) else none

/-- Writing the cells `xs` from offset `i`; `none` when any of them lies outside the block. -/
def poke (buf : List Nat) (i : Int) (xs : List Nat) : Option (List Nat) :=
  if 0 ≤ i ∧ i + xs.length ≤ buf.length then
    some (buf.take i.toNat ++ xs ++ buf.drop (i.toNat + xs.length))
  else none

/-- `memmove(&buf[d], &buf[i], n)`. -/
def move (buf : List Nat) (d i n : Int) : Option (List Nat) :=
  match peek buf i n with
  | none => none
  | some xs => poke buf d xs

/-- Continue with the new block, or undefined behaviour. -/
def withBuf (b : Option (List Nat)) (k : List Nat → Out) : Out :=
  match b with
  | none => .ub
  | some b => k b

/-- StringBuilder.cpp lines 81-87 (`Initialize`). -/
def initial : SB :=
  { buf := List.replicate 129 0, len := 0, cap := 128, internal := true, maxCap := maximumCapacity }

/-- The rounding of StringBuilder.cpp lines 132-135 for a non-negative capacity. -/
def roundUp (c : Int) : Int := if c % 128 > 0 then c / 128 * 128 + 128 else c / 128 * 128

/-- StringBuilder.cpp lines 116-143 (`set_Capacity`). The signed overflow of line 135 and of `capacity + 1` in line 136
is `ub`. The fresh block is zeroed by the global `operator new` (/repo/PlatformSupport/PlatformSupport.cpp lines 33-50).
Line 130 (falling back to `internalMemory`) with a heap block in use cannot happen (a heap block has at least 256 cells)
and is `ub` here. -/
def setCapacity (s : SB) (c : Int) : Out :=
  if c < 0 then .threw .argumentOutOfRange s
  else if c > s.maxCap then .threw .argumentOutOfRange s
  else if s.internal = false ∧ c < s.cap then .threw .argumentOutOfRange s
  else if (s.cap : Int) ≥ c then .done { s with cap := c.toNat }
  else if c > 128 then
    if roundUp c + 1 > 2147483647 then .ub
    else match peek s.buf 0 s.len with
      | none => .ub
      | some xs =>
        withBuf (poke (List.replicate (roundUp c + 1).toNat 0) 0 xs) fun b =>
          .done { s with buf := b, cap := (roundUp c).toNat, internal := false }
  else if s.internal then .done { s with cap := c.toNat }
  else .ub

/-- StringBuilder.cpp lines 318-326 (`EnsureCapacity`; the returned capacity is the field `cap` afterwards). -/
def ensureCapacity (s : SB) (c : Int) : Out :=
  if c < 0 then .threw .argumentOutOfRange s
  else if (s.cap : Int) < c then setCapacity s c
  else .done s

/-- StringBuilder.cpp lines 315-317 (`EnsureRoomFor`): the Int32 sum may overflow. -/
def ensureRoomFor (s : SB) (amount : Int) : Out :=
  if ¬ I32 (s.len + amount) then .ub else ensureCapacity s (s.len + amount)

/-- StringBuilder.cpp lines 27-48, with 23-26 as instances (`new StringBuilder(capacity, maxCapacity)`). -/
def create (capacity maxCapacity : Int) : Out :=
  if capacity > maxCapacity then .threw .argumentOutOfRange initial
  else if maxCapacity < 1 then .threw .argumentOutOfRange initial
  else if capacity < 0 then .threw .argumentOutOfRange initial
  else
    let c := if capacity = 0 then (if (128 : Int) < maxCapacity then 128 else maxCapacity) else capacity
    setCapacity { initial with maxCap := maxCapacity } c

/-- StringBuilder.cpp lines 51-75 (`new StringBuilder(value, startIndex, length, capacity)`); lines 49-50 pass the whole
string. `none` is a null `String*`. `value->Address(startIndex)` (StringDotNet.cpp lines 102-106) throws when the index
is not below the string's length. `memcpy` writes `length` cells; the cell after them is already zero. -/
def createFrom (value : Option WStr) (startIndex length capacity : Int) : Out :=
  let v := value.getD []
  if capacity < 0 then .threw .argumentOutOfRange initial
  else if length < 0 then .threw .argumentOutOfRange initial
  else if startIndex < 0 then .threw .argumentOutOfRange initial
  else if startIndex > v.length - length then .threw .argumentOutOfRange initial
  else
    let c := if capacity = 0 then 128 else capacity
    (setCapacity initial (max c length)).andThen fun s =>
      if startIndex ≥ v.length then .threw .indexOutOfRange s
      else withBuf (poke s.buf 0 ((v.drop startIndex.toNat).take length.toNat)) fun b =>
        .done { s with buf := b, len := length.toNat }

/-- StringBuilder.cpp lines 91-112 (`set_Length`). -/
def setLength (s : SB) (n : Int) : Out :=
  if n < 0 then .threw .argumentOutOfRange s
  else if n > s.maxCap then .threw .argumentOutOfRange s
  else if n = 0 then
    withBuf (poke s.buf 0 (List.replicate s.cap 0)) fun b => .done { s with buf := b, len := 0 }
  else (ensureCapacity s n).andThen fun s =>
    if n < s.len then
      withBuf (poke s.buf n (List.replicate (s.len - n.toNat) 0)) fun b => .done { s with buf := b, len := n.toNat }
    else .done { s with len := n.toNat }

/-- StringBuilder.cpp lines 311-314 (`Clear`). -/
def clear (s : SB) : Out := setLength s 0

/-- StringBuilder.cpp lines 188-203 (`Append(const Char* values, Int32 charCount, Int32 where)`). `values` lists the
cells readable behind the pointer; a negative `charCount` becomes a huge `memcpy` size. -/
def appendRaw (s : SB) (values : WStr) (n whr : Int) : Out :=
  let whr := if whr = -1 then (s.len : Int) else whr
  if whr > s.len then .threw .indexOutOfRange s
  else (ensureRoomFor s n).andThen fun s =>
    if n < 0 ∨ n > values.length then .ub
    else
      withBuf (if whr ≠ s.len then move s.buf (whr + n) whr (s.len - whr) else some s.buf) fun b =>
      withBuf (poke b whr (values.take n.toNat)) fun b =>
      withBuf (poke b (s.len + n) [0]) fun b =>
      .done { s with buf := b, len := s.len + n.toNat }

/-- StringBuilder.cpp lines 261-271 (`Append(Char, Int32 repeatCount)`); the loop of lines 266-268 writes `repeatCount`
consecutive cells. Lines 258-260 are the case `repeatCount = 1`. -/
def appendChar (s : SB) (c : Nat) (n : Int) : Out :=
  if n < 0 then .threw .argumentOutOfRange s
  else (ensureCapacity s n).andThen fun s =>
    if ¬ I32 (s.len + n) then .ub
    else
      withBuf (poke s.buf s.len (List.replicate n.toNat c)) fun b =>
      withBuf (poke b (s.len + n) [0]) fun b =>
      .done { s with buf := b, len := s.len + n.toNat }

/-- StringBuilder.cpp lines 272-282 (`Append(String*, Int32 startIndex, Int32 charCount)`; the header's defaults are
`0, -1`). `none` is a null pointer, dereferenced in line 274/278. The string's buffer has a NUL after its characters. -/
def appendStr (s : SB) (value : Option WStr) (startIndex charCount : Int) : Out :=
  match value with
  | none => if 0 ≤ charCount ∧ startIndex < 0 then .threw .argumentOutOfRange s else .ub
  | some v =>
    let n := if charCount < 0 then (v.length : Int) else charCount
    if startIndex < 0 then .threw .argumentOutOfRange s
    else if startIndex > v.length - n then .threw .argumentOutOfRange s
    else appendRaw s ((v ++ [0]).drop startIndex.toNat) n (-1)

/-- An `Array*` argument as far as StringBuilder looks at it: element type, number of dimensions, elements. -/
structure ArrArg where
  isChar : Bool
  oneDim : Bool
  data : WStr
  deriving DecidableEq, Repr

/-- StringBuilder.cpp lines 360-381 (`Insert(index, Array*, startIndex, charCount)`); lines 204-225
(`Append(Array*, ...)`) are the same code with `index = currentLength`. `Array::Address` (Array.cpp) throws
IndexOutOfRange outside the array. -/
def insertArray (s : SB) (index : Int) (values : Option ArrArg) (startIndex charCount : Int) : Out :=
  match values with
  | none => .done s
  | some a =>
    let start := if startIndex < 0 then 0 else startIndex
    let n := if charCount < 0 then (a.data.length : Int) else charCount
    if n = 0 then .done s
    else if n > a.data.length - start then .threw .argumentOutOfRange s
    else if a.isChar = false then .threw .argumentOutOfRange s
    else if a.oneDim = false then .threw .rank s
    else if start ≥ a.data.length then .threw .indexOutOfRange s
    else appendRaw s (a.data.drop start.toNat) n index

/-- StringBuilder.cpp lines 303-306 (`AppendLine()`). -/
def appendLine (s : SB) : Out := (appendChar s 13 1).andThen fun s => appendChar s 10 1

/-- StringBuilder.cpp lines 307-310 (`AppendLine(String*)`). -/
def appendLineStr (s : SB) (value : Option WStr) : Out :=
  (appendStr s value 0 (-1)).andThen appendLine

/-- StringBuilder.cpp lines 226-230 and the overloads of lines 231-257, 283-302, 348-359, 382-397, 407-426: format a
boxed value into a 128-cell local (`text` is what `FormatString` wrote, always fewer than 128 characters for numbers,
booleans and characters) and insert it at `index`; `index = -1` appends. -/
def insertText (s : SB) (index : Int) (text : WStr) : Out := appendRaw s text text.length index

/-- The loop of StringBuilder.cpp lines 402-404, `count` iterations. -/
def insertLoop (index : Int) (v : WStr) : Nat → SB → Out
  | 0, s => .done s
  | k + 1, s =>
    if v.length = 0 then .threw .indexOutOfRange s
    else (appendRaw s (v ++ [0]) v.length index).andThen (insertLoop index v k)

/-- StringBuilder.cpp lines 401-406 (`Insert(index, String*, count)`); `value->Address(0)` throws on an empty string. -/
def insertStr (s : SB) (index : Int) (value : Option WStr) (count : Int) : Out :=
  match value with
  | none => if count ≤ 0 then .done s else .ub
  | some v => insertLoop index v count.toNat s

/-- StringBuilder.cpp lines 332-347 (`Remove`). Line 343 is a `memcpy` whose regions may overlap: undefined in ISO C
unless the platform's `memcpy` copies like `memmove` (`ov = true`, e.g. glibc on x86-64). -/
def remove (ov : Bool) (s : SB) (startIndex length : Int) : Out :=
  if length < 0 then .threw .argumentOutOfRange s
  else if startIndex < 0 then .threw .argumentOutOfRange s
  else if length > s.len - startIndex then .threw .argumentOutOfRange s
  else
    let howmany := s.len - startIndex - length
    if ov = false ∧ 0 < howmany ∧ length < howmany then .ub
    else
      withBuf (move s.buf startIndex (startIndex + length) howmany) fun b =>
      withBuf (poke b (s.len - length) [0]) fun b =>
      .done { s with buf := b, len := s.len - length.toNat }

/-- StringBuilder.cpp lines 433-448 (`Replace(Char, Char, startIndex, count)`; lines 427-429 pass the whole builder). The
unsigned comparison of line 435 also rejects a negative start. -/
def replaceChar (s : SB) (old new : Nat) (startIndex count : Int) : Out :=
  if startIndex < 0 ∨ startIndex > s.len then .threw .argumentOutOfRange s
  else if count < 0 ∨ startIndex > s.len - count then .threw .argumentOutOfRange s
  else match peek s.buf startIndex count with
    | none => .ub
    | some xs =>
      withBuf (poke s.buf startIndex (xs.map fun c => if c = old then new else c)) fun b => .done { s with buf := b }

/-- The loop of StringBuilder.cpp lines 156-163 (`CountSubStrings`). Comparing outside the block is `ub`; so is running
out of `fuel`, which happens exactly when an empty pattern makes the loop run for ever. -/
def countLoop (buf pat : List Nat) : Nat → Int → Int → Nat → Res Nat
  | 0, i, e, acc => if i < e then .ub else .ok acc
  | fuel + 1, i, e, acc =>
    if i < e then
      match peek buf i pat.length with
      | none => .ub
      | some xs =>
        if xs = pat then countLoop buf pat fuel (i + pat.length) e (acc + 1)
        else countLoop buf pat fuel (i + 1) e acc
    else .ok acc

/-- StringBuilder.cpp lines 152-165 (`CountSubStrings`). The `Int32` byte count of line 155 does not hold
`4 * pat.length` for patterns of 2^29 characters or more; comparing with it is `ub` here. -/
def countSubStrings (s : SB) (pat : WStr) (startIndex length : Int) : Res Nat :=
  let e := startIndex + 1 + length - pat.length
  if startIndex < e ∧ 536870912 ≤ pat.length then .ub
  else countLoop s.buf pat (e - startIndex).toNat startIndex e 0

/-- The loop of StringBuilder.cpp lines 481-493 (`ReplaceSubString`). -/
def replaceLoop (pat rep : WStr) : Nat → Int → Int → SB → Out
  | 0, i, e, s => if i < e then .ub else .done s
  | fuel + 1, i, e, s =>
    if i < e then
      match peek s.buf i pat.length with
      | none => .ub
      | some xs =>
        if xs = pat then
          withBuf (move s.buf (i + rep.length) (i + pat.length) (s.len - i - pat.length)) fun b =>
          withBuf (poke b (s.len + (rep.length - pat.length)) [0]) fun b =>
          withBuf (poke b i rep) fun b =>
          replaceLoop pat rep fuel (i + rep.length) (e + (rep.length - pat.length))
            { s with buf := b, len := (s.len + ((rep.length : Int) - pat.length)).toNat }
        else replaceLoop pat rep fuel (i + 1) e s
    else .done s

/-- StringBuilder.cpp lines 449-476 with 477-494 (`Replace(String*, String*, startIndex, count)`; lines 430-432 pass the
whole builder). `none` is a null pointer. The Int32 product of line 472 may overflow. -/
def replaceStr (s : SB) (search replace : Option WStr) (startIndex count : Int) : Out :=
  if startIndex < 0 ∨ startIndex > s.len then .threw .argumentOutOfRange s
  else if count < 0 ∨ startIndex > s.len - count then .threw .argumentOutOfRange s
  else match search with
    | none => .threw .argumentOutOfRange s
    | some pat =>
      if pat.length = 0 then .threw .argumentOutOfRange s
      else
        let rep := replace.getD []
        match countSubStrings s pat startIndex count with
        | .ub => .ub
        | .throw e => .threw e s
        | .ok howMany =>
          if howMany = 0 then .done s
          else
            let delta : Int := rep.length - pat.length
            let room := if delta > 0 then
                (if ¬ I32 (delta * howMany) then .ub else ensureRoomFor s (delta * howMany))
              else .done s
            room.andThen fun s =>
              let e := startIndex + 1 + count - pat.length
              replaceLoop pat rep (e - startIndex).toNat startIndex e s

/-- StringBuilder.cpp lines 169-171 with 147-151 (`set_Chars`). -/
def setChars (s : SB) (index : Int) (c : Nat) : Out :=
  if index < 0 ∨ index ≥ s.len then .threw .indexOutOfRange s
  else withBuf (poke s.buf index [c]) fun b => .done { s with buf := b }

/-- StringBuilder.cpp lines 166-168 with 147-151 (`get_Chars`). -/
def getChars (s : SB) (index : Int) : Res Nat :=
  if index < 0 ∨ index ≥ s.len then .throw .indexOutOfRange
  else match peek s.buf index 1 with
    | some [c] => .ok c
    | _ => .ub

/-- `wcslen`: the number of cells before the first NUL; `none` when the block has none (reads past it). -/
def wcslen : List Nat → Option Nat
  | [] => none
  | c :: t => if c = 0 then some 0 else (wcslen t).map (· + 1)

/-- StringDotNet.cpp lines 37-52: the `String(const Char*, startIndex, length)` constructor on the cells readable behind
the pointer. The comparison of line 42 calls `wcslen`. -/
def newString (cells : List Nat) (startIndex length : Int) : Res WStr :=
  match wcslen cells with
  | none => .ub
  | some k =>
    let n := if length < 0 then (k : Int) else length
    if startIndex < 0 ∨ startIndex > k then .throw .argumentOutOfRange
    else match peek cells startIndex n with
      | none => .ub
      | some xs => .ok xs

/-- StringBuilder.cpp lines 172-174 (`ToString()`). -/
def toStr (s : SB) : Res WStr := newString s.buf 0 s.len

/-- StringBuilder.cpp lines 175-181 (`ToString(startIndex, length)`). The Int32 sum of line 178 may overflow. -/
def toStrRange (s : SB) (startIndex length : Int) : Res WStr :=
  if startIndex < 0 ∨ startIndex ≥ s.len then .throw .indexOutOfRange
  else if ¬ I32 (startIndex + length) then .ub
  else if startIndex + length > s.len then .throw .indexOutOfRange
  else newString (s.buf.drop startIndex.toNat) 0 length

/-- The comparison `wcscmp(a, b) == 0`; `none` when a block ends before the comparison is decided. -/
def wcsEq : List Nat → List Nat → Option Bool
  | a :: s, b :: t => if a = b then (if a = 0 then some true else wcsEq s t) else some false
  | _, _ => none

/-- StringBuilder.cpp lines 327-331 (`Equals`); `none` is a null pointer. -/
def equals (s : SB) (other : Option SB) : Res Bool :=
  match other with
  | none => .ok false
  | some o =>
    if o.cap ≠ s.cap ∨ o.maxCap ≠ s.maxCap then .ok false
    else match wcsEq o.buf s.buf with
      | none => .ub
      | some b => .ok b

/-- A mutating call on a StringBuilder. -/
inductive Op where
  | appendStr (value : Option WStr) (startIndex charCount : Int)
  | appendChar (c : Nat) (repeatCount : Int)
  | appendText (text : WStr)
  | appendArray (values : Option ArrArg) (startIndex charCount : Int)
  | appendLine
  | appendLineStr (value : Option WStr)
  | insertText (index : Int) (text : WStr)
  | insertStr (index : Int) (value : Option WStr) (count : Int)
  | insertArray (index : Int) (values : Option ArrArg) (startIndex charCount : Int)
  | remove (startIndex length : Int)
  | replaceChar (old new : Nat) (startIndex count : Int)
  | replaceStr (search replace : Option WStr) (startIndex count : Int)
  | setChars (index : Int) (c : Nat)
  | clear
  | setLength (n : Int)
  | setCapacity (n : Int)
  | ensureCapacity (n : Int)
  deriving Repr

/-- Dispatch of a call to the functions above. -/
def step (ov : Bool) (s : SB) : Op → Out
  | .appendStr v i n => appendStr s v i n
  | .appendChar c n => appendChar s c n
  | .appendText t => insertText s (-1) t
  | .appendArray a i n => insertArray s s.len a i n
  | .appendLine => appendLine s
  | .appendLineStr v => appendLineStr s v
  | .insertText i t => insertText s i t
  | .insertStr i v n => insertStr s i v n
  | .insertArray i a j n => insertArray s i a j n
  | .remove i n => remove ov s i n
  | .replaceChar o c i n => replaceChar s o c i n
  | .replaceStr p r i n => replaceStr s p r i n
  | .setChars i c => setChars s i c
  | .clear => clear s
  | .setLength n => setLength s n
  | .setCapacity n => setCapacity s n
  | .ensureCapacity n => ensureCapacity s n

end Verif.SBModel
