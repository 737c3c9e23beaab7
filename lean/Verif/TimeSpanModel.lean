import Verif.IntModel
/-!
# Model of TimeSpan (/repo/DotNetLibrary/src/TimeSpanValue.cpp)

A `TimeSpan` is its `Int64` tick count (include/DotnetTypes.h lines 73-86).
-/
namespace Verif.TimeSpan

/-- TimeSpanValue.cpp line 25 and DateTimeValue.h line 24. -/
def TicksPerMillisecond : Int := 10000
/-- TimeSpanValue.cpp line 26. -/
def TicksPerSecond : Int := 10000000
/-- TimeSpanValue.cpp line 27. -/
def TicksPerMinute : Int := 600000000
/-- TimeSpanValue.cpp line 28. -/
def TicksPerHour : Int := 36000000000
/-- TimeSpanValue.cpp line 29. -/
def TicksPerDay : Int := 864000000000

/-- `MinValue`, TimeSpanValue.cpp line 24: `UInt64Value::MinValue`, that is 0, converted to Int64. -/
def MinValue : Int := wrapI64 0
/-- `MaxValue`, TimeSpanValue.cpp line 23: `UInt64Value::MaxValue` converted to Int64. -/
def MaxValue : Int := wrapI64 18446744073709551615

/-- DateTimeValue.h line 57. -/
def MaxSeconds : Int := 0xd6bf94d5e5
/-- DateTimeValue.h line 58, as a signed 64-bit number. -/
def MinSeconds : Int := 0xffffff29406b2a1b - 0x10000000000000000
/-- DateTimeValue.h line 59. -/
def MaxMilliSeconds : Int := 0x346dc5d638865
/-- DateTimeValue.h line 60, as a signed 64-bit number. -/
def MinMilliSeconds : Int := 0xfffcb923a29c779b - 0x10000000000000000

/-- Semantics of a signed 64-bit sum or difference that overflows: ISO C++ (undefined) or two's complement
hardware arithmetic (`-fwrapv`, what gcc and MSVC do without exploiting the undefinedness). -/
inductive Mode | iso | wrapv
  deriving DecidableEq, Repr

/-- A signed 64-bit operation with mathematical result `x`. -/
def arith (m : Mode) (x : Int) : Res Int := match m with | .iso => i64 x | .wrapv => .ok (wrapI64 x)

/-- `x >> 63` on Int64 (arithmetic shift): 0 for non-negative, -1 for negative. -/
def sar63 (x : Int) : Int := x / 9223372036854775808

/-- `TimeToTicks` (3 arguments) and `TimeSpan(hours, minutes, seconds)`, TimeSpanValue.cpp lines 32-42. -/
def ofHms (hours minutes seconds : Int) : Res Int := do
  let a ← i64 (hours * 3600)
  let b ← i64 (minutes * 60)
  let ab ← i64 (a + b)
  let total ← i64 (ab + seconds)
  if total > MaxSeconds ∨ total < MinSeconds then .throw .argumentOutOfRange
  else i64 (total * TicksPerSecond)

/-- `TimeSpan(days, hours, minutes, seconds, milliseconds)`, TimeSpanValue.cpp lines 43-49. -/
def ofDhms (days hours minutes seconds milliseconds : Int) : Res Int := do
  let d1 ← i64 (days * 3600)
  let d ← i64 (d1 * 24)
  let h ← i64 (hours * 3600)
  let m ← i64 (minutes * 60)
  let dh ← i64 (d + h)
  let dhm ← i64 (dh + m)
  let secs ← i64 (dhm + seconds)
  let ms ← i64 (secs * 1000)
  let total ← i64 (ms + milliseconds)
  if total > MaxMilliSeconds ∨ total < MinMilliSeconds then .throw .argumentOutOfRange
  else i64 (total * TicksPerMillisecond)

/-- `get_Days`, lines 50-52. -/
def getDays (v : Int) : Int := wrapI32 (v.tdiv TicksPerDay)
/-- `get_Hours`, lines 53-55. -/
def getHours (v : Int) : Int := wrapI32 ((v.tdiv TicksPerHour).tmod 24)
/-- `get_Milliseconds`, lines 56-58. -/
def getMilliseconds (v : Int) : Int := wrapI32 ((v.tdiv TicksPerMillisecond).tmod 1000)
/-- `get_Minutes`, lines 59-61. -/
def getMinutes (v : Int) : Int := wrapI32 ((v.tdiv TicksPerMinute).tmod 60)
/-- `get_Seconds`, lines 62-64. -/
def getSeconds (v : Int) : Int := wrapI32 ((v.tdiv TicksPerSecond).tmod 60)

/-- `Add`, lines 91-96, and `op_Addition`, lines 304-306. -/
def add (m : Mode) (a b : Int) : Res Int := do
  let r ← arith m (a + b)
  if sar63 a = sar63 b ∧ sar63 a ≠ sar63 r then .throw .overflow else .ok r

/-- `Subtract`, lines 243-248, and `op_Subtraction`, lines 337-339 (the same test as in `Add`). -/
def subtract (m : Mode) (a b : Int) : Res Int := do
  let r ← arith m (a - b)
  if sar63 a = sar63 b ∧ sar63 a ≠ sar63 r then .throw .overflow else .ok r

/-- `Compare`, lines 97-103, and `CompareTo(TimeSpan)`, lines 104-111. -/
def compare (a b : Int) : Int := if a > b then 1 else if a < b then -1 else 0

/-- A boxed argument: null, a boxed TimeSpan, or another type. -/
inductive Boxed | null | timeSpan (v : Int) | other
  deriving DecidableEq, Repr

/-- `CompareTo(Object*)`, lines 112-123. -/
def compareToObj (v : Int) : Boxed → Res Int
  | .null => .ok 1
  | .other => .throw .argument
  | .timeSpan t => .ok (if v > t then 1 else if v < t then -1 else 0)

/-- `Equals(const TimeSpan&)`, lines 143-148, `op_Equality`, lines 313-315. -/
def equals (a b : Int) : Bool := a == b
/-- `Equals(Object*)`, lines 149-154. -/
def equalsObj (v : Int) : Boxed → Bool
  | .timeSpan t => v == t
  | _ => false
/-- `op_GreaterThan`, lines 316-318. -/
def opGreaterThan (a b : Int) : Bool := a > b
/-- `op_GreaterThanOrEqual`, lines 319-321. -/
def opGreaterThanOrEqual (a b : Int) : Bool := a ≥ b
/-- `op_Inequality`, lines 322-324. -/
def opInequality (a b : Int) : Bool := !equals a b
/-- `op_LessThan`, lines 325-327. -/
def opLessThan (a b : Int) : Bool := a < b
/-- `op_LessThanOrEqual`, lines 328-330. -/
def opLessThanOrEqual (a b : Int) : Bool := a ≤ b

/-- `Duration`, lines 137-142. -/
def duration (v : Int) : Res Int :=
  if v = MinValue then .throw .overflow else if v ≥ 0 then .ok v else i64 (-v)

/-- `Negate`, lines 229-233, and `op_UnaryNegation`, lines 340-344. -/
def negate (v : Int) : Res Int :=
  if v = MinValue then .throw .overflow else i64 (-v)

/-- `FormatString`, lines 155-192. The string builder is a list here (its appends are proved to be list appends in
C26; at most 27 characters are produced, so neither `date[32]`, `frac[32]` nor the inline buffer overflows).
`stringBuilder.Append(L'0', 7 - fracLength)` pads on the right. -/
def toString (v : Int) : WStr :=
  let day := wrapI32 (v.tdiv TicksPerDay)
  let time := v.tmod TicksPerDay
  let neg := v < 0
  let day := if neg then -day else day
  let time := if neg then -time else time
  let hours := (time.tdiv TicksPerHour).tmod 24
  let min := (time.tdiv TicksPerMinute).tmod 60
  let sec := (time.tdiv TicksPerSecond).tmod 60
  let fractional := time.tmod TicksPerSecond
  let clock := dec2 hours.toNat ++ 58 :: dec2 min.toNat ++ 58 :: dec2 sec.toNat
  let date := if day ≠ 0 then decInt day ++ 46 :: clock else clock
  let frac := if fractional ≠ 0 then
      46 :: (decInt fractional ++ List.replicate (7 - (decInt fractional).length) 48) else []
  (if neg then [45] else []) ++ date ++ frac

/-- Read `chars[i]` from the memory that starts at `chars`. -/
def peek (mem : List Nat) (i : Nat) : Res Nat := match mem[i]? with | some c => .ok c | none => .ub

/-- `chars += n`: a pointer may reach one past the end of the buffer, not further. -/
def advance (mem : List Nat) (n : Nat) : Res (List Nat) := if n ≤ mem.length then .ok (mem.drop n) else .ub

/-- The test of line 267 with its short-circuit order of reads. -/
def notSeparated (mem : List Nat) (len : Int) : Res Bool :=
  if len > 2 then do
    let c1 ← peek mem 1
    if c1 = 58 then .ok false else do
      let c2 ← peek mem 2
      if c2 = 58 then .ok false
      else if c2 = 46 then .ok false
      else if c1 = 46 then .ok false
      else .ok true
  else .ok false

/-- The loop of lines 262-275. `nums` are the entries of `numbers` filled so far; the array has 4 entries. -/
def groups (L : Locale) : Nat → List Nat → Int → List Int → Res (List Nat × Int × List Int)
  | 0, _, _, _ => .ub
  | fuel + 1, mem, len, nums =>
    if len > 0 then do
      let c ← peek mem 0
      if isDigit c = false then .ok (mem, len, nums)
      else do
        let brk ← notSeparated mem len
        if brk then .ok (mem, len, nums)
        else do
          let c1 ← peek mem 1
          let digits : Nat := if isDigit c1 then 2 else 1
          let p ← IntVal.tryParseInternal L mem digits
          if nums.length ≥ 4 then .ub
          else do
            let mem' ← advance mem (digits + 1)
            groups L fuel mem' (len - (digits + 1)) (nums ++ [wrapI64 p.value])
    else .ok (mem, len, nums)

/-- The loop of lines 276-282; `frac` runs through the powers of ten below `TicksPerSecond`. -/
def fraction : Nat → List Nat → Int → Int → Int → Res Int
  | 0, _, _, _, _ => .ub
  | fuel + 1, mem, len, frac, acc =>
    if frac > 1 ∧ len > 0 then do
      let c ← peek mem 0
      if isDigit c then do
        let mem' ← advance mem 1
        fraction fuel mem' (len - 1) (frac.tdiv 10) (acc + ((c : Int) - 48) * frac.tdiv 10)
      else .ok acc
    else .ok acc

/-- `numbers[i]` of the 4-entry array initialised with zeros. -/
def number (nums : List Int) (i : Nat) : Res Int := if i < 4 then .ok (nums.getD i 0) else .ub

/-- End of `TryParse`, lines 291-302: from the numbers and the fraction to the tick count. -/
def finish (neg : Bool) (nums : List Int) (fractional : Int) : Res Int := do
  let amount := nums.length
  let idx := if amount > 3 ∨ amount = 1 then 1 else 0
  let days ← (if amount > 3 ∨ amount = 1 then do
      let d ← number nums 0
      i64 (d * TicksPerDay) else .ok 0)
  let n0 ← number nums idx
  let hours ← i64 (n0 * TicksPerHour)
  let n1 ← number nums (idx + 1)
  let minutes ← i64 (n1 * TicksPerMinute)
  let n2 ← number nums (idx + 2)
  let seconds ← i64 (n2 * TicksPerSecond)
  let t1 ← i64 (fractional + days)
  let t2 ← i64 (t1 + hours)
  let t3 ← i64 (t2 + minutes)
  let ticks ← i64 (t3 + seconds)
  if neg then i64 (-ticks) else .ok ticks

/-- `TryParse`, lines 249-303 (it always returns true; `s` is not null). -/
def tryParse (L : Locale) (s : WStr) : Res (Bool × Int) := do
  let mem := s ++ [0]
  let c ← peek mem 0
  let neg : Bool := c == 45
  let mem := if neg then mem.drop 1 else mem
  let len : Int := if neg then (s.length : Int) - 1 else s.length
  let (mem, len, nums) ← groups L (s.length + 1) mem len []
  let fractional ← fraction 8 mem len TicksPerSecond 0
  let ticks ← finish neg nums fractional
  .ok (true, ticks)

/-- `Parse`, lines 234-242. -/
def parse (L : Locale) : Option WStr → Res Int
  | none => .throw .argumentNull
  | some s => do
    let (good, r) ← tryParse L s
    if good = false then .throw .format else .ok r

end Verif.TimeSpan
