import Verif.Prelude
/-!
# Model of DateTime (/repo/DotNetLibrary/src/DateTimeValue.cpp, include/DateTimeValue.h)

A `DateTime` is its tick count `value : UInt64` (include/DotnetTypes.h lines 59-69), modelled as an `Int`
in the range of `uint64_t`. A `TimeSpan` is its `Int64` tick count. Exceptions and undefined behaviour are
outcomes of `Res`.
-/
namespace Verif.DateTime

/-- DateTimeValue.h line 24. -/
def TicksPerMillisecond : Int := 10000
/-- DateTimeValue.h line 25. -/
def TicksPerSecond : Int := 10000000
/-- DateTimeValue.h line 26. -/
def TicksPerMinute : Int := 600000000
/-- DateTimeValue.h line 27. -/
def TicksPerHour : Int := 36000000000
/-- DateTimeValue.h line 28. -/
def TicksPerDay : Int := 864000000000
/-- DateTimeValue.h lines 54. -/
def MinTicks : Int := 0
/-- DateTimeValue.h lines 52, 55: `DaysTo10000 * TicksPerDay - 1` with `DaysTo10000 = 146097*25-366`. -/
def MaxTicks : Int := (146097 * 25 - 366) * TicksPerDay - 1
/-- DateTimeValue.h line 57. -/
def MaxSeconds : Int := 0xd6bf94d5e5
/-- DateTimeValue.h line 58: `0xffffff29406b2a1b` read as a signed 64-bit number. -/
def MinSeconds : Int := 0xffffff29406b2a1b - 0x10000000000000000

/-- DateTimeValue.cpp lines 31-32. -/
def daysToMonth365 : List Int := [0, 31, 59, 90, 120, 151, 181, 212, 243, 273, 304, 334, 365]
/-- DateTimeValue.cpp lines 33-34. -/
def daysToMonth366 : List Int := [0, 31, 60, 91, 121, 152, 182, 213, 244, 274, 305, 335, 366]

/-- `days[m]`, the subscript on the tables above (lines 45, 163, 421); outside 0..12 it is undefined behaviour. -/
def tableAt (leap : Bool) (m : Int) : Res Int :=
  if 0 ≤ m ∧ m ≤ 12 then .ok ((if leap then daysToMonth366 else daysToMonth365)[m.toNat]!) else .ub

/-- Free function `IsLeapYear`, DateTimeValue.cpp lines 35-37. -/
def isLeapYearFn (year : Int) : Bool :=
  year.tmod 4 == 0 && (year.tmod 100 != 0 || year.tmod 400 == 0)

/-- Member `DateTimeValue::IsLeapYear`, DateTimeValue.cpp lines 260-265. On the accepted years 1..9999 the
masks `& 3` and `& 15` are the remainders modulo 4 and 16 (proved as `land_mask` in DateTimeLemmas). -/
def isLeapYear (year : Int) : Res Bool :=
  if year < 1 ∨ year > 9999 then .throw .argumentOutOfRange
  else .ok ((year.toNat &&& 3) == 0 && ((year.toNat &&& 15) == 0 || year.tmod 25 != 0))

/-- `DaysInMonth`, DateTimeValue.cpp lines 229-235; `IsLeapYear` there is the member, which checks the year. -/
def daysInMonth (year month : Int) : Res Int :=
  if month < 1 ∨ month > 12 then .throw .argumentOutOfRange
  else do
    let leap ← isLeapYear year
    let a ← tableAt leap month
    let b ← tableAt leap (month - 1)
    i32 (a - b)

/-- `DateToTicks`, DateTimeValue.cpp lines 41-50. -/
def dateToTicks (year month day : Int) : Res Int :=
  if year < 1 ∨ year > 9999 ∨ month < 1 ∨ month > 12 ∨ day < 1 then .throw .argumentOutOfRange
  else do
    let leap := isLeapYearFn year
    let dm ← tableAt leap month
    let dm1 ← tableAt leap (month - 1)
    if day > dm - dm1 then .throw .argumentOutOfRange
    else do
      let yr ← i32 (year - 1)
      let y365 ← i32 (yr * 365)
      let ndays ← i32 (y365 + yr.tdiv 4 - yr.tdiv 100 + yr.tdiv 400 + dm1 + day - 1)
      i64 (ndays * TicksPerDay)

/-- `TimePartsToTicks`, DateTimeValue.cpp lines 51-58. The bound on milliseconds is `> 1000` as in line 55. -/
def timePartsToTicks (days hour minute second milliseconds : Int) : Res Int := do
  let totalSeconds ← i64 (days * 3600 * 24 + hour * 3600 + minute * 60 + second)
  if totalSeconds > MaxSeconds ∨ totalSeconds < MinSeconds then .throw .argumentOutOfRange
  else if milliseconds < 0 ∨ milliseconds > 1000 then .throw .argumentOutOfRange
  else i64 (totalSeconds * TicksPerSecond + milliseconds * TicksPerMillisecond)

/-- `TimeToTicks` (4 arguments), DateTimeValue.cpp lines 59-63. -/
def timeToTicks (hour minute second milliseconds : Int) : Res Int :=
  if hour < 0 ∨ hour ≥ 24 ∨ minute < 0 ∨ minute ≥ 60 ∨ second < 0 ∨ second ≥ 60 then
    .throw .argumentOutOfRange
  else timePartsToTicks 0 hour minute second milliseconds

/-- `DateTime::DateTime(UInt64 ticks)`, DateTimeValue.cpp lines 64-68. -/
def ofTicks (ticks : Int) : Res Int :=
  if ticks < MinTicks ∨ ticks > MaxTicks then .throw .argumentOutOfRange else .ok ticks

/-- `DateTime::DateTime(year, ..., millisecond)`, DateTimeValue.cpp lines 75-79 (a negative `hour` skips the
time part). The sum is on `UInt64`. -/
def ofParts (year month day hour minute second millisecond : Int) : Res Int := do
  let d ← dateToTicks year month day
  if hour ≥ 0 then do
    let t ← timeToTicks hour minute second millisecond
    .ok (wrapU64 (d + t))
  else .ok d

/-- The loop `while (n >= days[m]) m++`, DateTimeValue.cpp lines 163-164 and 421-422. The fuel argument makes the
recursion structural; it starts at 14 and the table read fails (undefined behaviour) before it can run out. -/
def findMonth (leap : Bool) (n : Int) : Nat → Int → Res Int
  | 0, _ => .ub
  | fuel + 1, m => do
    let dm ← tableAt leap m
    if n ≥ dm then findMonth leap n fuel (m + 1) else .ok m

/-- What both versions of `GetDatePart` compute: lines 126-168 and 380-428. -/
structure DateParts where
  year : Int
  dayOfYear : Int
  month : Int
  day : Int
  deriving DecidableEq, Repr

/-- `GetDatePart(Int32& year, Int32& month, Int32& day)`, DateTimeValue.cpp lines 126-168 (the day of the year is
the commented-out value of line 154). `ticks` is first converted to `Int64` (line 127). `n >> 5` on a
non-negative `n` is `n / 32`. -/
def getDateParts (value : Int) : Res DateParts := do
  let ticks := wrapI64 value
  let n := wrapI32 (ticks.tdiv TicksPerDay)
  let y400 := n.tdiv 146097
  let n := n - y400 * 146097
  let y100 := n.tdiv 36524
  let y100 := if y100 = 4 then 3 else y100
  let n := n - y100 * 36524
  let y4 := n.tdiv 1461
  let n := n - y4 * 1461
  let y1 := n.tdiv 365
  let y1 := if y1 = 4 then 3 else y1
  let year := y400 * 400 + y100 * 100 + y4 * 4 + y1 + 1
  let n := n - y1 * 365
  let leap : Bool := y1 == 3 && (y4 != 24 || y100 == 3)
  let m ← findMonth leap n 14 (n / 32 + 1)
  let dm1 ← tableAt leap (m - 1)
  .ok { year := year, dayOfYear := n + 1, month := m, day := n - dm1 + 1 }

/-- The selector of `GetDatePart(Int32 part)`: DateTimeValue.h lines 61-64. -/
inductive Part | year | dayOfYear | month | day
  deriving DecidableEq, Repr

/-- `GetDatePart(Int32 part)`, DateTimeValue.cpp lines 380-428, a second copy of the algorithm with early
returns; here the division is on `UInt64`. -/
def getDatePart (part : Part) (value : Int) : Res Int := do
  let n := wrapI32 (value / TicksPerDay)
  let y400 := n.tdiv 146097
  let n := n - y400 * 146097
  let y100 := n.tdiv 36524
  let y100 := if y100 = 4 then 3 else y100
  let n := n - y100 * 36524
  let y4 := n.tdiv 1461
  let n := n - y4 * 1461
  let y1 := n.tdiv 365
  let y1 := if y1 = 4 then 3 else y1
  if part = .year then .ok (y400 * 400 + y100 * 100 + y4 * 4 + y1 + 1)
  else do
    let n := n - y1 * 365
    if part = .dayOfYear then .ok (n + 1)
    else do
      let leap : Bool := y1 == 3 && (y4 != 24 || y100 == 3)
      let m ← findMonth leap n 14 (n / 32 + 1)
      if part = .month then .ok m
      else do
        let dm1 ← tableAt leap (m - 1)
        .ok (n - dm1 + 1)

/-- `get_Year`, lines 102-104. -/
def getYear (v : Int) : Res Int := getDatePart .year v
/-- `get_Month`, lines 444-446. -/
def getMonth (v : Int) : Res Int := getDatePart .month v
/-- `get_Day`, lines 377-379. -/
def getDay (v : Int) : Res Int := getDatePart .day v
/-- `get_DayOfYear`, lines 432-434. -/
def getDayOfYear (v : Int) : Res Int := getDatePart .dayOfYear v
/-- `get_DayOfWeek`, lines 429-431 (0 = Sunday, DateTimeValue.h lines 68-71). Unsigned arithmetic. -/
def getDayOfWeek (v : Int) : Int := (v / TicksPerDay + 1) % 7
/-- `get_Hour`, lines 435-437. Unsigned arithmetic. -/
def getHour (v : Int) : Int := wrapI32 ((v / TicksPerHour) % 24)
/-- `get_Minute`, lines 441-443. -/
def getMinute (v : Int) : Int := wrapI32 ((v / TicksPerMinute) % 60)
/-- `get_Second`, lines 360-362. -/
def getSecond (v : Int) : Int := wrapI32 ((v / TicksPerSecond) % 60)
/-- `get_Millisecond`, lines 438-440. -/
def getMillisecond (v : Int) : Int := wrapI32 ((v / TicksPerMillisecond) % 1000)
/-- `get_TimeOfDay`, lines 363-365 (a TimeSpan). -/
def getTimeOfDay (v : Int) : Int := wrapI64 (v % TicksPerDay)
/-- `get_Date`, lines 373-376. -/
def getDate (v : Int) : Res Int := ofTicks (v - v % TicksPerDay)

/-- `AddTicks`, lines 196-202. `MaxTicks - ticks` and `MinTicks - ticks` are Int64. -/
def addTicks (value delta : Int) : Res Int := do
  let ticks := wrapI64 value
  let hi ← i64 (MaxTicks - ticks)
  if delta > hi then .throw .argumentOutOfRange
  else do
    let lo ← i64 (MinTicks - ticks)
    if delta < lo then .throw .argumentOutOfRange
    else do
      let s ← i64 (ticks + delta)
      ofTicks (wrapU64 s)

/-- `Add(const TimeSpan)`, lines 105-107, and `op_Addition`, lines 447-449. -/
def add (value ts : Int) : Res Int := addTicks value ts

/-- `Subtract(const TimeSpan)`, lines 295-302. -/
def subtractSpan (value ts : Int) : Res Int := do
  let ticks := wrapI64 value
  let a ← i64 (ticks - MinTicks)
  if a < ts then .throw .argumentOutOfRange
  else do
    let b ← i64 (ticks - MaxTicks)
    if b > ts then .throw .argumentOutOfRange
    else do
      let s ← i64 (ticks - ts)
      ofTicks (wrapU64 s)

/-- `Subtract(const DateTime&)`, lines 292-294: UInt64 subtraction converted to Int64. -/
def subtractDate (value other : Int) : Int := wrapI64 (wrapU64 (value - other))

/-- `AddMonths`, lines 169-192. -/
def addMonths (value months : Int) : Res Int :=
  if months < -120000 ∨ months > 120000 then .throw .argumentOutOfRange
  else do
    let p ← getDateParts value
    let i ← i32 (p.month - 1 + months)
    let month := if i ≥ 0 then i.tmod 12 + 1 else 12 + (i + 1).tmod 12
    let year := if i ≥ 0 then p.year + i.tdiv 12 else p.year + (i - 11).tdiv 12
    if year < 1 ∨ year > 9999 then .throw .argumentOutOfRange
    else do
      let days ← daysInMonth year month
      let day := if p.day > days then days else p.day
      let d ← dateToTicks year month day
      ofTicks (wrapU64 (d + value % TicksPerDay))

/-- `AddYears`, lines 203-208. -/
def addYears (value delta : Int) : Res Int :=
  if delta < -10000 ∨ delta > 10000 then .throw .argumentOutOfRange
  else do
    let m ← i32 (delta * 12)
    addMonths value m

/-- `Compare`, lines 209-217: the ticks are converted to Int64 and compared. -/
def compare (a b : Int) : Int :=
  if wrapI64 a > wrapI64 b then 1 else if wrapI64 a < wrapI64 b then -1 else 0

/-- A boxed argument, as seen by `CompareTo(Object*)`/`Equals(Object*)`: null, a boxed DateTime, or another type. -/
inductive Boxed
  | null | dateTime (v : Int) | other
  deriving DecidableEq, Repr

/-- `CompareTo(Object*)`, lines 221-228. -/
def compareToObj (v : Int) : Boxed → Res Int
  | .null => .ok 1
  | .other => .throw .argument
  | .dateTime w => .ok (compare v w)

/-- `Equals(const DateTime&)`, lines 236-238; `op_Equality`, lines 450-452. -/
def equals (a b : Int) : Bool := a == b
/-- `Equals(Object*)`, lines 242-247. -/
def equalsObj (v : Int) : Boxed → Bool
  | .dateTime w => v == w
  | _ => false
/-- `op_GreaterThan`, lines 453-455 (unsigned comparison). -/
def opGreaterThan (a b : Int) : Bool := a > b
/-- `op_GreaterThanOrEqual`, lines 456-458. -/
def opGreaterThanOrEqual (a b : Int) : Bool := a ≥ b
/-- `op_Inequality`, lines 459-461. -/
def opInequality (a b : Int) : Bool := !equals a b
/-- `op_LessThan`, lines 462-464. -/
def opLessThan (a b : Int) : Bool := a < b
/-- `op_LessThanOrEqual`, lines 465-467. -/
def opLessThanOrEqual (a b : Int) : Bool := a ≤ b

end Verif.DateTime
