import Verif.ArithModel
import Verif.DateTimeModel
import Verif.TimeSpanModel
/-!
# Model of the functions of DateTime and TimeSpan that compute with doubles
(/repo/DotNetLibrary/src/DateTimeValue.cpp lines 108-127, 193-195; TimeSpanValue.cpp lines 68-87, 124-135, 193-228)

Doubles are bit patterns, with the arithmetic of ArithModel.
-/
namespace Verif.FloatTime
open Verif.FltModel Verif.Arith

/-- The C++ operator `<=`. -/
def fle (a b : Nat) : Bool := flt dbl a b || feq dbl a b

/-- DateTimeValue.h line 56: `DaysTo10000 * MillisPerDay`. -/
def MaxMillis : Int := (146097 * 25 - 366) * 86400000

/-- DateTimeValue.cpp line 109: `value * (Double) scale + (value >= 0 ? 0.5 : -0.5)`. -/
def millis (value : Nat) (scale : Int) : Nat := add (mul value (ofInt scale)) (if fle 0 value then 0x3FE0000000000000 else 0xBFE0000000000000)

/-- `Add(Double, Int32)`, lines 108-113, on the tick count `t`. -/
def addDouble (t : Int) (value : Nat) (scale : Int) : Res Int :=
  if fle (millis value scale) (ofInt (-MaxMillis)) || fle (ofInt MaxMillis) (millis value scale) then .throw .argumentOutOfRange
  else toI64 (millis value scale) >>= fun m => i64 (m * DateTime.TicksPerMillisecond) >>= fun d => DateTime.addTicks t d

/-- Lines 114-116. -/
def addDays (t : Int) (delta : Nat) : Res Int := addDouble t delta 86400000
/-- Lines 117-119. -/
def addHours (t : Int) (delta : Nat) : Res Int := addDouble t delta 3600000
/-- Lines 120-122. -/
def addMilliseconds (t : Int) (delta : Nat) : Res Int := addDouble t delta 1
/-- Lines 123-125. -/
def addMinutes (t : Int) (delta : Nat) : Res Int := addDouble t delta 60000
/-- Lines 193-195. -/
def addSeconds (t : Int) (delta : Nat) : Res Int := addDouble t delta 1000

/-- TimeSpanValue.cpp lines 211-218: `Interval`. The comparisons convert the Int64 limits to doubles. -/
def interval (value scale : Nat) : Res Int :=
  if isNaN dbl value then .throw .argument
  else if flt dbl (ofInt (2 ^ 63 - 1)) (mul value scale) || flt dbl (mul value scale) (ofInt (-2 ^ 63)) then .throw .overflow
  else toI64 (mul value scale)

/-- Lines 193-195. -/
def fromDays (data : Nat) : Res Int := interval data (ofInt TimeSpan.TicksPerDay)
/-- Lines 196-198. -/
def fromHours (data : Nat) : Res Int := interval data (ofInt TimeSpan.TicksPerHour)
/-- Lines 199-201. -/
def fromMilliseconds (data : Nat) : Res Int := interval data (ofInt TimeSpan.TicksPerMillisecond)
/-- Lines 202-204. -/
def fromMinutes (data : Nat) : Res Int := interval data (ofInt TimeSpan.TicksPerMinute)
/-- Lines 205-207. -/
def fromSeconds (data : Nat) : Res Int := interval data (ofInt TimeSpan.TicksPerSecond)

/-- Lines 219-228: `Multiply`. -/
def multiply (t : Int) (factor : Nat) : Res Int :=
  if isNaN dbl factor then .throw .argument
  else if flt dbl (ofInt (2 ^ 63 - 1)) (round (mul (ofInt t) factor)) || flt dbl (round (mul (ofInt t) factor)) (ofInt (-2 ^ 63)) then .throw .overflow
  else toI64 (round (mul (ofInt t) factor))

/-- Lines 127-136: `Divide(Double)`. -/
def divide (t : Int) (divisor : Nat) : Res Int :=
  if isNaN dbl divisor then .throw .argument
  else if flt dbl (ofInt (2 ^ 63 - 1)) (round (div (ofInt t) divisor)) || flt dbl (round (div (ofInt t) divisor)) (ofInt (-2 ^ 63)) || isNaN dbl (round (div (ofInt t) divisor)) then
    .throw .overflow
  else toI64 (round (div (ofInt t) divisor))

/-- Lines 124-126: `Divide(TimeSpan)`. -/
def ratio (t u : Int) : Nat := div (ofInt t) (ofInt u)

/-- Lines 68-70. -/
def totalDays (t : Int) : Nat := div (ofInt t) (ofInt TimeSpan.TicksPerDay)
/-- Lines 71-73. -/
def totalHours (t : Int) : Nat := div (ofInt t) (ofInt TimeSpan.TicksPerHour)
/-- Lines 74-81. -/
def totalMilliseconds (t : Int) : Nat :=
  let temp := div (ofInt t) (ofInt TimeSpan.TicksPerMillisecond)
  if flt dbl (ofInt TimeSpan.MaxMilliSeconds) temp then ofInt TimeSpan.MaxMilliSeconds
  else if flt dbl temp (ofInt TimeSpan.MinMilliSeconds) then ofInt TimeSpan.MinMilliSeconds
  else temp
/-- Lines 82-84. -/
def totalMinutes (t : Int) : Nat := div (ofInt t) (ofInt TimeSpan.TicksPerMinute)
/-- Lines 85-87. -/
def totalSeconds (t : Int) : Nat := div (ofInt t) (ofInt TimeSpan.TicksPerSecond)

end Verif.FloatTime
