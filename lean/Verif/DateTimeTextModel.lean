import Verif.DateTimeModel
import Verif.TimeSpanModel
/-!
# Model of DateTime text and zone conversion (/repo/DotNetLibrary/src/DateTimeValue.cpp)
-/
namespace Verif.DateTime

/-- `FormatString`, lines 266-291 (`ToString` adds nothing, Object.cpp lines 38-43). The string builder is a list. -/
def toString (v : Int) : Res WStr := do
  let month ← getMonth v
  let day ← getDay v
  let year ← getYear v
  let hour := getHour v
  let minute := getMinute v
  let second := getSecond v
  let isPm : Bool := hour > 12
  let hour := if hour > 12 then hour - 12 else hour
  .ok (decInt month ++ 47 :: decInt day ++ 47 :: decInt year ++ 32 :: decInt hour ++ 58 :: dec2 minute.toNat
    ++ 58 :: dec2 second.toNat ++ 32 :: (if isPm then [80, 77] else [65, 77]))

/-- The clock of the C library when `GetTimeZone` runs: seconds since the epoch (UTC) and the offset of the zone in
seconds. `gmtime`/`localtime` give the hours of the day of both (time zone rules are not modelled further). -/
structure Clock where
  utc : Int
  offset : Int

/-- `utcInfo->tm_hour`, line 315. -/
def Clock.gmHour (c : Clock) : Int := c.utc / 3600 % 24
/-- `localInfo->tm_hour`, line 317. -/
def Clock.lcHour (c : Clock) : Int := (c.utc + c.offset) / 3600 % 24

/-- `GetTimeZone`, lines 307-320 (the static `tm` of `gmtime` is read before `localtime` overwrites it). -/
def getTimeZone (c : Clock) : Res Int := TimeSpan.ofHms (c.lcHour - c.gmHour) 0 0

/-- `ToLocalTime`, lines 303-305 and 322-326. -/
def toLocalTime (c : Clock) (v : Int) : Res Int := do
  let ts ← getTimeZone c
  add v ts

/-- `ToUniversalTime`, lines 327-331. -/
def toUniversalTime (c : Clock) (v : Int) : Res Int := do
  let ts ← getTimeZone c
  subtractSpan v ts

end Verif.DateTime
