import Verif.DateTimeModel
import Verif.TimeSpanModel
/-!
# Model: the clock and the time zone

DotNetLibrary/src/DateTimeValue.cpp: `get_UtcNow` lines 81-101, `ToLocalTime` 303-305 and 322-326, `GetTimeZone` 307-320, `ToUniversalTime` 327-331, `get_Now` 332-359, `get_Today` 366-369; the branches for
systems other than Windows. What `clock_gettime`, `gmtime_r`, `localtime_r`, `time`, `gmtime` and `localtime` return is a parameter.
-/
namespace Verif.Clock

/-- `struct tm`: `year` counts from 1900, `mon` from 0. -/
structure Tm where
  year : Int
  mon : Int
  mday : Int
  hour : Int
  min : Int
  sec : Int
deriving DecidableEq, Repr

/-- Lines 98 and 356: the DateTime of broken-down time and nanoseconds; `get_UtcNow` (lines 92-99) with the result of `gmtime_r`, `get_Now` (lines 350-357) with that of `localtime_r`. -/
def nowOf (tm : Tm) (nsec : Int) : Res Int :=
  DateTime.ofParts (tm.year + 1900) (tm.mon + 1) tm.mday tm.hour tm.min tm.sec (nsec.tdiv 1000000)

/-- `get_Today`, lines 366-369. -/
def today (tm : Tm) (nsec : Int) : Res Int := nowOf tm nsec >>= DateTime.getDate

/-- `GetTimeZone`, lines 307-320: the difference of the hours of the two broken-down times. -/
def timeZone (utc loc : Tm) : Res Int := TimeSpan.ofHms (loc.hour - utc.hour) 0 0

/-- `ToLocalTime`, lines 303-305, 322-326. -/
def toLocal (utc loc : Tm) (v : Int) : Res Int := timeZone utc loc >>= fun z => DateTime.add v z

/-- `ToUniversalTime`, lines 327-331. -/
def toUniversal (utc loc : Tm) (v : Int) : Res Int := timeZone utc loc >>= fun z => DateTime.subtractSpan v z

end Verif.Clock
