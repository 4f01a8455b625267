import Verif.Model.TimePrint

/-!
# The week and day numbers as the caller gets them, and the clock (src/utctime.cpp)
-/

namespace Ublox.UTCTime

/-- `week()` with the conversion of the result to `int`. utctime.cpp:164-167. -/
def weekInt (t : UTCTime) : M Int := floorToInt t.week

/-- `GpsWeek()` with the conversion of the result to `int`. utctime.cpp:169-173. -/
def gpsWeekInt (t : UTCTime) : M Int := floorToInt t.gpsWeek

/-- `GlonassWeek()` with the conversion of the result to `int`. utctime.cpp:181-185. -/
def glonassWeekInt (t : UTCTime) : M Int := floorToInt t.glonassWeek

/-- `GlonassDayOfWeek()` with the conversion of the result to `int32_t` and `int`. utctime.cpp:187-193. -/
def glonassDayInt (t : UTCTime) : M Int := floorToInt t.glonassDayOfWeek

/-- `now()`, given what `clock_gettime(CLOCK_REALTIME, …)` stores. utctime.cpp:195-203. -/
def now (tvSec tvNsec : Int) : UTCTime := ⟨tvSec, tvNsec⟩

end Ublox.UTCTime
