import Verif.Spec.Time
import Verif.Spec.Calendar

/-!
# Specification for C128 and C129: GPS time, GLONASS time and UTC

Written from the interface specifications: GPS time began on 6 January 1980 00:00 UTC and has no leap seconds; since 1 January
2017 it is 18 s ahead of UTC.  GLONASS time is UTC + 3 h.  UTC instants are POSIX seconds (as `CLOCK_REALTIME` gives them).
-/

namespace Ublox.TimeScale

/-- The start of GPS time. -/
def gpsStart : Calendar.Stamp := ⟨1980, 1, 6, 0, 0, 0⟩

/-- GPS time minus UTC since 2017. -/
def gpsLead : Int := 18

/-- The UTC instant of second `s` of GPS week `w`. -/
def gpsToUtc (w s : Int) : Int := gpsStart.posix + w * 604800 + s - gpsLead

/-- `w` is the GPS week number at the UTC instant `p`. -/
def InGpsWeek (w p : Int) : Prop := gpsToUtc w 0 ≤ p ∧ p < gpsToUtc (w + 1) 0

/-- The UTC instant of second `s` of week `w` of Moscow time (weeks are counted from Thursday, 1 January 1970). -/
def moscowToUtc (w s : Int) : Int := w * 604800 + s - 3 * 3600

/-- `w` is the number of the week of Moscow time, and `d` that of its day, at the UTC instant `p`. -/
def InMoscowDay (w d p : Int) : Prop := 0 ≤ d ∧ d < 7 ∧ moscowToUtc w (d * 86400) ≤ p ∧ p < moscowToUtc w ((d + 1) * 86400)

example : gpsStart.posix = 315964800 := by decide
/-- The example in the repository's tests: GPS week 2063 began on 20 July 2019 at 23:59:42 UTC. -/
example : gpsToUtc 2063 0 = (⟨2019, 7, 20, 23, 59, 42⟩ : Calendar.Stamp).posix := by decide

end Ublox.TimeScale
