import Verif.Model.Ros
import Verif.Model.TimeDbl

/-!
# Time stamps of raw observations (src/obs.cpp, src/ros/ublox_ros.cpp)
-/

namespace Ublox.Ros

open Dbl64

/-- `msg.rcvTow` as a number; `none` for infinities and NaNs. ubx_defs.h:857. -/
def rcvTow (m : List Byte) : Option ℚ := ofBits (rxmRawx.get "rcvTow" m).toNat

/-- `UTCTime::fromGPS(msg.week, msg.rcvTow)`: the seconds are converted to `int` and taken for milliseconds.  Converting an
infinity or NaN is undefined. obs.cpp:31. -/
def obsStamp (m : List Byte) : M UTCTime :=
  match rcvTow m with
  | none => .error .overflow
  | some x => do
    let tow ← toInt x
    UTCTime.fromGPS (rxmRawx.get "week" m) tow

/-- `UTCTime::fromGPS(msg.week, msg.rcvTow * 1e3)`. ublox_ros.cpp:262. -/
def rosStamp (m : List Byte) : M UTCTime :=
  match rcvTow m with
  | none => .error .overflow
  | some x => do
    let tow ← toInt (rne (x * 1000))
    UTCTime.fromGPS (rxmRawx.get "week" m) tow

/-- The whole of `convertUBX`, time stamps included: every element gets the same `t`. obs.cpp:27-60. -/
def convertTimed (m : List Byte) : M (Option (List (UTCTime × Obs))) := do
  let t ← obsStamp m
  let r ← convertUBX m
  .ok (r.map (·.map fun o => (t, o)))

end Ublox.Ros
