import Verif.Model.Ros
import Verif.Model.TimeDbl

/-!
# The messages of the ROS node in IEEE arithmetic (src/ros/ublox_ros.cpp)

`Model/Ros.lean` computes the published doubles exactly; here every literal and every product is rounded as the hardware does.
The integers of the UBX messages (at most 32 bits) are converted to `double` exactly.  C++ evaluates `a * b * c` from the left.
-/

namespace Ublox.Ros

open Dbl64

/-- Product of two doubles. (IEEE 754-2008, 5.4.1.) -/
def mulD (a b : ℚ) : ℚ := rne (a * b)

/-- `deg2rad`: `M_PI / 180.0` is itself a rounded quotient of a rounded literal. ublox_ros.cpp:43-46. -/
def deg2radD (x : ℚ) : ℚ := mulD (rne (rne M_PI / 180)) x

/-- `n * 1e-3 * .1`. ublox_ros.cpp:204-211. -/
def tenthMm (n : ℤ) : ℚ := mulD (mulD n (rne 1e-3)) (rne 0.1)

/-- The message built by `pvtCB`. ublox_ros.cpp:148-177. -/
def pvtMsgD (m : List Byte) : PvtMsg :=
  let g := fun n => navPvt.get n m
  { year := g "year", month := g "month", day := g "day", hour := g "hour", min := g "min", sec := g "sec",
    nano := g "nano", tAcc := g "tAcc", valid := g "valid", fixType := g "fixType", flags := g "flags",
    flags2 := g "flags2", numSV := g "numSV",
    lla := ⟨mulD (g "lat") (rne 1e-7), mulD (g "lon") (rne 1e-7), mulD (g "height") (rne 1e-3)⟩,
    hMSL := mulD (g "hMSL") (rne 1e-3), hAcc := mulD (g "hAcc") (rne 1e-3), vAcc := mulD (g "vAcc") (rne 1e-3),
    velNED := ⟨mulD (g "velN") (rne 1e-3), mulD (g "velE") (rne 1e-3), mulD (g "velD") (rne 1e-3)⟩,
    gSpeed := mulD (g "gSpeed") (rne 1e-3), headMot := mulD (g "headMot") (rne 1e-5), sAcc := mulD (g "sAcc") (rne 1e-3),
    headAcc := mulD (g "headAcc") (rne 1e-5), pDOP := mulD (g "pDOP") (rne 0.01), headVeh := mulD (g "headVeh") (rne 1e-5) }

/-- The message built by `relposCB`. ublox_ros.cpp:194-212. -/
def relposMsgD (m : List Byte) : RelPosMsg :=
  let g := fun n => navRelposned.get n m
  { refStationId := g "refStationId",
    relPosNED := ⟨mulD (g "relPosN") (rne 1e-2), mulD (g "relPosE") (rne 1e-2), mulD (g "relPosD") (rne 1e-2)⟩,
    relPosLength := mulD (g "relPosLength") (rne 1e-2),
    relPosHeading := deg2radD (mulD (g "relPosHeading") (rne 1e-5)),
    relPosHPNED := ⟨tenthMm (g "relPosHPN"), tenthMm (g "relPosHPE"), tenthMm (g "relPosHPD")⟩,
    relPosHPLength := tenthMm (g "relPosHPLength"),
    accNED := ⟨tenthMm (g "accN"), tenthMm (g "accE"), tenthMm (g "accD")⟩,
    accLength := tenthMm (g "accLength"),
    accHeading := trunc (deg2radD (mulD (g "accHeading") (rne 1e-5))),
    flags := g "flags" }

/-- The message built by `svinCB`. ublox_ros.cpp:218-230. -/
def surveyMsgD (m : List Byte) : SurveyMsg :=
  let g := fun n => navSvin.get n m
  { dur := g "dur",
    meanXYZ := ⟨mulD (g "meanX") (rne 1e-2), mulD (g "meanY") (rne 1e-2), mulD (g "meanZ") (rne 1e-2)⟩,
    meanXYZHP := ⟨mulD (g "meanXHP") (rne 1e-3), mulD (g "meanYHP") (rne 1e-3), mulD (g "meanZHP") (rne 1e-3)⟩,
    meanAcc := g "meanAcc", obs := g "obs", valid := g "valid", active := g "active" }

end Ublox.Ros
