import Verif.Model.Msgs
import Verif.Model.Tables
import Mathlib.Data.Rat.Floor

/-!
# Model of the ROS node (src/ros/ublox_ros.cpp, include/UBLOX/ublox_ros.h) and of `convertUBX` (src/obs.cpp)

Published `double`s are exact rationals (rounding is not modelled); floating-point measurements that are only copied
are represented by their bits.  Time stamps of the ROS host (`ros::Time::now()`) are dropped.
-/

namespace Ublox.Ros

/-- `float64[3]`. msg/PosVelEcef.msg. -/
structure V3 where
  x : ℚ
  y : ℚ
  z : ℚ
  deriving DecidableEq

/-- `PosVelEcef`, the fields ever assigned. msg/PosVelEcef.msg. -/
structure EcefMsg where
  lla : V3
  position : V3
  velocity : V3
  hAcc : ℚ
  vAcc : ℚ
  sAcc : ℚ
  deriving DecidableEq

/-- `PositionVelocityTime`. msg/PositionVelocityTime.msg. -/
structure PvtMsg where
  year : Int
  month : Int
  day : Int
  hour : Int
  min : Int
  sec : Int
  nano : Int
  tAcc : Int
  valid : Int
  fixType : Int
  flags : Int
  flags2 : Int
  numSV : Int
  lla : V3
  hMSL : ℚ
  hAcc : ℚ
  vAcc : ℚ
  velNED : V3
  gSpeed : ℚ
  headMot : ℚ
  sAcc : ℚ
  headAcc : ℚ
  pDOP : ℚ
  headVeh : ℚ
  deriving DecidableEq

/-- `RelPos`. msg/RelPos.msg. -/
structure RelPosMsg where
  refStationId : Int
  relPosNED : V3
  relPosLength : ℚ
  relPosHeading : ℚ
  relPosHPNED : V3
  relPosHPLength : ℚ
  accNED : V3
  accLength : ℚ
  accHeading : Int
  flags : Int
  deriving DecidableEq

/-- `SurveyStatus`. msg/SurveyStatus.msg. -/
structure SurveyMsg where
  dur : Int
  meanXYZ : V3
  meanXYZHP : V3
  meanAcc : Int
  obs : Int
  valid : Int
  active : Int
  deriving DecidableEq

/-- `Observation`, the fields assigned. msg/Observation.msg. -/
structure ObsMsg where
  sat : Int
  gnssID : Int
  signal : Int
  freq : ℚ
  cno : Int
  locktime : Int
  P : Int
  L : Int
  D : Int
  stdevP : ℚ
  stdevL : ℚ
  stdevD : ℚ
  LLI : Int
  deriving DecidableEq

/-- What the node publishes. ublox_ros.cpp:145-328 (`publish` calls). -/
inductive Pub where
  | pvt (m : PvtMsg)
  | ecef (m : EcefMsg)
  | relpos (m : RelPosMsg)
  | survey (m : SurveyMsg)
  | obs (ms : List ObsMsg)
  deriving DecidableEq

/-- Data members of `UBLOX_ROS` that the callbacks use. ublox_ros.h:79-83. -/
structure Node where
  posTow : Int
  velTow : Int
  pvtTow : Int
  ecef : EcefMsg
  deriving DecidableEq

/-- The literal behind `M_PI` (math.h). Used at ublox_ros.cpp:43-46. -/
def M_PI : ℚ := 3.14159265358979323846

/-- `deg2rad`. ublox_ros.cpp:43-46. -/
def deg2rad (x : ℚ) : ℚ := M_PI / 180 * x

/-- `if (pos_tow_ == pvt_tow_ && pos_tow_ == vel_tow_) ecef_pub_.publish(ecef_msg_);`
ublox_ros.cpp:188-189, 241-242, 254-255. -/
def condPub (s : Node) : List Pub :=
  if s.posTow = s.pvtTow ∧ s.posTow = s.velTow then [.ecef s.ecef] else []

/-- The message built by `pvtCB`. ublox_ros.cpp:148-177. -/
def pvtMsg (m : List Byte) : PvtMsg :=
  let g := fun n => navPvt.get n m
  { year := g "year", month := g "month", day := g "day", hour := g "hour", min := g "min", sec := g "sec",
    nano := g "nano", tAcc := g "tAcc", valid := g "valid", fixType := g "fixType", flags := g "flags",
    flags2 := g "flags2", numSV := g "numSV",
    lla := ⟨g "lat" * 1e-7, g "lon" * 1e-7, g "height" * 1e-3⟩,
    hMSL := g "hMSL" * 1e-3, hAcc := g "hAcc" * 1e-3, vAcc := g "vAcc" * 1e-3,
    velNED := ⟨g "velN" * 1e-3, g "velE" * 1e-3, g "velD" * 1e-3⟩,
    gSpeed := g "gSpeed" * 1e-3, headMot := g "headMot" * 1e-5, sAcc := g "sAcc" * 1e-3,
    headAcc := g "headAcc" * 1e-5, pDOP := g "pDOP" * 0.01, headVeh := g "headVeh" * 1e-5 }

/-- `pvtCB`. ublox_ros.cpp:145-190. -/
def pvtCB (s : Node) (m : List Byte) : Node × List Pub :=
  let out := pvtMsg m
  let s := { s with
    posTow := navPvt.get "iTOW" m,
    ecef := { s.ecef with lla := out.lla, hAcc := out.hAcc, vAcc := out.vAcc, sAcc := out.sAcc } }
  (s, .pvt out :: condPub s)

/-- The message built by `relposCB`. ublox_ros.cpp:194-212. -/
def relposMsg (m : List Byte) : RelPosMsg :=
  let g := fun n => navRelposned.get n m
  { refStationId := g "refStationId",
    relPosNED := ⟨g "relPosN" * 1e-2, g "relPosE" * 1e-2, g "relPosD" * 1e-2⟩,
    relPosLength := g "relPosLength" * 1e-2,
    relPosHeading := deg2rad (g "relPosHeading" * 1e-5),
    relPosHPNED := ⟨g "relPosHPN" * 1e-3 * 0.1, g "relPosHPE" * 1e-3 * 0.1, g "relPosHPD" * 1e-3 * 0.1⟩,
    relPosHPLength := g "relPosHPLength" * 1e-3 * 0.1,
    accNED := ⟨g "accN" * 1e-3 * 0.1, g "accE" * 1e-3 * 0.1, g "accD" * 1e-3 * 0.1⟩,
    accLength := g "accLength" * 1e-3 * 0.1,
    accHeading := ⌊deg2rad (g "accHeading" * 1e-5)⌋,
    flags := g "flags" }

/-- The message built by `svinCB`. ublox_ros.cpp:218-230. -/
def surveyMsg (m : List Byte) : SurveyMsg :=
  let g := fun n => navSvin.get n m
  { dur := g "dur",
    meanXYZ := ⟨g "meanX" * 1e-2, g "meanY" * 1e-2, g "meanZ" * 1e-2⟩,
    meanXYZHP := ⟨g "meanXHP" * 1e-3, g "meanYHP" * 1e-3, g "meanZHP" * 1e-3⟩,
    meanAcc := g "meanAcc", obs := g "obs", valid := g "valid", active := g "active" }

/-- `posECEFCB`. ublox_ros.cpp:234-244. -/
def posECEFCB (s : Node) (m : List Byte) : Node × List Pub :=
  let g := fun n => navPosecef.get n m
  let s := { s with posTow := g "iTOW", ecef := { s.ecef with position := ⟨g "ecefX", g "ecefY", g "ecefZ"⟩ } }
  (s, condPub s ++ [.ecef s.ecef])

/-- `velECEFCB`: the three assignments all go to `velocity[0]`. ublox_ros.cpp:246-257. -/
def velECEFCB (s : Node) (m : List Byte) : Node × List Pub :=
  let g := fun n => navVelecef.get n m
  let v := s.ecef.velocity
  let v := { v with x := (g "ecefVX" : ℚ) }
  let v := { v with x := (g "ecefVY" : ℚ) }
  let v := { v with x := (g "ecefVZ" : ℚ) }
  let s := { s with velTow := g "iTOW", ecef := { s.ecef with velocity := v } }
  (s, condPub s ++ [.ecef s.ecef])

/-- A raw measurement: the members of `RawxMeas` that are used. ubx_defs.h:867-888. -/
structure Meas where
  prMeas : Int
  cpMeas : Int
  doMeas : Int
  gnssId : Int
  svId : Int
  sigId : Int
  freqId : Int
  locktime : Int
  cno : Int
  prStdev : Int
  cpStdev : Int
  doStdev : Int
  trkStat : Int
  deriving DecidableEq

/-- `msg.meas[i]`. ubx_defs.h:867-889. -/
def meas (m : List Byte) (i : Nat) : M Meas := do
  let prMeas ← measGet m i "prMeas"
  let cpMeas ← measGet m i "cpMeas"
  let doMeas ← measGet m i "doMeas"
  let gnssId ← measGet m i "gnssId"
  let svId ← measGet m i "svId"
  let sigId ← measGet m i "sigId"
  let freqId ← measGet m i "freqId"
  let locktime ← measGet m i "locktime"
  let cno ← measGet m i "cno"
  let prStdev ← measGet m i "prStdev"
  let cpStdev ← measGet m i "cpStdev"
  let doStdev ← measGet m i "doStdev"
  let trkStat ← measGet m i "trkStat"
  .ok { prMeas, cpMeas, doMeas, gnssId, svId, sigId, freqId, locktime, cno, prStdev, cpStdev, doStdev, trkStat }

/-- `uint8_t` conversion of an `int`. (C semantics; ublox_ros.cpp:269, the `uint8 signal` of msg/Observation.msg.) -/
def u8 (x : Int) : Int := x % 256

/-- The carrier frequency chosen by the `switch` on the message's signal constants (GPS_L1_CA = 1 … GLONASS_L2 = 14).
ublox_ros.cpp:270-306, msg/Observation.msg, nav.h:63-64, 124-127. -/
def freqOf (signal freqId : Int) : ℚ :=
  if signal = 1 ∨ signal = 5 ∨ signal = 4 ∨ signal = 12 then 1.57542e9
  else if signal = 2 ∨ signal = 3 then 1.22760e9
  else if signal = 13 then 1.60200e9 + freqId * 0.56250e6
  else if signal = 14 then 1.24600e9 + freqId * 0.43750e6
  else 0

/-- `cpMeas != 0.0` on the bits of a double: false for +0 and -0 only. ublox_ros.cpp:317, obs.cpp:46. -/
def nonzero (bits : Int) : Prop := bits ≠ 0 ∧ bits ≠ 2 ^ 63

instance (bits : Int) : Decidable (nonzero bits) := inferInstanceAs (Decidable (_ ∧ _))

/-- `(trkStat & trkStat_HalfCyc | trkStat_subHalfCyc)` as a truth value. ublox_ros.cpp:317-318, obs.cpp:47. -/
def slipBits (trkStat : Int) : Prop := (trkStat.toNat &&& 4) ||| 8 ≠ 0

instance (t : Int) : Decidable (slipBits t) := inferInstanceAs (Decidable (_ ≠ _))

/-- The element `out.obs[i]` computed from `msg.meas[i]`. ublox_ros.cpp:267-325. -/
def obsOf (m : Meas) : ObsMsg :=
  let signal := u8 (sigId m.gnssId m.sigId)
  { sat := m.svId, gnssID := m.gnssId, signal, freq := freqOf signal m.freqId, cno := m.cno, locktime := m.locktime,
    P := m.prMeas, L := m.cpMeas, D := m.doMeas, stdevP := 0.01 * 2 ^ m.prStdev, stdevL := 0.004 * m.cpStdev,
    stdevD := 0.002 * 2 ^ m.doStdev, LLI := if nonzero m.cpMeas ∧ slipBits m.trkStat then 2 else 0 }

/-- `for (i < msg.numMeas) out.obs[i] = …`: the vector is never resized. ublox_ros.cpp:265-326. -/
def obsLoop (m : List Byte) (obs : List ObsMsg) (i : Nat) : Nat → M (List ObsMsg)
  | 0 => .ok obs
  | k + 1 => do
    let x ← meas m i
    if i < obs.length then obsLoop m (obs.set i (obsOf x)) (i + 1) k
    else .error .oobWrite

/-- `obsCB`; a negative count runs the loop not at all. ublox_ros.cpp:259-328. -/
def obsCB (s : Node) (m : List Byte) : M (Node × List Pub) := do
  let obs ← obsLoop m [] 0 (rxmRawx.get "numMeas" m).toNat
  .ok (s, [.obs obs])

/-- `UBLOX_ROS::got_ubx`. ublox_ros.cpp:110-143. -/
def gotUbx (s : Node) (cls id : Byte) (m : List Byte) : M (Node × List Pub) :=
  if cls = 0x01 then
    if id = 0x07 then .ok (pvtCB s m)
    else if id = 0x3C then .ok (s, [.relpos (relposMsg m)])
    else if id = 0x01 then .ok (posECEFCB s m)
    else if id = 0x11 then .ok (velECEFCB s m)
    else if id = 0x3B then .ok (s, [.survey (surveyMsg m)])
    else .ok (s, [])
  else if cls = 0x02 then
    if id = 0x15 then obsCB s m else .ok (s, [])
  else .ok (s, [])

/-- A history of messages delivered to the node. (Composition; one `got_ubx` per message, ublox_ros.cpp:110-143.) -/
def run (s : Node) : List (Byte × Byte × List Byte) → M (Node × List Pub)
  | [] => .ok (s, [])
  | (cls, id, m) :: rest => do
    let (s, p) ← gotUbx s cls id m
    let (s, ps) ← run s rest
    .ok (s, p ++ ps)

/-! ### `convertUBX` (src/obs.cpp) -/

/-- `Obs`, the fields `convertUBX` assigns. obs.cpp:36-60. -/
structure Obs where
  satId : Int
  gnssId : Int
  sigId : Int
  lockTime : Int
  SNR : Int
  z0 : Int
  z1 : Int
  z2 : Int
  LLI : Int
  covL : Int
  covP : Int
  deriving DecidableEq

/-- One element; `covL` is assigned twice, `SNR` is `cno * 4`; `LLI_HALFC` is 2 (its header is missing from the
repository; RTKLIB's value is assumed).  obs.cpp:36-58. -/
def convertOne (m : Meas) : Obs :=
  { satId := m.svId, gnssId := m.gnssId, sigId := m.sigId, lockTime := m.locktime, SNR := m.cno * 4,
    z0 := m.prMeas, z1 := m.doMeas, z2 := m.cpMeas, LLI := if nonzero m.cpMeas ∧ slipBits m.trkStat then 2 else 0,
    covL := m.cpStdev * m.cpStdev, covP := m.prStdev * m.prStdev }

/-- The loop of `convertUBX` over elements `i, i+1, …`. obs.cpp:34-59. -/
def convertLoop (m : List Byte) (i : Nat) : Nat → M (List Obs)
  | 0 => .ok []
  | k + 1 => do
    let x ← meas m i
    let rest ← convertLoop m (i + 1) k
    .ok (convertOne x :: rest)

/-- `convertUBX`: `none` is the exception thrown by `resize` for a negative count (converted to a huge `size_t`).
obs.cpp:27-60. -/
def convertUBX (m : List Byte) : M (Option (List Obs)) :=
  let n := rxmRawx.get "numMeas" m
  if n < 0 then .ok none
  else do
    let l ← convertLoop m 0 n.toNat
    .ok (some l)

/-! ### The status line of the rover example (src/examples/rover.cpp) -/

/-- What `relposned_callback` reports. src/examples/rover.cpp:47-75. -/
structure RoverStatus where
  rtk : Bool
  movingBase : Bool
  floating : Bool
  fixed : Bool
  valid : Bool
  deriving DecidableEq

/-- `relposned_callback`: `msg.flags && constant` is `flags ≠ 0`. rover.cpp:47-75. -/
def roverStatus (flags : Nat) : RoverStatus :=
  let both (a b : Nat) : Bool := a != 0 && b != 0
  if both flags 0b000000010 then
    { rtk := true, movingBase := both flags 0b000100000,
      floating := both flags 0b000001000,
      fixed := if both flags 0b000001000 then false else both flags 0b000010000,
      valid := both flags 0b000000100 }
  else ⟨false, false, false, false, false⟩

end Ublox.Ros
