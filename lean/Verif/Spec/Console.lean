import Verif.Model.ExamplePrint
import Verif.Spec.Device
import Verif.Spec.Ros

/-!
# What the example programs should print for the frames a receiver sends (C123)
-/

namespace Ublox.Print

open UTCTime (decInt)
open RosSpec (doc)

/-- The calls the program itself has made: everything but the arrival of data. -/
def calls (evs : List Dev.Ev) : List Dev.Ev :=
  evs.filter fun
    | .rx _ => false
    | .rtkRx .. => false
    | _ => true

/-- The report of a NAV-RELPOSNED message: the time in whole seconds of the week, the vector to the rover and its length in
centimetres; just `No RTK` if no flag at all is set.  (The words in front are those of C86.) -/
def roverReport (p : List Byte) : List Piece :=
  let g (name : String) := decInt (doc MsgSpec.navRelposned name p)
  if doc MsgSpec.navRelposned "flags" p = 0 then [lit "No RTK \n"]
  else [lit "RTK", lit ", Moving Base", lit " , Floating \n", lit "valid relative position components \n",
    lit "tow: ", .txt (decInt (doc MsgSpec.navRelposned "iTow" p / 1000)), lit " relNED: ", .txt (g "relPosN"), lit ", ",
    .txt (g "relPosE"), lit ", ", .txt (g "relPosD"), lit ", Distance: ", .txt (g "relPosLength"), lit "\n"]

/-- What the flag bits of NAV-RELPOSNED mean: differential solution, moving base, float, fixed, valid vector. -/
def relposBit (p : List Byte) (k : Nat) : Bool := (doc MsgSpec.navRelposned "flags" p).toNat.testBit k

/-- The report the program is meant to make. -/
def roverMeant (p : List Byte) : List Piece :=
  let g (name : String) := decInt (doc MsgSpec.navRelposned name p)
  if relposBit p 1 then
    [lit "RTK"] ++ (if relposBit p 5 then [lit ", Moving Base"] else []) ++
    (if relposBit p 3 then [lit " , Floating \n"] else if relposBit p 4 then [lit " , Fixed \n"] else []) ++
    (if relposBit p 2 then [lit "valid relative position components \n"] else []) ++
    [lit "tow: ", .txt (decInt (doc MsgSpec.navRelposned "iTow" p / 1000)), lit " relNED: ", .txt (g "relPosN"), lit ", ",
     .txt (g "relPosE"), lit ", ", .txt (g "relPosD"), lit ", Distance: ", .txt (g "relPosLength"), lit "\n"]
  else [lit "No RTK \n"]

/-- A number of 32 bits printed as a signed one. -/
def signed32 (n : Int) : Int := if n < 2 ^ 31 then n else n - 2 ^ 32

/-- The report of a NAV-SVIN message: state, duration, mean position and accuracy in metres. -/
def surveyReport (p : List Byte) : List Piece :=
  let g (name : String) := doc MsgSpec.navSvin name p
  [lit "t: ", .txt (decInt (signed32 (g "iTow"))), lit ", ", (if g "active" ≠ 0 then lit "ACTIVE" else lit "INACTIVE"),
   lit ", dur: ", .txt (decInt (signed32 (g "dur"))), lit ", pos: [", .fixed 6 ((100 * g "meanX" + g "meanXHP") / 10000),
   lit ", ", .fixed 6 ((100 * g "meanY" + g "meanYHP") / 10000), lit ", ",
   .fixed 6 ((100 * g "meanZ" + g "meanZHP") / 10000), lit "], acc: ", .fixed 6 (g "meanAcc" / 10000), lit "\n"]

/-- The report of a NAV-PVT message (the milliseconds as C105 says). -/
def pvtReport (p : List Byte) : List Piece :=
  let g (name : String) := doc MsgSpec.navPvt name p
  [lit "t: ", .txt (decInt (g "year")), lit " ", .txt (decInt (g "month")), lit "/", .txt (decInt (g "day")), lit ", ",
   .txt (decInt (g "hour")), lit ":", .txt (decInt (g "min")), lit ":", .txt (decInt (g "sec")), lit ".",
   .txt (decInt ((g "nano").tdiv 1000000)), lit ", lla: ",
   .fixed 3 (g "lat" / 10 ^ 7), lit ", ", .fixed 3 (g "lon" / 10 ^ 7), lit ", ", .fixed 3 (g "height" / 1000),
   lit ", vel: ", .fixed 3 (g "velN" / 1000), lit ", ", .fixed 3 (g "velE" / 1000), lit ", ", .fixed 3 (g "velD" / 1000),
   lit "\n", lit "tow: ", .txt (decInt (signed32 (g "iTOW"))), lit "\n"]

/-- The report of an RXM-RAWX message: a line per measurement. -/
def rawxReport (p : List Byte) : List Piece :=
  (List.range (doc MsgSpec.rxmRawx "numMeas" p).toNat).flatMap fun k =>
    let g (name : String) := doc (MsgSpec.rawxMeas k) name p
    [lit "week: ", .txt (decInt (doc MsgSpec.rxmRawx "week" p)), lit ", tow: ", .real 8 3 (doc MsgSpec.rxmRawx "rcvTow" p),
     lit " gnss_id: ", .txt (decInt (g "gnssId")), lit ", sat_id: ", .txt (decInt (g "svId")), lit ", P ",
     .real 8 3 (g "prMeas"), lit ", L ", .real 8 3 (g "cpMeas"), lit ", D ", .real 4 3 (g "doMeas"), lit "\n"]

/-- What `rover` should print for a message from the receiver. -/
def roverOn : Msg → List Piece
  | .ubx c i p => if c = 0x01 ∧ i = 0x3C then roverReport p else []
  | .rtcm _ => []

/-- What `base` should print for a message from the receiver. -/
def baseOn : Msg → List Piece
  | .ubx c i p => if c = 0x01 ∧ i = 0x3B then surveyReport p else []
  | .rtcm _ => []

/-- What `read_log` should print for a message in the log. -/
def readLogOn : Msg → List Piece
  | .ubx c i p =>
    if c = 0x01 ∧ i = 0x07 then lit "GOT UBX MESSAGE\n" :: pvtReport p
    else if c = 0x02 ∧ i = 0x15 then lit "GOT UBX MESSAGE\n" :: rawxReport p
    else []
  | .rtcm _ => []

end Ublox.Print
