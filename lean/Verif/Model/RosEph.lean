import Verif.Model.Nav

/-!
# Model of the ephemeris callbacks of the ROS node (src/ros/ublox_ros.cpp:330-417)

The message types are generated from msg/Ephemeris.msg and msg/GlonassEphemeris.msg: `uint8` … `uint32` and `int32` members
take the C++ conversion of what is assigned to them; `time` has the members `uint32_t sec, nsec`.  `float64` members hold the
`double` assigned (symbolic, see Model/NavGps).  The header stamp (`ros::Time::now()`) and the debug line on `std::cerr` are
dropped.  `tow`, `anti_spoof` and `age_of_data_offset`, which no decoder ever assigns, are zero in every ephemeris
(Model/NavGps) and zero in the message.
-/

namespace Ublox.Ros

open Nav (Eph GEph Dbl)

/-- Conversion of an integer to `uintN_t`. (C++ semantics; the member types are msg/Ephemeris.msg:3-29.) -/
def uN (n : Nat) (x : Int) : Nat := (x % 2 ^ n).toNat

/-- Conversion of an integer to `int32_t`. (C++ semantics; the member types are msg/GlonassEphemeris.msg:16-20.) -/
def i32 (x : Int) : Int := x.bmod (2 ^ 32)

/-- `ublox::Ephemeris`. msg/Ephemeris.msg:1-50. -/
structure EphMsg where
  sat : Nat
  gnssID : Nat
  toeSec : Nat
  toeNsec : Nat
  tocSec : Nat
  tocNsec : Nat
  tow : Nat
  iodc : Nat
  iode : Nat
  week : Nat
  toes : Nat
  tocs : Nat
  health : Nat
  alertFlag : Nat
  antiSpoof : Nat
  codeOnL2 : Nat
  ura : Nat
  l2PDataFlag : Nat
  fitIntervalFlag : Nat
  ageOfDataOffset : Nat
  tgd : List Dbl
  af2 : Dbl
  af1 : Dbl
  af0 : Dbl
  m0 : Dbl
  deltaN : Dbl
  ecc : Dbl
  sqrta : Dbl
  omega0 : Dbl
  i0 : Dbl
  w : Dbl
  omegadot : Dbl
  idot : Dbl
  cuc : Dbl
  cus : Dbl
  crc : Dbl
  crs : Dbl
  cic : Dbl
  cis : Dbl
  deriving DecidableEq

/-- The message `ephCB` publishes. ublox_ros.cpp:330-381. -/
def ephMsg (e : Eph) : EphMsg where
  sat := uN 8 e.sat.toNat
  gnssID := uN 8 e.gnssID.toNat
  toeSec := uN 32 e.toe.sec
  toeNsec := uN 32 e.toe.nsec
  tocSec := uN 32 e.toc.sec
  tocNsec := uN 32 e.toc.nsec
  tow := 0
  iodc := uN 16 e.iodc
  iode := uN 8 e.iode
  week := uN 16 e.week
  toes := uN 32 e.toes
  tocs := uN 32 e.tocs
  health := uN 8 e.health
  alertFlag := uN 8 e.alert
  antiSpoof := 0
  codeOnL2 := uN 8 e.codeOnL2
  ura := uN 8 e.ura
  l2PDataFlag := uN 8 e.l2p
  fitIntervalFlag := uN 8 e.fit
  ageOfDataOffset := 0
  tgd := [e.tgd0, e.tgd1, e.tgd2, e.tgd3]
  af2 := e.af2
  af1 := e.af1
  af0 := e.af0
  m0 := e.m0
  deltaN := e.deltaN
  ecc := e.ecc
  sqrta := e.sqrta
  omega0 := e.omega0
  i0 := e.i0
  w := e.w
  omegadot := e.omegadot
  idot := e.idot
  cuc := e.cuc
  cus := e.cus
  crc := e.crc
  crs := e.crs
  cic := e.cic
  cis := e.cis

/-- `ublox::GlonassEphemeris`. msg/GlonassEphemeris.msg:1-26. -/
structure GEphMsg where
  sat : Nat
  gnssID : Nat
  toeSec : Nat
  toeNsec : Nat
  tofSec : Nat
  tofNsec : Nat
  iode : Int
  frq : Int
  svh : Int
  sva : Int
  age : Int
  pos : List Dbl
  vel : List Dbl
  acc : List Dbl
  taun : Dbl
  gamn : Dbl
  dtaun : Dbl
  deriving DecidableEq

/-- The message `gephCB` publishes. ublox_ros.cpp:383-417. -/
def gephMsg (g : GEph) : GEphMsg where
  sat := uN 8 g.sat.toNat
  gnssID := uN 8 g.gnssID.toNat
  toeSec := uN 32 g.toe.sec
  toeNsec := uN 32 g.toe.nsec
  tofSec := uN 32 g.tof.sec
  tofNsec := uN 32 g.tof.nsec
  iode := i32 g.iode
  frq := i32 g.frq
  svh := i32 g.svh
  sva := i32 g.sva
  age := i32 g.age
  pos := [g.pos0, g.pos1, g.pos2]
  vel := [g.vel0, g.vel1, g.vel2]
  acc := [g.acc0, g.acc1, g.acc2]
  taun := g.taun
  gamn := g.gamn
  dtaun := g.dtaun

end Ublox.Ros
