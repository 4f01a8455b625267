import Verif.Model.EphPrint
import Verif.Model.EphDbl
import Verif.Model.PrintNum

/-!
# `os << eph`: the text of an ephemeris
-/

namespace Ublox.Print

open Nav
open UTCTime (decInt Tm)

/-- `os << d` for a `double` member.  A constant the code does not define does not compile (0 here). nav.h:251-272. -/
def dblText (d : Dbl) : List Char := genText (d.ieee.getD 0)

/-- `os << label << (int)n << "\n"`: the value is taken modulo 2^32. nav.h:234, 237-250. -/
def intLine (label : String) (n : Nat) : List Char := label.toList ++ decInt ((n : Int).bmod (2 ^ 32)) ++ "\n".toList

/-- `os << label << d << "\n"`. nav.h:251-272. -/
def dblLine (label : String) (d : Dbl) : List Char := label.toList ++ dblText d ++ "\n".toList

/-- `os << label << t << " (" << t.sec << ", " << t.nsec << ")" << "\n"`. nav.h:235-236. -/
def timeLine (gmtime : Int → Option Tm) (label : String) (t : UTCTime) : M (List Char) := do
  let s ← UTCTime.print gmtime t
  .ok (label.toList ++ s ++ " (".toList ++ decInt t.sec ++ ", ".toList ++ decInt t.nsec ++ ")\n".toList)

/-- `operator<<(std::ostream&, const Ephemeris&)`; it has no `return`.  `tow`, `anti_spoof` and `age_of_data_offset`, which nothing
assigns, are 0 (value-initialised). nav.h:231-273; nav.cpp:103. -/
def ephStream (md : Mode) (gmtime : Int → Option Tm) (e : Eph) : M (List Char) := do
  let toe ← timeLine gmtime "toe " e.toe
  let toc ← timeLine gmtime "toc " e.toc
  offEnd md
  .ok ("Constellation: ".toList ++ (ephType e.gnssID).toList ++ "\n".toList ++
    ("Sat ID: ".toList ++ decInt (e.sat.toNat : Int) ++ "\n\n".toList) ++ toe ++ toc ++
    intLine "tow " 0 ++ intLine "iodc " e.iodc ++ intLine "iode " e.iode ++ intLine "week " e.week ++ intLine "toes " e.toes ++
    intLine "tocs " e.tocs ++ intLine "health " e.health ++ intLine "alert_flag " e.alert ++ intLine "anti_spoof " 0 ++
    intLine "code_on_L2 " e.codeOnL2 ++ intLine "ura " e.ura ++ intLine "L2_P_data_flag " e.l2p ++
    intLine "fit_interval_flag " e.fit ++ intLine "age_of_data_offset " 0 ++ dblLine "tgd[0] " e.tgd0 ++ dblLine "tgd[1] " e.tgd1 ++
    dblLine "tgd[2] " e.tgd2 ++ dblLine "tgd[3] " e.tgd3 ++ dblLine "af2 " e.af2 ++ dblLine "af1 " e.af1 ++ dblLine "af0 " e.af0 ++
    dblLine "m0 " e.m0 ++ dblLine "delta_n " e.deltaN ++ dblLine "ecc " e.ecc ++ dblLine "sqrta " e.sqrta ++
    dblLine "omega0 " e.omega0 ++ dblLine "i0 " e.i0 ++ dblLine "w " e.w ++ dblLine "omegadot " e.omegadot ++ dblLine "idot " e.idot ++
    dblLine "cuc " e.cuc ++ dblLine "cus " e.cus ++ dblLine "crc " e.crc ++ dblLine "crs " e.crs ++ dblLine "cic " e.cic ++
    dblLine "cis " e.cis)

end Ublox.Print
