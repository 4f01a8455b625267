import Verif.Model.TimePrint
import Verif.Model.Nav
import Verif.Model.ReadSerial
import Verif.Model.Tables

/-!
# What `read_log` and `read_serial` print about an ephemeris

The wall clock (`UTCTime::now()`) and `gmtime` are parameters.
-/

namespace Ublox.Print
open UTCTime (decInt decNat Tm)
open Nav

/-- The line of exclamation marks. read_log.cpp:77, 82; read_serial.cpp:81, 86. -/
def bangs : String := "!!!!!!!!!!!!!!!!!!!!!!!!!!!!!!!!!!!!!!!!!!!!!!!!!!!!!!!!!!\n"

/-- The line of asterisks. read_log.cpp:87, 92; read_serial.cpp:108, 113. -/
def stars : String := "*************************************************************\n"

/-- Five streamed statements: frame, head, satellite, current time, two times, frame. read_log.cpp:77-82, 87-92;
read_serial.cpp:81-86, 108-113. -/
def announce (gmtime : Int → Option Tm) (frame head : String) (sat : Byte) (now t1 t2 : UTCTime) : M (List Char) := do
  let n ← UTCTime.print gmtime now
  let a ← UTCTime.print gmtime t1
  let b ← UTCTime.print gmtime t2
  .ok (frame.toList ++ head.toList ++ decInt (sat.toNat : Int) ++ ", now = ".toList ++ n ++ ", toe = ".toList ++ a ++
    ", tof = ".toList ++ b ++ "\n".toList ++ frame.toList)

/-- `eph_callback` of `read_log`. read_log.cpp:75-83. -/
def readLogEph (gmtime : Int → Option Tm) (now : UTCTime) (e : Eph) : M (List Char) :=
  announce gmtime bangs "GPS sat: " e.sat now e.toe e.toe

/-- `eph_callback` of `read_serial`, up to the totals (`Model/ReadSerial`). read_serial.cpp:79-86. -/
def readSerialEph (gmtime : Int → Option Tm) (now : UTCTime) (e : Eph) : M (List Char) :=
  announce gmtime bangs (ephType e.gnssID ++ " sat: ") e.sat now e.toe e.toe

/-- `geph_callback` of both programs, up to the totals. read_log.cpp:85-93; read_serial.cpp:106-113. -/
def gephText (gmtime : Int → Option Tm) (now : UTCTime) (g : GEph) : M (List Char) :=
  announce gmtime stars "Glonass sat:" g.sat now g.toe g.tof

/-- A range-`for` printing the elements of a set, each followed by a comma and a blank. read_serial.cpp:93, 101, 116. -/
def satList : List Nat → List Char
  | [] => []
  | n :: r => decNat n ++ ", ".toList ++ satList r

/-- The three statements that print a total. read_serial.cpp:92-94, 100-102, 115-117. -/
def total (head : String) (n : Nat) (l : List Nat) : List Char :=
  head.toList ++ decNat n ++ ": ".toList ++ satList l ++ "\n".toList

/-- A line of totals. read_serial.cpp:92-94, 100-102, 115-117. -/
def totalText : ReadSerial.Line → List Char
  | .gps n l => total "Total GPS: " n l
  | .gal n l => total "Total GAL: " n l
  | .glo n l => total "Total GLONASS: " n l

end Ublox.Print
