import Verif.Model.Base

/-!
# Model of the set-up of the programs: arguments, parameters, connections

`src/examples/{base,rover,read_serial,read_log}.cpp` (`main`) and the constructor in `src/ros/ublox_ros.cpp`.  A program is
the list of what it opens and connects, in order; the callbacks it registers and everything after the set-up are modelled
elsewhere (`ExamplePrint`, `ReadSerial`, `RosNode`, …).  `argv` includes the name of the program.
-/

namespace Ublox.Programs

/-- Host and port of a socket. (Pair of arguments of `UDP(…)`, async_comm_adapter.h:10-19.) -/
structure Endpoint where
  host : String
  port : Nat
  deriving DecidableEq, Repr

/-- What a program opens or connects during its set-up (constructor calls in the `main` functions and in
ublox_ros.cpp:50-108). -/
inductive Act where
  | serial (port : String) (baud : Nat)
  | replay (file : String)
  | device
  | udp (bind remote : Endpoint)
  | base
  | rover
  | record (file : String)
  | refuse (text : String)
  deriving DecidableEq, Repr

/-- `main`. base.cpp:76-94. -/
def baseMain (argv : List String) : List Act :=
  let port := if argv.length > 1 then argv.getD 1 "" else "/dev/ttyACM0"
  [.serial port 921600, .device, .udp ⟨"localhost", 16140⟩ ⟨"localhost", 16145⟩, .base]

/-- `main`. rover.cpp:77-98. -/
def roverMain (argv : List String) : List Act :=
  let port := if argv.length > 1 then argv.getD 1 "" else "/dev/ttyACM1"
  [.serial port 921600, .device, .udp ⟨"localhost", 16145⟩ ⟨"localhost", 16140⟩, .rover]

/-- `main`. read_serial.cpp:120-146. -/
def readSerialMain (argv : List String) : List Act :=
  let port := if argv.length > 1 then argv.getD 1 "" else "/dev/ttyACM0"
  let logFile := if argv.length > 2 then argv.getD 2 "" else ""
  [.serial port 3000000, .device] ++ (if logFile ≠ "" then [.record logFile] else [])

/-- `main`. read_log.cpp:95-111. -/
def readLogMain (argv : List String) : List Act :=
  if argv.length > 1 then [.replay (argv.getD 1 ""), .device] else [.refuse "Must supply a log file to read\n"]

/-- The private parameters of the ROS node that are set (`none`: not set). ublox_ros.cpp:52-58. -/
structure Params where
  rtkType : Option Int := none
  serialPort : Option String := none
  localHost : Option String := none
  localPort : Option Int := none
  remoteHost : Option String := none
  remotePort : Option Int := none
  logFilename : Option String := none
  deriving DecidableEq, Repr

/-- Conversion of an `int` parameter to the `uint16_t` port number of a socket. ublox_ros.cpp:80,
async_comm_adapter.h:13-16. -/
def port16 (p : Int) : Nat := (p % 65536).toNat

/-- Constructor of the ROS node. ublox_ros.cpp:50-91. `rtk_type & RTK` tests bit 1 (ublox.h:42-48); the parameter
`log_filename` is read into a variable that is not used again. -/
def rosNode (p : Params) : List Act :=
  let rtkType := p.rtkType.getD 0
  let _logFilename := p.logFilename.getD ""
  [.serial (p.serialPort.getD "/dev/ttyACM0") 921600, .device] ++
  (if rtkType / 2 % 2 = 1 then
    [.udp ⟨p.localHost.getD "localhost", port16 (p.localPort.getD 16140)⟩
      ⟨p.remoteHost.getD "localhost", port16 (p.remotePort.getD 16145)⟩] ++
    (if rtkType = 2 then [.rover] else if rtkType = 3 then [.base] else [])
  else [])

end Ublox.Programs
