import Mathlib.Data.List.Basic

/-!
# Lifetimes: who may be called when

The example programs own a serial port, a device, a listener, a logger and a UDP link.  The serial port and the UDP link
each run a receive thread from their construction (`init()`) to their destruction; the objects they reach are known to them
only as raw pointers and references.  This model keeps who is alive and who is wired to whom.

Simplifications: what is in the received data is reduced to two bits: does it complete a UBX message the listener subscribed
to, does it complete an RTCM message.  Delivering one buffer is atomic, and so is each statement of `main`.  A link stops
delivering exactly when it is destroyed.  `ser.init()` is taken together with the construction of the port, likewise
`udp.init()`.  The link-level `debug` parser of a rover has static storage and lives for ever.
-/

namespace Ublox.Life

/-- The objects of the example programs. base.cpp:81-89; rover.cpp:86-95; read_serial.cpp:134-145. -/
inductive Obj where
  /-- `ac_adapter::Serial ser` -/
  | ser
  /-- `ublox::UBLOX ublox(ser)` -/
  | device
  /-- `UBX_Callback_Handler ubx_handler` -/
  | handler
  /-- `Logger* logger` -/
  | logger
  /-- `ac_adapter::UDP udp` -/
  | udp
  deriving DecidableEq, Repr

/-- Who is alive, and who is wired to whom. serial_interface.h:19-23; ubx.h:92; ublox.h:74-82. -/
structure St where
  alive : List Obj
  /-- `ser.listeners_` -/
  serListeners : List Obj
  /-- `ublox.ubx_.listeners_` without the device's own parser -/
  ubxListeners : List Obj
  /-- the device is a base and forwards RTCM messages to the UDP link: `type_ == BASE`, `rtk_interface_` -/
  base : Bool
  /-- the UDP link's `cb_` is the lambda of `config_rover` -/
  fwd : Bool
  deriving DecidableEq, Repr

/-- Before `main`. (No objects.) base.cpp:76-77. -/
def St.init : St := ⟨[], [], [], false, false⟩

/-- The statements of `main` that matter. base.cpp:81-106; rover.cpp:86-110; read_serial.cpp:134-166. -/
inductive Stmt where
  /-- construction of an object -/
  | new (o : Obj)
  /-- destruction of an object: end of its scope, or `delete` -/
  | del (o : Obj)
  /-- `ser.add_listener(o)`; in the constructor of the device, `ser_.add_listener(this)` -/
  | serListen (o : Obj)
  /-- `ublox.registerUBXListener(o)` -/
  | ubxListen (o : Obj)
  /-- `ublox.config_base(&udp, …)` -/
  | configBase
  /-- `ublox.config_rover(&udp)` -/
  | configRover
  deriving DecidableEq, Repr

/-- Effect of a statement. serial_interface.h:19-20; ublox.cpp:31, 60-67, 89-112; ublox.h:65. -/
def St.exec (s : St) : Stmt → St
  | .new o => { s with alive := o :: s.alive }
  | .del o => { s with alive := s.alive.filter (· ≠ o) }
  | .serListen o => { s with serListeners := s.serListeners ++ [o] }
  | .ubxListen o => { s with ubxListeners := s.ubxListeners ++ [o] }
  | .configBase => { s with base := true }
  | .configRover => { s with base := false, fwd := true }

/-- Data arriving on a link. async_comm_adapter.h:27-35, 52-60. -/
inductive Data where
  /-- on the serial port; `msg`: it completes a UBX message the handler subscribed to, `rtcm`: it completes an RTCM message -/
  | serial (msg rtcm : Bool)
  /-- on the UDP link -/
  | udp
  deriving DecidableEq, Repr

/-- A call through a pointer or reference to a destroyed object. (C++ [basic.life]; no code line.) -/
structure Fault where
  obj : Obj
  deriving DecidableEq, Repr

/-- Call a member function of `o`; the result lists who was called. (C++ [basic.life]; no code line.) -/
def St.call (s : St) (o : Obj) : Except Fault (List Obj) := if o ∈ s.alive then .ok [o] else .error ⟨o⟩

/-- Call each of a list of objects. (Range-`for` over a listener vector.) async_comm_adapter.h:56-59; ubx.cpp:446-450. -/
def St.callAll (s : St) : List Obj → Except Fault (List Obj)
  | [] => .ok []
  | o :: os => do
    let a ← s.call o
    let b ← s.callAll os
    .ok (a ++ b)

/-- One serial listener gets a buffer.  The device parses it, calls its UBX listeners if a message is complete, and as a base
writes a complete RTCM message to the UDP link; a logger writes to its file. async_comm_adapter.h:56-59; ubx.cpp:446-450;
ublox.cpp:120-148; logger.h:61-73. -/
def St.serialTo (s : St) (msg rtcm : Bool) (o : Obj) : Except Fault (List Obj) := do
  let a ← s.call o
  if o = .device then do
    let b ← if msg then s.callAll s.ubxListeners else .ok []
    let c ← if rtcm && s.base then s.call .udp else .ok []
    .ok (a ++ b ++ c)
  else .ok a

/-- Every serial listener in turn. async_comm_adapter.h:56-59. -/
def St.serialAll (s : St) (msg rtcm : Bool) : List Obj → Except Fault (List Obj)
  | [] => .ok []
  | o :: os => do
    let a ← s.serialTo msg rtcm o
    let b ← s.serialAll msg rtcm os
    .ok (a ++ b)

/-- Delivery of a buffer, with the objects called, in order.  On the UDP link the forwarding lambda uses the device
(`this->ser_`) and the serial port.  A destroyed link delivers nothing. async_comm_adapter.h:27-35, 52-60;
ublox.cpp:106-111. -/
def St.deliver (s : St) : Data → Except Fault (List Obj)
  | .serial msg rtcm => if Obj.ser ∈ s.alive then s.serialAll msg rtcm s.serListeners else .ok []
  | .udp => if Obj.udp ∈ s.alive ∧ s.fwd then s.callAll [.device, .ser] else .ok []

/-- An event of a run: the main thread takes its next statement, or a receive thread delivers a buffer. (Interleaving; no
code line.) -/
inductive Ev where
  | main (c : Stmt)
  | data (d : Data)
  deriving DecidableEq, Repr

/-- A run. (Interleaving; no code line.) -/
def St.run (s : St) : List Ev → Except Fault St
  | [] => .ok s
  | .main c :: es => (s.exec c).run es
  | .data d :: es => do
    let _ ← s.deliver d
    s.run es

/-- `base`, up to the end of the waiting loop. base.cpp:81-102; ublox.cpp:31. -/
def baseUp : List Stmt :=
  [.new .ser, .new .device, .serListen .device, .new .handler, .ubxListen .handler, .new .udp, .configBase]

/-- Leaving `main` of `base`: destructors in reverse order of construction. base.cpp:105-106. -/
def baseDown : List Stmt := [.del .udp, .del .handler, .del .device, .del .ser]

/-- `rover`, up to the end of the waiting loop. rover.cpp:86-106; ublox.cpp:31. -/
def roverUp : List Stmt :=
  [.new .ser, .new .device, .serListen .device, .new .handler, .ubxListen .handler, .new .udp, .configRover]

/-- Leaving `main` of `rover`. rover.cpp:109-110. -/
def roverDown : List Stmt := [.del .udp, .del .handler, .del .device, .del .ser]

/-- `read_serial` (with or without a log file), up to the end of the waiting loop. read_serial.cpp:134-158; ublox.cpp:31. -/
def readSerialUp (log : Bool) : List Stmt :=
  [.new .ser, .new .device, .serListen .device, .new .handler, .ubxListen .handler] ++
    (if log then [.new .logger, .serListen .logger] else [])

/-- Leaving `main` of `read_serial`: `delete logger`, then the destructors. read_serial.cpp:160-166. -/
def readSerialDown (log : Bool) : List Stmt :=
  (if log then [.del .logger] else []) ++ [.del .handler, .del .device, .del .ser]

/-- A program in which the constructor of the device throws because the receiver does not answer, and which goes on (the
exception is caught): the constructor has registered the device with the port and nothing removes it.
ublox.cpp:29-47. -/
def failedConstruction : List Stmt := [.new .ser, .new .device, .serListen .device, .del .device]

/-- The role the ROS node is asked for. ublox_ros.cpp:77-90, ublox.h:42-48. -/
inductive Role where
  | none
  | rover
  | base
  deriving DecidableEq, Repr

/-- The constructor of the ROS node without its end: the port (a local variable), the device, for a rover or base the UDP link
and the role.  The node registers itself with nobody.  A link that cannot be opened is not modelled. ublox_ros.cpp:70-90. -/
def rosCtor : Role → List Stmt
  | .none => [.new .ser, .new .device, .serListen .device]
  | .rover => [.new .ser, .new .device, .serListen .device, .new .udp, .configRover]
  | .base => [.new .ser, .new .device, .serListen .device, .new .udp, .configBase]

/-- The end of the constructor: its local variable is destroyed. ublox_ros.cpp:71, 108. -/
def rosCtorEnd : List Stmt := [.del .ser]

/-- Destruction of the node: its members in reverse order of declaration. ublox_ros.h:52-53. -/
def rosDown : Role → List Stmt
  | .none => [.del .device]
  | _ => [.del .udp, .del .device]

end Ublox.Life
