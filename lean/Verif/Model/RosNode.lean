import Verif.Model.Device
import Verif.Model.Ros

/-!
# Model of the constructor of the ROS node (src/ros/ublox_ros.cpp:50-108)

The parameters, the publishers and the UDP socket are dropped; the socket is RTK interface 0 of the device and the node is
listener 0.  The serial port object is a local variable of the constructor, destroyed when it returns while the device keeps
a reference to it; what follows is about the device as long as that reference is still good.
-/

namespace Ublox.Ros

open Ublox.Dev (Ev)

/-- `rtk_type & RTK`, then ROVER = 0b10 or BASE = 0b11. ublox_ros.cpp:77-90, ublox.h:42-48. -/
def rtkEvents (rtkType : Nat) : List Ev :=
  if rtkType &&& 0b10 ≠ 0 then
    if rtkType = 0b10 then [.configRover 0]
    else if rtkType = 0b11 then [.configBase 0 true]
    else []
  else []

/-- The calls the constructor makes on the device and on itself. ublox_ros.cpp:75-107. -/
def ctorEvents (rtkType : Nat) : List Ev :=
  rtkEvents rtkType ++
  [.subscribe 0 0x01 0x07, .subscribe 0 0x01 0x01, .subscribe 0 0x01 0x11, .subscribe 0 0x02 0x15] ++
  (if rtkType = 0b11 then [.subscribe 0 0x01 0x3B] else []) ++
  (if rtkType = 0b10 then [.subscribe 0 0x01 0x3C] else [])

end Ublox.Ros
