import Verif.Model.ReadSerial
import Verif.Model.Device

/-!
# The program `src/examples/read_serial.cpp` on top of a device
-/

namespace Ublox.ReadSerial

/-- The calls `main` makes on the device (its handler is listener 0). read_serial.cpp:46-47, 135-153. -/
def mainCalls : List Dev.Ev := [.subscribe 0 0x01 0x07, .subscribe 0 0x02 0x15, .listen 0, .ephCb, .gephCb]

/-- What an effect of the device does in the program; `got_ubx` of its handler does nothing.
read_serial.cpp:49-55, 79-118. -/
def onEff (f : Found) : Eff → Found × List Line
  | .nav (.eph _ e) => ephCallback f e
  | .nav (.geph _ g) => gephCallback f g
  | _ => (f, [])

/-- The effects of the device, in order. read_serial.cpp:79-118. -/
def onEffs (f : Found) : List Eff → Found × List Line
  | [] => (f, [])
  | e :: es =>
    let (f1, l1) := onEff f e
    let (f2, l2) := onEffs f1 es
    (f2, l1 ++ l2)

/-- The three sets at program start. read_serial.cpp:38-40. -/
def nothing : Found := ⟨[], [], []⟩

end Ublox.ReadSerial
