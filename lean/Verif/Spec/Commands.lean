import Verif.Model.UbxCmd
import Verif.Spec.Frame

/-!
# What each configuration call has to send (u-blox protocol description)

The layout of every payload is written out byte by byte, little endian.
-/

namespace Ublox

/-- The `k` low bytes of `n`, least significant first. -/
def leBytes : Nat → Nat → List Byte
  | 0, _ => []
  | k + 1, n => BitVec.ofNat 8 n :: leBytes k (n / 256)

/-- A CFG-VALSET message setting one key; `data` is the 4-byte value field. -/
def valset (version layer : Byte) (key : Nat) (data : List Byte) : Byte × Byte × List Byte :=
  (0x06, 0x8A, [version, layer, 0, 0] ++ leBytes 4 key ++ data)

/-- The messages (class, id, payload) each call must send, given the protocol version the receiver reported. -/
def expectedMessages (major : Int) : Ubx.Command → List (Byte × Byte × List Byte)
  | .configure v l d k s =>
    [valset v l k.toNat (if s = 1 then leBytes 1 d.toNat ++ [0, 0, 0] else if s = 2 then leBytes 4 d.toNat
      else [0, 0, 0, 0])]
  | .getConfiguration v l k => [(0x06, 0x8B, [v, l, 0, 0] ++ leBytes 4 k.toNat ++ List.replicate 8 0)]
  | .enableMessage c i r => [(0x06, 0x01, [c, i, r])]
  | .setNavRate p =>
    if major ≤ 23 then [(0x06, 0x08, leBytes 2 p.toNat ++ leBytes 2 1 ++ leBytes 2 0)]
    else [valset 0 1 0x30210001 (leBytes 4 p.toNat), valset 0 1 0x30210002 (leBytes 4 1),
          valset 0 1 0x20210003 (leBytes 4 0)]
  | .disableNmea =>
    if major ≤ 23 then
      -- portID 3, mode 0, 921600 baud, input and output masks UBX+RTCM3, flags 0x08C0
      [(0x06, 0x00, [3, 0, 0, 0] ++ leBytes 4 0 ++ leBytes 4 921600 ++ leBytes 2 0x21 ++ leBytes 2 0x21 ++
        leBytes 2 0x8C0 ++ [0, 0])]
    else [valset 0 1 0x10770002 (leBytes 4 0), valset 0 1 0x10780002 (leBytes 4 0)]
  | .setDynamicMode =>
    if major ≤ 23 then [(0x06, 0x24, leBytes 2 1 ++ [8] ++ List.replicate 33 0)]
    else [valset 0 1 0x20110021 (leBytes 4 6)]
  | .startSurveyIn =>
    -- version 0, flags 1 (survey-in), minimum duration 60 s, accuracy limit 3, everything else 0
    [(0x06, 0x71, [0, 0] ++ leBytes 2 1 ++ List.replicate 20 0 ++ leBytes 4 60 ++ leBytes 4 3 ++
      List.replicate 8 0)]
  | .pollVersion => [(0x0A, 0x04, [])]

/-- The configuration messages the driver sends when it has found the receiver: NMEA output off, one solution every
200 ms, then NAV-PVT (01 07), NAV-RELPOSNED (01 3C), NAV-VELECEF (01 11), RXM-RAWX (02 15) and RXM-SFRBX (02 13) once
per solution. -/
def setupMessages (major : Int) : List (Byte × Byte × List Byte) :=
  (if major ≤ 23 then
    [(0x06, 0x00, [3, 0, 0, 0] ++ leBytes 4 0 ++ leBytes 4 921600 ++ leBytes 2 0x21 ++ leBytes 2 0x21 ++
        leBytes 2 0x8C0 ++ [0, 0]),
     (0x06, 0x08, leBytes 2 200 ++ leBytes 2 1 ++ leBytes 2 0)]
  else
    [valset 0 1 0x10770002 (leBytes 4 0), valset 0 1 0x10780002 (leBytes 4 0),
     valset 0 1 0x30210001 (leBytes 4 200), valset 0 1 0x30210002 (leBytes 4 1), valset 0 1 0x20210003 (leBytes 4 0)]) ++
  [(0x06, 0x01, [0x01, 0x07, 1]), (0x06, 0x01, [0x01, 0x3C, 1]), (0x06, 0x01, [0x01, 0x11, 1]),
   (0x06, 0x01, [0x02, 0x15, 1]), (0x06, 0x01, [0x02, 0x13, 1])]

/-- The rates of the seven RTCM messages 4072.0, 4072.1, 1077, 1087, 1097, 1127 and 1230 on USB, each set to `rate`. -/
def rtcmRates (rate : Nat) : List (Byte × Byte × List Byte) :=
  [0x20910301, 0x20910384, 0x209102cf, 0x209102d4, 0x2091031b, 0x209102d9, 0x20910306].map fun k =>
    valset 0 1 k (leBytes 1 rate ++ [0, 0, 0])

/-- Survey-in of a stationary base: report NAV-SVIN, mode survey-in, accuracy limit 50 m (unit 0.1 mm), at least 119 s. -/
def surveyMessages : List (Byte × Byte × List Byte) :=
  [valset 0 1 0x2091008b [1, 0, 0, 0], valset 0 1 0x20030001 [1, 0, 0, 0], valset 0 1 0x40030011 (leBytes 4 500000),
   valset 0 1 0x40030010 (leBytes 4 119)]

/-- The bytes of a list of messages on the wire. -/
def wireBytes (ms : List (Byte × Byte × List Byte)) : List Byte :=
  ms.flatMap fun m => ubxFrame m.1 m.2.1 m.2.2

end Ublox
