import Verif.Spec.Device

/-!
# What the navigation decoder of a device should be told

Seen from outside: the bytes the receiver has sent, and the registrations of ephemeris callbacks.
-/

namespace Ublox.Dev

/-- Something that concerns the navigation decoder: the payload of an RXM-SFRBX message, or the registration of a callback. -/
inductive NavIn where
  | sfrbx (payload : List Byte)
  | addEph
  | addGeph
  deriving DecidableEq, Repr

/-- The payloads of the good RXM-SFRBX frames of a stream, in order. -/
def sfrbxIn (s : List Byte) : List (List Byte) :=
  (scan 0 s).1.filterMap fun
    | .good c i p => if c = 0x02 ∧ i = 0x13 then some p else none
    | _ => none

/-- Those that are complete only with the bytes `new`. -/
def newSfrbx (old new : List Byte) : List (List Byte) := (sfrbxIn (old ++ new)).drop (sfrbxIn old).length

/-- What concerns the navigation decoder in a history of events, when the bytes `old` have been received before. -/
def navIns (old : List Byte) : List Ev → List NavIn
  | [] => []
  | .rx b :: evs => (newSfrbx old b).map .sfrbx ++ navIns (old ++ b) evs
  | .ephCb :: evs => .addEph :: navIns old evs
  | .gephCb :: evs => .addGeph :: navIns old evs
  | _ :: evs => navIns old evs

/-- All the bytes received while the constructor polled the receiver's version. -/
def ctorBytes (ss : List Ubx.Sched) : List Byte := ss.flatMap Ubx.Sched.bytes

/-- The whole life of a device: constructed with the answers `ss`, then the events `evs`, with effects `es`. -/
def Life (md : Nav.Mode) (ss : List Ubx.Sched) (evs : List Ev) (d : Dev) (es : List Eff) : Prop :=
  ∃ u r g d0 e0, FreshUbx u ∧ FreshRtcm r ∧ FreshRtcm g ∧
    construct md (start u r g) ss = .ok (some (some d0, e0)) ∧ run md d0 evs = .ok (d, es)

/-- Everything that concerns the navigation decoder in the life of a device. -/
def navLife (ss : List Ubx.Sched) (evs : List Ev) : List NavIn :=
  (sfrbxIn (ctorBytes ss)).map .sfrbx ++ navIns (ctorBytes ss) evs

/-- The operation of the decoder that says the same: the message it gets lies in a 2048-byte buffer that begins with the
payload. -/
inductive SameIn : NavIn → Nav.NavOp → Prop where
  | sfrbx (p buf : List Byte) : buf.length = 2048 → buf.take p.length = p →
      SameIn (.sfrbx p) (.sfrbx (List.replicate 30 0) (Nav.Sfrbx.ofBuffer buf))
  | eph : SameIn .addEph .addEphCb
  | geph : SameIn .addGeph .addGephCb

/-- The payload of an RXM-SFRBX message of a GPS satellite: constellation 0, satellite, signal, channel, number of words,
tracking channel, version, reserved, and the ten 4-byte words of a subframe. -/
def gpsPayload (s : Byte) (r x ch ver res : Byte) (words : List Byte) : List Byte := [0, s, r, x, 10, ch, ver, res] ++ words

/-- Not a message about GPS or Galileo satellite number `s`: a message of GLONASS or with another satellite number (a payload
of at least the two bytes that say so), or a registration. -/
def NotAbout (s : Byte) : NavIn → Prop
  | .sfrbx p => 2 ≤ p.length ∧ (p[0]? = some 6 ∨ p[1]? ≠ some s)
  | _ => True

/-- How many ephemeris callbacks the inputs register. -/
def ephRegs (ins : List NavIn) : Nat := ins.count .addEph

end Ublox.Dev
