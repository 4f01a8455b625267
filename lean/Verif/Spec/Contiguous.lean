import Verif.Spec.NavInput

/-!
# Messages that are passed on and the receiver's byte stream
-/

namespace Ublox.Dev

/-- The bytes received in an event. -/
def heardIn : Ev → List Byte
  | .rx b => b
  | _ => []

/-- All the bytes that the receiver has sent. -/
def sentBy (ss : List Ubx.Sched) (evs : List Ev) : List Byte := ctorBytes ss ++ evs.flatMap heardIn

/-- `config_base` is never called while the RTCM parser is in the middle of a message. -/
def BaseBetween (md : Nav.Mode) : Dev → List Ev → Prop
  | _, [] => True
  | d, e :: evs => (∀ i s, e = .configBase i s → d.rtcm.parsingMessage = false) ∧
      ∀ d' es, d.step md e = .ok (d', es) → BaseBetween md d' evs

end Ublox.Dev
