import Verif.Spec.NavLive
import Verif.Spec.NavEncGps

/-!
# C134: a satellite keeps transmitting one data set; messages are lost, repeated and reordered on the way
-/

namespace Ublox.Nav

/-- The operation is consistent with GPS satellite `s` transmitting the parameters `p`: it brings one of the subframes 1-3 that encode
them (whatever the other bits), or nothing for the orbit and clock of that satellite. -/
def SendsGps (s : Byte) (p : GpsParams) (op : NavOp) : Prop :=
  Quiet s op ∨ ∃ junk m f k, op = .sfrbx junk m ∧ m.gnssId = 0 ∧ m.svId = s ∧ (k = 1 ∨ k = 2 ∨ k = 3) ∧ m.dwrd = subframe f p k

/-- Subframe `k` of GPS satellite `s` is among the messages. -/
def Has (s : Byte) (k : Nat) (ops : List NavOp) : Prop :=
  ∃ junk m, NavOp.sfrbx junk m ∈ ops ∧ m.gnssId = 0 ∧ m.svId = s ∧ gpsId m.dwrd = k

/-- The operation is a GPS message of satellite `s`. -/
def FromGps (s : Byte) : NavOp → Prop
  | .sfrbx _ m => m.gnssId = 0 ∧ m.svId = s
  | _ => False

end Ublox.Nav

namespace Ublox.Dev

open Nav (GpsParams subframe)

/-- The same for the inputs of a device. -/
def SendsIn (s : Byte) (p : GpsParams) (i : NavIn) : Prop :=
  QuietIn s i ∨ ∃ r x ch ver res f k, i = .sfrbx (gpsPayload s r x ch ver res (subframe f p k)) ∧ (k = 1 ∨ k = 2 ∨ k = 3)

/-- Subframe `k` of the parameters `p` of GPS satellite `s` is among the inputs. -/
def HasIn (s : Byte) (p : GpsParams) (k : Nat) (ins : List NavIn) : Prop :=
  ∃ r x ch ver res f, NavIn.sfrbx (gpsPayload s r x ch ver res (subframe f p k)) ∈ ins

end Ublox.Dev
