import Verif.Spec.NavInput
import Verif.Spec.NavGps

/-!
# C133: what "a GPS satellite's data set is picked up" means
-/

namespace Ublox.Nav

/-- The operation brings nothing for the orbit and clock of GPS satellite `s`: it does not concern that satellite's entry, or it is
a GPS message of that satellite with a subframe other than 1, 2, 3 (satellites send subframes 4 and 5 in between). -/
def Quiet (s : Byte) (op : NavOp) : Prop :=
  Unrelated s op ∨ ∃ junk m, op = .sfrbx junk m ∧ m.gnssId = 0 ∧ m.svId = s ∧ gpsId m.dwrd ∉ [1, 2, 3]

/-- The calls `r` are those of one report of an ephemeris of issue `k` of GPS satellite `s` to `c` callbacks. -/
def ReportsIssue (c : Nat) (s : Byte) (k : Nat) (r : List NavCall) : Prop :=
  ∃ e, r = reportTo c e ∧ e.sat = s ∧ e.gnssID = 0 ∧ e.iode = k

/-- The calls `r` are those of one report to `c` callbacks of exactly the ephemeris in the subframes `d1`, `d2`, `d3` of GPS
satellite `s`. -/
def ReportsSet (c : Nat) (s : Byte) (d1 d2 d3 : List Byte) (r : List NavCall) : Prop :=
  ∃ e, r = reportTo c e ∧ CarriesGps e s d1 d2 d3

/-- The operation brings no subframe 1 or 2 of GPS satellite `s` with issue `k`, and is no Galileo message under that number. -/
def NotIssue (s : Byte) (k : Nat) : NavOp → Prop
  | .sfrbx _ m => m.svId = s → m.gnssId = GLONASS ∨ (m.gnssId = 0 ∧ (gpsId m.dwrd = 1 → iode1Of m.dwrd ≠ k) ∧
      (gpsId m.dwrd = 2 → iode2Of m.dwrd ≠ k))
  | _ => True

end Ublox.Nav

namespace Ublox.Dev

/-- The same for the inputs of a device. -/
def QuietIn (s : Byte) (i : NavIn) : Prop :=
  NotAbout s i ∨ ∃ r x ch ver res w, i = .sfrbx (gpsPayload s r x ch ver res w) ∧ w.length = 40 ∧ Nav.gpsId w ∉ [1, 2, 3]

end Ublox.Dev
