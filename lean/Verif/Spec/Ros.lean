import Verif.Spec.Msgs
import Mathlib.Data.Rat.Defs

/-!
# Specification: what the ROS topics should carry
-/

namespace Ublox.RosSpec

open MsgSpec

/-- Documented value of the field `name` of a message, 0 if there is none. -/
def doc (fs : List Field) (name : String) (payload : List Byte) : Int :=
  match fs.find? fun f => f.name = name with
  | some f => f.value payload
  | none => 0

/-- The carrier frequency (Hz) of a u-blox signal: GPS L1 C/A, L2 CL, L2 CM; Galileo E1; QZSS L1; GLONASS L1OF and L2OF,
whose channel is `freqId - 7`.  Other signals are not covered by the claim. -/
def carrier (gnssId sigId freqId : Int) : Option ℚ :=
  if gnssId = 0 ∧ sigId = 0 then some 1575420000
  else if gnssId = 0 ∧ (sigId = 3 ∨ sigId = 4) then some 1227600000
  else if gnssId = 2 ∧ (sigId = 0 ∨ sigId = 1) then some 1575420000
  else if gnssId = 5 ∧ sigId = 0 then some 1575420000
  else if gnssId = 6 ∧ sigId = 0 then some (1602000000 + (freqId - 7) * 562500)
  else if gnssId = 6 ∧ sigId = 2 then some (1246000000 + (freqId - 7) * 437500)
  else none

/-- The half-cycle ambiguity of a phase measurement is not resolved: the phase is there (bits of a double, not ±0), and
the tracking status says half cycle (bit 2) or half cycle subtracted (bit 3). -/
def halfCycle (cpBits : Int) (trkStat : Nat) : Bool :=
  decide (cpBits ≠ 0 ∧ cpBits ≠ 2 ^ 63) && (trkStat.testBit 2 || trkStat.testBit 3)

end Ublox.RosSpec
