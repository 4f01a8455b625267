import Verif.Model.Base

/-!
# Specification for C142: the signal numbers of the ROS message

The numbers are those of msg/Observation.msg, the identifiers those of the receiver's interface description (GNSS identifiers and
signal identifiers).
-/

namespace Ublox.RosSpec

/-- (GNSS identifier, signal identifier, number in the ROS message). -/
def signalNumbers : List (Int × Int × Int) :=
  [(0, 0, 1),    -- GPS L1 C/A
   (0, 3, 2),    -- GPS L2 CL
   (0, 4, 3),    -- GPS L2 CM
   (2, 0, 4),    -- Galileo E1 C
   (2, 1, 5),    -- Galileo E1 B
   (2, 5, 6),    -- Galileo E5 bI
   (2, 6, 7),    -- Galileo E5 bQ
   (3, 0, 8),    -- BeiDou B1I D1
   (3, 1, 9),    -- BeiDou B1I D2
   (3, 2, 10),   -- BeiDou B2I D1
   (3, 3, 11),   -- BeiDou B2I D2
   (5, 0, 12),   -- QZSS L1 C/A
   (6, 0, 13),   -- GLONASS L1
   (6, 2, 14)]   -- GLONASS L2

/-- The ROS message has a number for the signal. -/
def Listed (gnss sig : Int) : Prop := ∃ n, (gnss, sig, n) ∈ signalNumbers

end Ublox.RosSpec
