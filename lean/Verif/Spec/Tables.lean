/-!
# Specification: u-blox satellite and signal numbering

From the u-blox interface description, "Satellite Numbering" and "Signal Identifiers" (NMEA/UBX single-number scheme).
-/

namespace Ublox.TableSpec

/-- A block of satellite numbers: constellation (UBX gnssId), first and last number. -/
structure Block where
  gnss : Int
  first : Int
  last : Int

/-- Satellite Numbering: GPS G1-G32 = 1-32, BeiDou B6-B37 = 33-64 and B1-B5 = 159-163, GLONASS R1-R32 = 65-96 and 255 for
unknown, SBAS S120-S158 = 120-158, QZSS Q1-Q5 = 193-197, Galileo E1-E36 = 211-246. -/
def blocks : List Block :=
  [⟨0, 1, 32⟩, ⟨3, 33, 64⟩, ⟨6, 65, 96⟩, ⟨1, 120, 158⟩, ⟨3, 159, 163⟩, ⟨5, 193, 197⟩, ⟨2, 211, 246⟩, ⟨6, 255, 255⟩]

/-- The (gnssId, sigId) pairs of the interface description, in the order of the driver's signal enumeration: GPS L1C/A,
L2 CL, L2 CM; Galileo E1 C, E1 B, E5 bI, E5 bQ; BeiDou B1I D1, B1I D2, B2I D1, B2I D2; QZSS L1C/A; GLONASS L1 OF, L2 OF. -/
def signals : List (Int × Int) :=
  [(0, 0), (0, 3), (0, 4), (2, 0), (2, 1), (2, 5), (2, 6), (3, 0), (3, 1), (3, 2), (3, 3), (5, 0), (6, 0), (6, 2)]

/-- The receiver's numbering of the constellations (u-blox protocol specification, "GNSS identifiers"), with the names
the driver prints.  SBAS (1) and IMES (4) have no name there. -/
def gnssNames : List (Nat × String) := [(0, "GPS"), (2, "Galileo"), (3, "Beidou"), (5, "Qzss"), (6, "Glonass")]

end Ublox.TableSpec
