import Verif.Spec.Msgs

/-!
# Specification: further payloads and the bit fields in them, from the u-blox interface description
-/

namespace Ublox.MsgSpec

/-- UBX-ACK-ACK, UBX-ACK-NAK, 2 bytes. -/
def ack : List Field := [⟨"clsID", 0, 1, false⟩, ⟨"msgID", 1, 1, false⟩]

/-- UBX-MON-TXBUF, 28 bytes: six U2, twice six U1, then three bytes. -/
def monTxbuf : List Field :=
  [⟨"pending[0]", 0, 2, false⟩, ⟨"pending[1]", 2, 2, false⟩, ⟨"pending[2]", 4, 2, false⟩, ⟨"pending[3]", 6, 2, false⟩,
   ⟨"pending[4]", 8, 2, false⟩, ⟨"pending[5]", 10, 2, false⟩, ⟨"usage[0]", 12, 1, false⟩, ⟨"usage[1]", 13, 1, false⟩,
   ⟨"usage[2]", 14, 1, false⟩, ⟨"usage[3]", 15, 1, false⟩, ⟨"usage[4]", 16, 1, false⟩, ⟨"usage[5]", 17, 1, false⟩,
   ⟨"peakUsage[0]", 18, 1, false⟩, ⟨"peakUsage[1]", 19, 1, false⟩, ⟨"peakUsage[2]", 20, 1, false⟩,
   ⟨"peakUsage[3]", 21, 1, false⟩, ⟨"peakUsage[4]", 22, 1, false⟩, ⟨"peakUsage[5]", 23, 1, false⟩, ⟨"tUsage", 24, 1, false⟩,
   ⟨"tPeakUsage", 25, 1, false⟩, ⟨"errors", 26, 1, false⟩]

/-- UBX-MON-COMMS, fixed part. -/
def monComms : List Field :=
  [⟨"version", 0, 1, false⟩, ⟨"nPorts", 1, 1, false⟩, ⟨"txErrors", 2, 1, false⟩, ⟨"portIds[0]", 4, 1, false⟩,
   ⟨"portIds[1]", 5, 1, false⟩, ⟨"portIds[2]", 6, 1, false⟩, ⟨"portIds[3]", 7, 1, false⟩]

/-- UBX-MON-COMMS, repeated part: port `n` starts at 8 + 40 n. -/
def commsBlock (n : Nat) : List Field :=
  [⟨"portId", 8 + 40 * n, 2, false⟩, ⟨"txPending", 10 + 40 * n, 2, false⟩, ⟨"txBytes", 12 + 40 * n, 4, false⟩,
   ⟨"txUsage", 16 + 40 * n, 1, false⟩, ⟨"txPeakUsage", 17 + 40 * n, 1, false⟩, ⟨"rxPending", 18 + 40 * n, 2, false⟩,
   ⟨"rxBytes", 20 + 40 * n, 4, false⟩, ⟨"rxUsage", 24 + 40 * n, 1, false⟩, ⟨"rxPeakUsage", 25 + 40 * n, 1, false⟩,
   ⟨"overrunErrs", 26 + 40 * n, 2, false⟩, ⟨"msgs[0]", 28 + 40 * n, 2, false⟩, ⟨"msgs[1]", 30 + 40 * n, 2, false⟩,
   ⟨"msgs[2]", 32 + 40 * n, 2, false⟩, ⟨"msgs[3]", 34 + 40 * n, 2, false⟩, ⟨"skipped", 44 + 40 * n, 4, false⟩]

/-- UBX-MON-VER: where character `k` of extension string `n` is. Thirty characters each, after 30 + 10 of version strings. -/
def extensionAt (n k : Nat) : Nat := 40 + 30 * n + k

/-- A documented bit field of a number: lowest bit and number of bits. -/
structure Bits where
  lo : Nat
  width : Nat

/-- Its value. -/
def Bits.of (b : Bits) (x : Nat) : Nat := x / 2 ^ b.lo % 2 ^ b.width

/-- Single flags: the constant that stands for it in the library, and its documented bit.
NAV-PVT `valid` and `flags`. -/
def pvtFlags : List (String × Nat) :=
  [("VALIDITY_FLAGS_VALIDDATE", 0), ("VALIDITY_FLAGS_VALIDTIME", 1), ("VALIDITY_FLAGS_FULLYRESOLVED", 2),
   ("FIX_STATUS_GNSS_FIX_OK", 0), ("FIX_STATUS_DIFF_SOLN", 1), ("FIX_STATUS_HEADING_VALID", 5)]

/-- NAV-PVT `flags`: power save mode state and carrier solution, with their documented values. -/
def pvtStates : List (String × Bits × Nat) :=
  [("FIX_STATUS_PSM_STATE_NOT_ACTIVE", ⟨2, 3⟩, 0), ("FIX_STATUS_PSM_STATE_ENABLED", ⟨2, 3⟩, 1),
   ("FIX_STATUS_PSM_STATE_ACQUISITION", ⟨2, 3⟩, 2), ("FIX_STATUS_PSM_STATE_TRACKING", ⟨2, 3⟩, 3),
   ("FIX_STATUS_PSM_STATE_POWER_OPTIMIZED_TRACKING", ⟨2, 3⟩, 4), ("FIX_STATUS_PSM_STATE_INACTIVE", ⟨2, 3⟩, 5),
   ("FIX_STATUS_CARR_SOLN_NONE", ⟨6, 2⟩, 0), ("FIX_STATUS_CARR_SOLN_FLOAT", ⟨6, 2⟩, 1), ("FIX_STATUS_CARR_SOLN_FIXED", ⟨6, 2⟩, 2)]

/-- NAV-RELPOSNED `flags`. -/
def relposFlags : List (String × Nat) :=
  [("FLAGS_gnssFixOK", 0), ("FLAGS_diffSoln", 1), ("FLAGS_relPosValid", 2), ("FLAGS_isMoving", 5), ("FLAGS_refPosMiss", 6),
   ("FLAGS_refObsMiss", 7), ("FLAGS_relPosHeadingValid", 8)]

/-- NAV-RELPOSNED `flags`: carrier solution. -/
def relposStates : List (String × Bits × Nat) := [("FLAGS_carrSoln_float", ⟨3, 2⟩, 1), ("FLAGS_carrSoln_fixed", ⟨3, 2⟩, 2)]

/-- RXM-RAWX `recStat` and `trkStat`. -/
def rawxFlags : List (String × Nat) :=
  [("recStat_leapSec", 0), ("recStat_clkReset", 1), ("trkStat_prValid", 0), ("trkStat_cpValid", 1), ("trkStat_HalfCyc", 2),
   ("trkStat_subHalfCyc", 3)]

/-- MON-COMMS `txErrors`. -/
def commsFlags : List (String × Nat) := [("MEM", 0), ("ALLOC", 1)]

/-- MON-TXBUF `errors`: bits 0 to 5 say which targets reached their limit, bit 6 a memory error, bit 7 a full buffer. -/
def txbufFlags : List (String × Nat) := [("MEM", 6), ("ALLOC", 7)]

/-- MON-TXBUF `errors`: limit reached, by target. -/
def txbufLimit : Bits := ⟨0, 6⟩

/-- CFG-NAV5 `mask`. -/
def nav5Flags : List (String × Nat) :=
  [("MASK_DYN", 0), ("MASK_MINEL", 1), ("MASK_POSFIXMODE", 2), ("MASK_DRLIM", 3), ("MASK_POSMASK", 4), ("MASK_TIMEMASK", 5),
   ("MASK_STATICHOLDMASK", 6), ("MASK_DGPSMASK", 7), ("MASK_CNOTHRESHOLD", 8), ("MASK_UTC", 10)]

/-- CFG-PRT `inProtoMask`, `outProtoMask`. -/
def prtFlags : List (String × Nat) :=
  [("IN_UBX", 0), ("IN_NMEA", 1), ("IN_RTCM", 2), ("IN_RTCM3", 5), ("OUT_UBX", 0), ("OUT_NMEA", 1), ("OUT_RTCM3", 5)]

/-- CFG-PRT `mode`: character length (3: eight bits), parity (4: none), stop bits (0: one). -/
def prtStates : List (String × Bits × Nat) := [("CHARLEN_8BIT", ⟨6, 2⟩, 3), ("PARITY_NONE", ⟨9, 3⟩, 4), ("STOP_BITS_1", ⟨12, 2⟩, 0)]

/-- CFG-TMODE3 `flags`: receiver mode (0 disabled, 1 survey-in, 2 fixed, 3 to 255 reserved). -/
def tmode3States : List (String × Bits × Nat) :=
  [("DISABLED", ⟨0, 8⟩, 0), ("SURVEY_IN", ⟨0, 8⟩, 1), ("FIXED", ⟨0, 8⟩, 2)]

/-- CFG-TMODE3 `flags`: position given as latitude, longitude, altitude. -/
def tmode3Flags : List (String × Nat) := [("LLA", 8)]

end Ublox.MsgSpec
