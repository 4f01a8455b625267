import Verif.Model.Msgs

/-!
# Model of the monitoring, acknowledgement and configuration structures and of the flag constants (ubx_defs.h)

As in `Model/Msgs`.  The elements of an array member are listed one by one.  The nested `struct repeated_block` is not packed
itself; all its members are naturally aligned, so it has no padding either.
-/

namespace Ublox

/-- `ACK_ACK_t`, `ACK_NACK_t`. ubx_defs.h:199-209. -/
def ackAck : Layout := [("clsID", .u 1), ("msgID", .u 1)]

/-- `MON_TXBUF_t`. ubx_defs.h:779-795. -/
def monTxbuf : Layout :=
  [("pending[0]", .u 2), ("pending[1]", .u 2), ("pending[2]", .u 2), ("pending[3]", .u 2), ("pending[4]", .u 2),
   ("pending[5]", .u 2), ("usage[0]", .u 1), ("usage[1]", .u 1), ("usage[2]", .u 1), ("usage[3]", .u 1), ("usage[4]", .u 1),
   ("usage[5]", .u 1), ("peakUsage[0]", .u 1), ("peakUsage[1]", .u 1), ("peakUsage[2]", .u 1), ("peakUsage[3]", .u 1),
   ("peakUsage[4]", .u 1), ("peakUsage[5]", .u 1), ("tUsage", .u 1), ("tPeakUsage", .u 1), ("errors", .u 1),
   ("reserved", .pad 1)]

/-- `MON_COMMS_t` up to the blocks. ubx_defs.h:797-804. -/
def monComms : Layout :=
  [("version", .u 1), ("nPorts", .u 1), ("txErrors", .u 1), ("reserved", .pad 1), ("portIds[0]", .u 1), ("portIds[1]", .u 1),
   ("portIds[2]", .u 1), ("portIds[3]", .u 1)]

/-- `MON_COMMS_t::repeated_block`. ubx_defs.h:805-822. -/
def commsBlock : Layout :=
  [("portId", .u 2), ("txPending", .u 2), ("txBytes", .u 4), ("txUsage", .u 1), ("txPeakUsage", .u 1), ("rxPending", .u 2),
   ("rxBytes", .u 4), ("rxUsage", .u 1), ("rxPeakUsage", .u 1), ("overrunErrs", .u 2), ("msgs[0]", .u 2), ("msgs[1]", .u 2),
   ("msgs[2]", .u 2), ("msgs[3]", .u 2), ("reserved", .pad 8), ("skipped", .u 4)]

/-- Number of elements of `MON_COMMS_t::blocks`. ubx_defs.h:823. -/
abbrev COMMS_MAX : Nat := 5

/-- `msg.MON_COMM.blocks[i].<name>`; an index outside the declared array is undefined behaviour. ubx_defs.h:823. -/
def commsGet (buf : List Byte) (i : Nat) (name : String) : M Int :=
  if i < COMMS_MAX then .ok (commsBlock.get name buf (monComms.size + i * commsBlock.size)) else .error .oobRead

/-- `msg.MON_VER.extension[i][k]`, of `char extension[30][10]`; outside the declared array is undefined behaviour.
ubx_defs.h:832-837. -/
def extensionGet (buf : List Byte) (i k : Nat) : M Byte :=
  if i < 30 ∧ k < 10 then .ok (buf.getD (30 + 10 + 10 * i + k) 0) else .error .oobRead

/-- A structure's `enum` constants. ubx_defs.h (C semantics). -/
abbrev Consts := List (String × Nat)

/-- The value of a constant; a name that is none does not compile (0 here). (C semantics; ubx_defs.h.) -/
def Consts.get (l : Consts) (name : String) : Nat := ((l.find? (·.1 = name)).map (·.2)).getD 0

/-- `NAV_PVT_t`, both `enum`s. ubx_defs.h:638-662. -/
def navPvtC : Consts :=
  [("VALIDITY_FLAGS_VALIDDATE", 0b01), ("VALIDITY_FLAGS_VALIDTIME", 0b10), ("VALIDITY_FLAGS_FULLYRESOLVED", 0b100),
   ("FIX_STATUS_GNSS_FIX_OK", 0b00000001), ("FIX_STATUS_DIFF_SOLN", 0b00000010), ("FIX_STATUS_PSM_STATE_NOT_ACTIVE", 0b00000000),
   ("FIX_STATUS_PSM_STATE_ENABLED", 0b00000100), ("FIX_STATUS_PSM_STATE_ACQUISITION", 0b00001000),
   ("FIX_STATUS_PSM_STATE_TRACKING", 0b00001100), ("FIX_STATUS_PSM_STATE_POWER_OPTIMIZED_TRACKING", 0b00010000),
   ("FIX_STATUS_PSM_STATE_INACTIVE", 0b00010100), ("FIX_STATUS_HEADING_VALID", 0b00100000),
   ("FIX_STATUS_CARR_SOLN_NONE", 0b00000000), ("FIX_STATUS_CARR_SOLN_FLOAT", 0b01000000),
   ("FIX_STATUS_CARR_SOLN_FIXED", 0b10000000)]

/-- `NAV_RELPOSNED_t`. ubx_defs.h:700-711. -/
def navRelposnedC : Consts :=
  [("FLAGS_gnssFixOK", 0b000000001), ("FLAGS_diffSoln", 0b000000010), ("FLAGS_relPosValid", 0b000000100),
   ("FLAGS_carrSoln_float", 0b000001000), ("FLAGS_carrSoln_fixed", 0b000010000), ("FLAGS_isMoving", 0b000100000),
   ("FLAGS_refPosMiss", 0b001000000), ("FLAGS_refObsMiss", 0b010000000), ("FLAGS_relPosHeadingValid", 0b100000000)]

/-- `RXM_RAWX_t`. ubx_defs.h:891-902. -/
def rxmRawxC : Consts :=
  [("recStat_clkReset", 0b10), ("recStat_leapSec", 0b01), ("trkStat_subHalfCyc", 0b1000), ("trkStat_HalfCyc", 0b0100),
   ("trkStat_cpValid", 0b0010), ("trkStat_prValid", 0b0001)]

/-- `MON_TXBUF_t`. ubx_defs.h:789-794. -/
def monTxbufC : Consts := [("ALLOC", 0x40), ("MEM", 0x20), ("LIMIT", 0x10)]

/-- `MON_COMMS_t`. ubx_defs.h:825-829. -/
def monCommsC : Consts := [("ALLOC", 0x02), ("MEM", 0x01)]

/-- `CFG_NAV5_t`, the mask. ubx_defs.h:249-263. -/
def cfgNav5C : Consts :=
  [("MASK_DYN", 0b00000000001), ("MASK_MINEL", 0b00000000010), ("MASK_POSFIXMODE", 0b00000000100), ("MASK_DRLIM", 0b00000001000),
   ("MASK_POSMASK", 0b00000010000), ("MASK_TIMEMASK", 0b00000100000), ("MASK_STATICHOLDMASK", 0b00001000000),
   ("MASK_DGPSMASK", 0b00010000000), ("MASK_CNOTHRESHOLD", 0b00100000000), ("MASK_UTC", 0b10000000000)]

/-- `CFG_PRT_t`: frame format and protocols. ubx_defs.h:297-315. -/
def cfgPrtC : Consts :=
  [("CHARLEN_8BIT", 0b11000000), ("PARITY_NONE", 0b100000000000), ("STOP_BITS_1", 0x0000), ("IN_UBX", 0b00000001),
   ("IN_NMEA", 0b00000010), ("IN_RTCM", 0b00000100), ("IN_RTCM3", 0b00100000), ("OUT_UBX", 0b00000001), ("OUT_NMEA", 0b00000010),
   ("OUT_RTCM3", 0b00100000)]

/-- `CFG_TMODE3_t`. ubx_defs.h:330-336. -/
def cfgTmode3C : Consts := [("DISABLED", 0x00), ("SURVEY_IN", 0x01), ("FIXED", 0x03), ("LLA", 0x100)]

end Ublox
