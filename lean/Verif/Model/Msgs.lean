import Verif.Model.Base

/-!
# Model of the message structures overlaid on the receive buffer (include/UBLOX/parsers/ubx_defs.h)

A `packed` structure is its list of members; the offset of a member is the sum of the sizes before it.  The host is
little endian (as the `reinterpret`ing union presumes).  A floating-point member is represented by its bits.
-/

namespace Ublox

/-- Member types: unsigned, signed, floating point, and reserved bytes, with their size in bytes. ubx_defs.h:839-847. -/
inductive Ty where
  | u (n : Nat) | i (n : Nat) | r (n : Nat) | pad (n : Nat)
  deriving DecidableEq, Repr

/-- `sizeof`. (C semantics of the types of ubx_defs.h:839-847.) -/
def Ty.size : Ty → Nat
  | .u n => n | .i n => n | .r n => n | .pad n => n

/-- A packed structure. (C semantics of `__attribute__((packed))`, e.g. ubx_defs.h:663-1005.) -/
abbrev Layout := List (String × Ty)

/-- Offset and type of a member (`offsetof` in a packed structure). (C semantics; used for ubx_defs.h:663-1005.) -/
def Layout.find (l : Layout) (name : String) : Option (Nat × Ty) :=
  match l with
  | [] => none
  | (n, t) :: rest => if n = name then some (0, t) else (Layout.find rest name).map fun p => (t.size + p.1, p.2)

/-- `sizeof` of the packed structure. (C semantics; used for ubx_defs.h:663-1005.) -/
def Layout.size (l : Layout) : Nat := (l.map fun p => p.2.size).sum

/-- The `n` bytes at `off`, least significant first. (Little-endian target.) -/
def leU (buf : List Byte) (off : Nat) : Nat → Nat
  | 0 => 0
  | n + 1 => (buf.getD off 0).toNat + 256 * leU buf (off + 1) n

/-- Two's complement reading of an `n`-byte number. (C semantics of the I1/I2/I4 types, ubx_defs.h:839-847.) -/
def toSigned (n v : Nat) : Int := if 2 * v < 256 ^ n then v else (v : Int) - 256 ^ n

/-- Value of a member of type `t` at offset `off`. (C semantics of a member access into the union of
ubx_defs.h:1007-1029.) -/
def Ty.read (t : Ty) (buf : List Byte) (off : Nat) : Int :=
  match t with
  | .u n => leU buf off n
  | .i n => toSigned n (leU buf off n)
  | .r n => leU buf off n
  | .pad n => leU buf off n

/-- `msg.<structure>.<name>`; a name that is no member does not compile (0 here). (C semantics; the union is
ubx_defs.h:1007-1029.) -/
def Layout.get (l : Layout) (name : String) (buf : List Byte) (base : Nat := 0) : Int :=
  match l.find name with
  | some (off, t) => t.read buf (base + off)
  | none => 0

/-- `NAV_PVT_t`. ubx_defs.h:663-696. -/
def navPvt : Layout :=
  [("iTOW", .u 4), ("year", .u 2), ("month", .u 1), ("day", .u 1), ("hour", .u 1), ("min", .u 1), ("sec", .u 1),
   ("valid", .u 1), ("tAcc", .u 4), ("nano", .i 4), ("fixType", .u 1), ("flags", .u 1), ("flags2", .u 1), ("numSV", .u 1),
   ("lon", .i 4), ("lat", .i 4), ("height", .i 4), ("hMSL", .i 4), ("hAcc", .u 4), ("vAcc", .u 4), ("velN", .i 4),
   ("velE", .i 4), ("velD", .i 4), ("gSpeed", .i 4), ("headMot", .i 4), ("sAcc", .u 4), ("headAcc", .u 4), ("pDOP", .u 2),
   ("reserved1", .pad 6), ("headVeh", .i 4), ("magDec", .i 2), ("magAcc", .u 2)]

/-- `NAV_RELPOSNED_t`. ubx_defs.h:712-735. -/
def navRelposned : Layout :=
  [("version", .u 1), ("reserved1", .pad 1), ("refStationId", .u 2), ("iTow", .u 4), ("relPosN", .i 4), ("relPosE", .i 4),
   ("relPosD", .i 4), ("relPosLength", .i 4), ("relPosHeading", .i 4), ("reserved2", .pad 4), ("relPosHPN", .i 1),
   ("relPosHPE", .i 1), ("relPosHPD", .i 1), ("relPosHPLength", .i 1), ("accN", .u 4), ("accE", .u 4), ("accD", .u 4),
   ("accLength", .u 4), ("accHeading", .u 4), ("reserved3", .pad 4), ("flags", .u 4)]

/-- `NAV_SVIN_t`. ubx_defs.h:739-757. -/
def navSvin : Layout :=
  [("version", .u 1), ("reserved1", .pad 3), ("iTow", .u 4), ("dur", .u 4), ("meanX", .u 4), ("meanY", .u 4), ("meanZ", .u 4),
   ("meanXHP", .u 1), ("meanYHP", .u 1), ("meanZHP", .u 1), ("reserved2", .pad 1), ("meanAcc", .u 4), ("obs", .u 4),
   ("valid", .u 1), ("active", .u 1), ("reserved3", .pad 2)]

/-- `NAV_POSECEF_t`. ubx_defs.h:761-767. -/
def navPosecef : Layout := [("iTOW", .u 4), ("ecefX", .i 4), ("ecefY", .i 4), ("ecefZ", .i 4), ("pAcc", .u 4)]

/-- `NAV_VELECEF_t`. ubx_defs.h:771-777. -/
def navVelecef : Layout := [("iTOW", .u 4), ("ecefVX", .i 4), ("ecefVY", .i 4), ("ecefVZ", .i 4), ("sAcc", .u 4)]

/-- The fixed part of `RXM_RAWX_t`. ubx_defs.h:851-865, 889. -/
def rxmRawx : Layout :=
  [("rcvTow", .r 8), ("week", .u 2), ("leapS", .i 1), ("numMeas", .i 1), ("recStat", .u 1), ("version", .u 1),
   ("reserved1", .pad 2)]

/-- `RXM_RAWX_t::RawxMeas`. ubx_defs.h:867-888. -/
def rawxMeas : Layout :=
  [("prMeas", .r 8), ("cpMeas", .r 8), ("doMeas", .r 4), ("gnssId", .u 1), ("svId", .u 1), ("sigId", .u 1), ("freqId", .u 1),
   ("locktime", .u 2), ("cno", .u 1), ("prStdev", .u 1), ("cpStdev", .u 1), ("doStdev", .u 1), ("trkStat", .u 1),
   ("reserved", .pad 1)]

/-- `RXM_SFRBX_t` up to the words. ubx_defs.h:994-1005. -/
def rxmSfrbx : Layout :=
  [("gnssId", .u 1), ("svId", .u 1), ("reserved1", .pad 1), ("freqId", .u 1), ("numWords", .u 1), ("chn", .u 1),
   ("version", .u 1), ("reserved2", .pad 1)]

/-- Number of elements of `RXM_RAWX_t::meas`. ubx_defs.h:889. -/
abbrev MEAS_MAX : Nat := 30

/-- `msg.RXM_RAWX.meas[i].<name>`; an index outside the declared array is undefined behaviour. ubx_defs.h:889. -/
def measGet (buf : List Byte) (i : Nat) (name : String) : M Int :=
  if i < MEAS_MAX then .ok (rawxMeas.get name buf (rxmRawx.size + i * rawxMeas.size)) else .error .oobRead

end Ublox
