import Verif.Model.Base

/-!
# Specification: payloads of the UBX messages, from the u-blox interface description (UBX-18010854)

Offsets and types (U = unsigned, I = two's complement, R = IEEE 754, X = bit field) as printed there.
-/

namespace Ublox.MsgSpec

/-- A documented field: name, offset, size in bytes, signed? -/
structure Field where
  name : String
  off : Nat
  size : Nat
  signed : Bool := false
  deriving DecidableEq

/-- The value of the field in a payload: its bytes, least significant first. -/
def Field.value (f : Field) (payload : List Byte) : Int :=
  let v : Nat := ((List.range f.size).map fun k => (payload.getD (f.off + k) 0).toNat * 256 ^ k).sum
  if f.signed ∧ 2 ^ (8 * f.size - 1) ≤ v then (v : Int) - 2 ^ (8 * f.size) else v

/-- UBX-NAV-PVT, 92 bytes. -/
def navPvt : List Field :=
  [⟨"iTOW", 0, 4, false⟩, ⟨"year", 4, 2, false⟩, ⟨"month", 6, 1, false⟩, ⟨"day", 7, 1, false⟩, ⟨"hour", 8, 1, false⟩,
   ⟨"min", 9, 1, false⟩, ⟨"sec", 10, 1, false⟩, ⟨"valid", 11, 1, false⟩, ⟨"tAcc", 12, 4, false⟩, ⟨"nano", 16, 4, true⟩,
   ⟨"fixType", 20, 1, false⟩, ⟨"flags", 21, 1, false⟩, ⟨"flags2", 22, 1, false⟩, ⟨"numSV", 23, 1, false⟩,
   ⟨"lon", 24, 4, true⟩, ⟨"lat", 28, 4, true⟩, ⟨"height", 32, 4, true⟩, ⟨"hMSL", 36, 4, true⟩, ⟨"hAcc", 40, 4, false⟩,
   ⟨"vAcc", 44, 4, false⟩, ⟨"velN", 48, 4, true⟩, ⟨"velE", 52, 4, true⟩, ⟨"velD", 56, 4, true⟩, ⟨"gSpeed", 60, 4, true⟩,
   ⟨"headMot", 64, 4, true⟩, ⟨"sAcc", 68, 4, false⟩, ⟨"headAcc", 72, 4, false⟩, ⟨"pDOP", 76, 2, false⟩,
   ⟨"headVeh", 84, 4, true⟩, ⟨"magDec", 88, 2, true⟩, ⟨"magAcc", 90, 2, false⟩]

/-- UBX-NAV-RELPOSNED version 1, 64 bytes. -/
def navRelposned : List Field :=
  [⟨"version", 0, 1, false⟩, ⟨"refStationId", 2, 2, false⟩, ⟨"iTow", 4, 4, false⟩, ⟨"relPosN", 8, 4, true⟩,
   ⟨"relPosE", 12, 4, true⟩, ⟨"relPosD", 16, 4, true⟩, ⟨"relPosLength", 20, 4, true⟩, ⟨"relPosHeading", 24, 4, true⟩,
   ⟨"relPosHPN", 32, 1, true⟩, ⟨"relPosHPE", 33, 1, true⟩, ⟨"relPosHPD", 34, 1, true⟩, ⟨"relPosHPLength", 35, 1, true⟩,
   ⟨"accN", 36, 4, false⟩, ⟨"accE", 40, 4, false⟩, ⟨"accD", 44, 4, false⟩, ⟨"accLength", 48, 4, false⟩,
   ⟨"accHeading", 52, 4, false⟩, ⟨"flags", 60, 4, false⟩]

/-- UBX-NAV-SVIN, 40 bytes: the mean position is *signed*. -/
def navSvin : List Field :=
  [⟨"version", 0, 1, false⟩, ⟨"iTow", 4, 4, false⟩, ⟨"dur", 8, 4, false⟩, ⟨"meanX", 12, 4, true⟩, ⟨"meanY", 16, 4, true⟩,
   ⟨"meanZ", 20, 4, true⟩, ⟨"meanXHP", 24, 1, true⟩, ⟨"meanYHP", 25, 1, true⟩, ⟨"meanZHP", 26, 1, true⟩,
   ⟨"meanAcc", 28, 4, false⟩, ⟨"obs", 32, 4, false⟩, ⟨"valid", 36, 1, false⟩, ⟨"active", 37, 1, false⟩]

/-- UBX-NAV-POSECEF, 20 bytes. -/
def navPosecef : List Field :=
  [⟨"iTOW", 0, 4, false⟩, ⟨"ecefX", 4, 4, true⟩, ⟨"ecefY", 8, 4, true⟩, ⟨"ecefZ", 12, 4, true⟩, ⟨"pAcc", 16, 4, false⟩]

/-- UBX-NAV-VELECEF, 20 bytes. -/
def navVelecef : List Field :=
  [⟨"iTOW", 0, 4, false⟩, ⟨"ecefVX", 4, 4, true⟩, ⟨"ecefVY", 8, 4, true⟩, ⟨"ecefVZ", 12, 4, true⟩, ⟨"sAcc", 16, 4, false⟩]

/-- UBX-RXM-RAWX, fixed part (16 bytes): `numMeas` is *unsigned*. -/
def rxmRawx : List Field :=
  [⟨"rcvTow", 0, 8, false⟩, ⟨"week", 8, 2, false⟩, ⟨"leapS", 10, 1, true⟩, ⟨"numMeas", 11, 1, false⟩,
   ⟨"recStat", 12, 1, false⟩, ⟨"version", 13, 1, false⟩]

/-- UBX-RXM-RAWX, repeated part: measurement `n` starts at 16 + 32 n. -/
def rawxMeas (n : Nat) : List Field :=
  [⟨"prMeas", 16 + 32 * n, 8, false⟩, ⟨"cpMeas", 24 + 32 * n, 8, false⟩, ⟨"doMeas", 32 + 32 * n, 4, false⟩,
   ⟨"gnssId", 36 + 32 * n, 1, false⟩, ⟨"svId", 37 + 32 * n, 1, false⟩, ⟨"sigId", 38 + 32 * n, 1, false⟩,
   ⟨"freqId", 39 + 32 * n, 1, false⟩, ⟨"locktime", 40 + 32 * n, 2, false⟩, ⟨"cno", 42 + 32 * n, 1, false⟩,
   ⟨"prStdev", 43 + 32 * n, 1, false⟩, ⟨"cpStdev", 44 + 32 * n, 1, false⟩, ⟨"doStdev", 45 + 32 * n, 1, false⟩,
   ⟨"trkStat", 46 + 32 * n, 1, false⟩]

/-- UBX-RXM-SFRBX, fixed part. -/
def rxmSfrbx : List Field :=
  [⟨"gnssId", 0, 1, false⟩, ⟨"svId", 1, 1, false⟩, ⟨"freqId", 3, 1, false⟩, ⟨"numWords", 4, 1, false⟩, ⟨"chn", 5, 1, false⟩,
   ⟨"version", 6, 1, false⟩]

end Ublox.MsgSpec
