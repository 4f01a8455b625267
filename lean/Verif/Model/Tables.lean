import Verif.Model.Base

/-!
# Model of the identifier tables (include/UBLOX/parsers/ubx_defs.h, include/UBLOX/parsers/nav.h)

C `int`s are `Int`s: the functions only compare them.
-/

namespace Ublox

/-- `GnssID_GPS`. ubx_defs.h:907. -/
abbrev GnssID_GPS : Int := 0
/-- `GnssID_SBAS`. ubx_defs.h:908. -/
abbrev GnssID_SBAS : Int := 1
/-- `GnssID_Galileo`. ubx_defs.h:909. -/
abbrev GnssID_Galileo : Int := 2
/-- `GnssID_Beidou`. ubx_defs.h:910. -/
abbrev GnssID_Beidou : Int := 3
/-- `GnssID_Qzss`. ubx_defs.h:911. -/
abbrev GnssID_Qzss : Int := 5
/-- `GnssID_Glonass`. ubx_defs.h:912. -/
abbrev GnssID_Glonass : Int := 6

/-- `sysId`. ubx_defs.h:915-934. -/
def sysId (svId : Int) : Int :=
  if svId ≥ 1 ∧ svId ≤ 32 then GnssID_GPS
  else if svId ≥ 33 ∧ svId ≤ 64 then GnssID_Beidou
  else if svId ≥ 65 ∧ svId ≤ 96 then GnssID_Glonass
  else if svId ≥ 120 ∧ svId ≤ 158 then GnssID_SBAS
  else if svId ≥ 159 ∧ svId ≤ 163 then GnssID_Beidou
  else if svId ≥ 193 ∧ svId ≤ 197 then GnssID_Qzss
  else if svId ≥ 211 ∧ svId ≤ 246 then GnssID_Galileo
  else if svId = 255 then GnssID_Glonass
  else -1

/-- `sigId`, with the values of the enumerators of ubx_defs.h:936-952. ubx_defs.h:954-992. -/
def sigId (gnssId sig : Int) : Int :=
  if gnssId = 0 ∧ sig = 0 then 0        -- GPS_L1_CA
  else if gnssId = 0 ∧ sig = 3 then 1   -- GPS_L2_CL
  else if gnssId = 0 ∧ sig = 4 then 2   -- GPS_L2_CM
  else if gnssId = 2 ∧ sig = 0 then 3   -- Galileo_E1_C
  else if gnssId = 2 ∧ sig = 1 then 4   -- Galileo_E1_B
  else if gnssId = 2 ∧ sig = 5 then 5   -- Galileo_E5_BI
  else if gnssId = 2 ∧ sig = 6 then 6   -- Galileo_E5_BQ
  else if gnssId = 3 ∧ sig = 0 then 7   -- Beidou_B1I_D1
  else if gnssId = 3 ∧ sig = 1 then 8   -- Beidou_B1I_D2
  else if gnssId = 3 ∧ sig = 2 then 9   -- Beidou_B2I_D1
  else if gnssId = 3 ∧ sig = 3 then 10  -- Beidou_B2I_D2
  else if gnssId = 5 ∧ sig = 0 then 11  -- QZSS_L1_CA
  else if gnssId = 6 ∧ sig = 0 then 12  -- Glonass_L1
  else if gnssId = 6 ∧ sig = 2 then 13  -- Glonass_L2
  else -1

/-- `EphBase::Type`. nav.h:39-56. -/
def ephType (gnssID : Byte) : String :=
  if gnssID = 0 then "GPS"
  else if gnssID = 2 then "Galileo"
  else if gnssID = 6 then "Glonass"
  else if gnssID = 5 then "Qzss"
  else if gnssID = 3 then "Beidou"
  else "Unknown"

end Ublox
