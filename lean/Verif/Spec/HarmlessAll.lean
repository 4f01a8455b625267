import Verif.Spec.Harmless
import Verif.Spec.Provenance

/-! # Specification: data of GPS, GLONASS and Galileo receivers that the driver should survive until the end of 2037 (C153) -/

namespace Ublox.Dev
open MonVer
open Nav (gpsId gpsU GoodPage wType galWeek)

/-- Navigation messages (payloads `p` with `P p`) that ordinary builds decode: every one has all its data words; GPS weeks (ten
bits, counted from week 2048) are those before the end of 2037; accepted Galileo pages are not of satellite 0 and their weeks are
below 2521; and no satellite number is used by both GPS and Galileo. -/
structure NavsUntil2037 (P : List Byte → Prop) : Prop where
  words : ∀ p, P p → AllWords p
  gps : ∀ p, P p → p[0]? = some 0 → gpsId (wordsIn p) = 1 → gpsU (wordsIn p) 3 1 10 ≤ 977
  galileo : ∀ p, P p → p[0]? = some 2 → GoodPage (wordsIn p) →
    p[1]? ≠ some 0 ∧ (wType (wordsIn p) = 0 → galWeek (wordsIn p) ≤ 2520)
  apart : ∀ p, P p → ∀ q, P q → p[0]? = some 0 → q[0]? = some 2 → p[1]? ≠ q[1]?

/-- The same as `Harmless`, for receivers of all constellations. -/
structure HarmlessAll (s : List Byte) : Prop where
  versions : ∀ p ∈ reports (scan 0 s).1, ∃ maj min name, Tells p maj min name
  navs : NavsUntil2037 (· ∈ sfrbxIn s)
  rtcm : ShortRtcm (outside s)

/-- The same as `HarmlessMixed`, for receivers of all constellations, after the navigation messages `old`. -/
structure HarmlessMixedAll (old : List Byte → Prop) (prev : Byte) (s : List Byte) : Prop where
  versions : ∀ p, Msg.ubx 0x0A 0x04 p ∈ (demux prev s).1 → ∃ maj min name, Tells p maj min name
  navs : NavsUntil2037 fun p => old p ∨ Msg.ubx 0x02 0x13 p ∈ (demux prev s).1
  rtcm : ∀ k b1 b2 rest, (demux prev (s.take k)).2 = .rtcm (0xD3 :: b1 :: b2 :: rest) → rtcmLen b1 b2 ≤ 1018

end Ublox.Dev
