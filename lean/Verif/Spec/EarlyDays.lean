import Verif.Spec.NavGps
import Verif.Spec.NavGal

/-!
# Specification: what a receiver sends before the end of 2037 (C152)
-/

namespace Ublox.Nav

/-- A history of messages, times set and callbacks registered that stays clear of what `convertUBX` cannot cope with in an
ordinary build: times set are between 1970 and January 2038, GPS week numbers (ten bits, counted from week 2048) are those
before the end of 2037, accepted Galileo pages are not of satellite 0 and their week numbers are below 2521 (2047), and no
satellite number is used by both GPS and Galileo.  GLONASS strings and messages of other constellations are not restricted. -/
structure EarlyDays (ops : List NavOp) : Prop where
  clock : ∀ t, NavOp.setTime t ∈ ops → 0 ≤ t.sec ∧ t.sec ≤ 2147000000
  gpsWeek : ∀ j m, NavOp.sfrbx j m ∈ ops → m.gnssId = 0 → gpsId m.dwrd = 1 → gpsU m.dwrd 3 1 10 ≤ 977
  galWeek : ∀ j m, NavOp.sfrbx j m ∈ ops → m.gnssId = 2 → GoodPage m.dwrd → m.svId ≠ 0 ∧ (wType m.dwrd = 0 → galWeek m.dwrd ≤ 2520)
  apart : ∀ j m, NavOp.sfrbx j m ∈ ops → m.gnssId = 0 → ∀ op ∈ ops, ¬ IsGalileo m.svId op

end Ublox.Nav
