import Verif.Model.Time

/-!
# Specification of times: an instant is an exact number of nanoseconds
-/

namespace Ublox.UTCTime

/-- The instant a `UTCTime` denotes, in nanoseconds since the epoch. -/
def ns (t : UTCTime) : Int := t.sec * 1000000000 + t.nsec

/-- Normalised representation. -/
def Norm (t : UTCTime) : Prop := 0 ≤ t.nsec ∧ t.nsec < 1000000000

instance (t : UTCTime) : Decidable t.Norm := inferInstanceAs (Decidable (_ ∧ _))

/-- Seconds of the Moscow day (UTC + 3 h) of an instant given in whole seconds. -/
def moscowTod (sec : Int) : Int := (sec + 10800) % 86400

end Ublox.UTCTime
