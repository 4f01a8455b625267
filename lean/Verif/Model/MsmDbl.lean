import Verif.Model.Double

/-!
# The scaling of MSM5 observations (include/UBLOX/parsers/msm.h)

Each loop stores a product of an integer read from the message and constants, computed in `double`, from left to right.  What
the integer is: `Model/Msm`.
-/

namespace Ublox.Msm

open Dbl64

/-- `CLIGHT`. msm.h:40. -/
def CLIGHT : ℚ := 299792458
/-- `RANGE_MS`. msm.h:41. -/
def RANGE_MS : ℚ := rne (CLIGHT * rne 0.001)
/-- `P2_10`. msm.h:42. -/
def P2_10 : ℚ := rne 0.0009765625
/-- `P2_24`. msm.h:43. -/
def P2_24 : ℚ := rne 5.960464477539063E-08
/-- `P2_29`. msm.h:44. -/
def P2_29 : ℚ := rne 1.862645149230957E-09

/-- First satellite loop: the member `range[j]`, which held `old` (the constructor does not set it), after reading `rng`.
msm.h:255-261. -/
def roughRange (old : ℚ) (rng : Nat) : ℚ := if rng ≠ 255 then rne (rng * RANGE_MS) else old

/-- Third satellite loop: `range[j]` after reading `rng_m`. msm.h:267-273. -/
def addModulo (range : ℚ) (rng_m : Nat) : ℚ :=
  if range ≠ 0 then rne (range + rne (rne (rng_m * P2_10) * RANGE_MS)) else range

/-- `pseudorange[j]` for the integer `pr`. msm.h:288. -/
def pseudorange (pr : Int) : ℚ := rne (rne (pr * P2_24) * RANGE_MS)
/-- `phaserange[j]` for the integer `cp`. msm.h:296. -/
def phaserange (cp : Int) : ℚ := rne (rne (cp * P2_29) * RANGE_MS)
/-- `phaserangerates[j]` for the integer `rate`. msm.h:279. -/
def phaserangerate (rate : Int) : ℚ := rne (rate * 1)
/-- `cnr[j]` for the integer read. msm.h:310. -/
def cnr (v : Nat) : ℚ := rne (v * 1)
/-- `fine_phaserangerates[j]` for the integer `rrv`. msm.h:318. -/
def fineRate (rrv : Int) : ℚ := rne (rrv * rne 0.0001)

end Ublox.Msm
