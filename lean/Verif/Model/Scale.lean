import Verif.Model.NavGps
import Mathlib.Data.Rat.Defs

/-!
# The numeric constants of the decoders (include/UBLOX/parsers/nav.h, include/UBLOX/parsers/msm.h)

The literals are given as the exact rationals their decimal digits denote.
-/

namespace Ublox.Nav

/-- The decimal literal behind a scale constant; `none` for a power the code does not define.
nav.h:151-166; `1E3` nav.cpp (GLONASS string decoding). -/
def K.literal : K → Option ℚ
  | .p2 5 => some 0.03125
  | .p2 11 => some 4.882812500000000E-04
  | .p2 19 => some 1.907348632812500E-06
  | .p2 20 => some 9.536743164062500E-07
  | .p2 29 => some 1.862645149230957E-09
  | .p2 30 => some 9.313225746154785E-10
  | .p2 31 => some 4.656612873077393E-10
  | .p2 32 => some 2.328306436538696E-10
  | .p2 33 => some 1.164153218269348E-10
  | .p2 34 => some 5.820766091346740E-11
  | .p2 40 => some 9.094947017729280E-13
  | .p2 43 => some 1.136868377216160E-13
  | .p2 46 => some 1.421085471520200E-14
  | .p2 55 => some 2.775557561562891E-17
  | .p2 59 => some 1.734723475976810E-18
  | .p2 _ => none
  | .pi => some 3.1415926535897932
  | .e3 => some 1000

/-- The MSM constants `P2_n` (n, literal). msm.h:42-46. -/
def msmLiterals : List (Nat × ℚ) :=
  [(10, 0.0009765625), (24, 5.960464477539063E-08), (29, 1.862645149230957E-09), (31, 4.656612873077393E-10),
   (34, 5.820766091346740E-11)]

end Ublox.Nav
