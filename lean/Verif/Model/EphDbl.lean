import Verif.Model.Scale
import Verif.Model.NavGlo
import Verif.Model.NavGal
import Verif.Model.Double

/-!
# The ephemeris members as IEEE doubles

`Dbl` keeps a scaled member symbolically as `raw * k₁ * k₂ …`.  Here the expression is evaluated as a compiler that computes in
`double` (`FLT_EVAL_METHOD == 0`) does: the literals are rounded when they are compiled, the integer is converted, and every
product is rounded.
-/

namespace Ublox.Nav

open Dbl64

/-- `v * k`: the constant is its literal, rounded.  `none`: no such constant is defined. nav.h:151-166. -/
def mulConst (v : Option ℚ) (k : K) : Option ℚ :=
  match v, k.literal with
  | some x, some q => some (rne (x * rne q))
  | _, _ => none

/-- The value of `raw * k₁ * k₂ …`, from left to right. nav.cpp:134-140, 154-160,
172-180, 289-291, 307-309, 321-326, 331-332, 488-550. -/
def Dbl.ieee (d : Dbl) : Option ℚ := d.scale.foldl mulConst (some (rne d.raw))

end Ublox.Nav
