import Mathlib.Data.Int.Log
import Mathlib.Algebra.Order.Floor.Semiring
import Mathlib.Data.Rat.Floor
import Verif.Model.Base

/-!
# IEEE-754 binary64, as far as the code uses it

Finite doubles are represented by their exact rational values; an arithmetic operation is the exact operation followed by
`rne`, the rounding to nearest, ties to even, of IEEE 754-2008 section 4.3.1 (the default mode, never changed by the code).
Overflow to infinity is not represented: `rne` has no largest exponent, and every use in the proofs is far below 2^1023.
The sign of zero is not represented.
-/

namespace Ublox.Dbl64

/-- Exponent of the unit in the last place of a double of the size of `q` (53 significant bits, subnormals below
2^-1022). (IEEE 754-2008, table 3.5; no code line.) -/
def ulpExp (q : ℚ) : ℤ := if q = 0 then -1074 else max (Int.log 2 |q| - 52) (-1074)

/-- Nearest integer, ties to even. (IEEE 754-2008, 4.3.1; no code line.) -/
def roundEven (z : ℚ) : ℤ :=
  if z - ⌊z⌋ < 1 / 2 then ⌊z⌋
  else if 1 / 2 < z - ⌊z⌋ then ⌊z⌋ + 1
  else if ⌊z⌋ % 2 = 0 then ⌊z⌋ else ⌊z⌋ + 1

/-- Rounding of an exact result to a double. (IEEE 754-2008, 4.3.1; no code line.) -/
def rne (q : ℚ) : ℚ := roundEven (q / 2 ^ ulpExp q) * 2 ^ ulpExp q

/-- The rational is the value of a finite double (up to the bound on the exponent, see above). (IEEE 754-2008, 3.3.) -/
def IsDbl (q : ℚ) : Prop := ∃ m : ℤ, q = m * 2 ^ ulpExp q

/-- The value of a finite double given by its 64 bits; `none` for infinities and NaNs. (IEEE 754-2008, 3.4.) -/
def ofBits (bits : Nat) : Option ℚ :=
  let s : ℚ := if bits.testBit 63 then -1 else 1
  let e : Nat := bits / 2 ^ 52 % 2 ^ 11
  let f : Nat := bits % 2 ^ 52
  if e = 2047 then none
  else if e = 0 then some (s * f * 2 ^ (-1074 : ℤ))
  else some (s * ((2 ^ 52 + f : Nat) : ℚ) * 2 ^ ((e : ℤ) - 1075))

/-- Integral part, rounding towards zero. (C++ [conv.fpint]: "truncates".) -/
def trunc (q : ℚ) : ℤ := if 0 ≤ q then ⌊q⌋ else -⌊-q⌋

/-- Conversion of a finite double to `int`; undefined if the truncated value does not fit. (C++ [conv.fpint].) -/
def toInt (q : ℚ) : M ℤ :=
  if -2147483648 ≤ trunc q ∧ trunc q ≤ 2147483647 then .ok (trunc q) else .error .overflow

/-- Conversion of a finite double to `uint64_t`. (C++ [conv.fpint].) -/
def toU64 (q : ℚ) : M ℤ :=
  if 0 ≤ trunc q ∧ trunc q < 18446744073709551616 then .ok (trunc q) else .error .overflow

end Ublox.Dbl64
