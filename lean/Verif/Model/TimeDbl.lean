import Verif.Model.Double
import Verif.Model.Time

/-!
# The operations of `UTCTime` on `double`, in IEEE arithmetic (src/utctime.cpp)

The arguments are values of finite doubles; infinities and NaNs are not modelled.
-/

namespace Ublox.UTCTime

open Dbl64

/-- Conversion of a finite double to `int64_t`. (C++ [conv.fpint].) -/
def toI64 (q : ℚ) : M ℤ :=
  if -9223372036854775808 ≤ trunc q ∧ trunc q < 9223372036854775808 then .ok (trunc q) else .error .overflow

/-- `(uint64_t)(x * E9) % E9`: `E9` is converted to `double` exactly, the product is rounded, the conversion truncates.
utctime.cpp:49, 111, 118, 139, 146. -/
def fracNanos (x : ℚ) : M ℤ := do
  let n ← toU64 (rne (x * 1000000000))
  .ok (n % E9)

/-- `UTCTime(double)`. utctime.cpp:46-51. -/
def ofDbl (x : ℚ) : M UTCTime := do
  let s ← toI64 ⌊x⌋
  let n ← fracNanos x
  .ok (wrapNsec ⟨s, n⟩)

/-- `operator+(double)` and `operator+=(double)`: `sec + std::floor(x)` is computed in `double` and converted back.
utctime.cpp:108-122. -/
def plusDbl (t : UTCTime) (x : ℚ) : M UTCTime := do
  let n ← fracNanos x
  let s ← toI64 (rne (rne t.sec + ⌊x⌋))
  .ok (wrapNsec ⟨s, t.nsec + n⟩)

/-- `operator-(double)` and `operator-=(double)`. utctime.cpp:136-150. -/
def minusDbl (t : UTCTime) (x : ℚ) : M UTCTime := do
  let n ← fracNanos x
  let s ← toI64 (rne (rne t.sec - ⌊x⌋))
  .ok (wrapNsec ⟨s, t.nsec - n⟩)

/-- `toSec()`: the literal `1e-9` is itself rounded. utctime.cpp:103-106. -/
def toSec (t : UTCTime) : ℚ :=
  rne (rne t.sec + rne (rne t.nsec * rne (1 / 1000000000)))

end Ublox.UTCTime
