import Verif.Model.Time

/-!
# Printing a time (src/utctime.cpp)

`gmtime` is a function of the C library: it is a parameter here.
-/

namespace Ublox.UTCTime

/-- `struct tm`, the members used. (C standard; utctime.cpp:272-275.) -/
structure Tm where
  /-- years since 1900 -/
  year : Int
  /-- months since January -/
  mon : Int
  mday : Int
  hour : Int
  min : Int
  sec : Int
  deriving DecidableEq

/-- A decimal digit. (C++ [ostream.formatted]; no code line.) -/
def digit (n : Nat) : Char := Char.ofNat (48 + n)

/-- `os << n` for a natural number: decimal, no padding. (C++ [ostream.formatted]; utctime.cpp:274-275.) -/
def decNat (n : Nat) : List Char := if n < 10 then [digit n] else decNat (n / 10) ++ [digit (n % 10)]
decreasing_by omega

/-- `os << n` for an `int`. (C++ [ostream.formatted]; utctime.cpp:274-275.) -/
def decInt (n : Int) : List Char := if n < 0 then '-' :: decNat n.natAbs else decNat n.natAbs

/-- Conversion of the result of `std::floor` (an integer, in `double`) to `int`. (C++ [conv.fpint]; utctime.cpp:269.)
Simplification: the rounding of the `int64_t` quotient to `double` is dropped; it is exact for all quotients that fit. -/
def floorToInt (n : Int) : M Int := int32 n

/-- `operator<<(std::ostream&, const UTCTime&)`; the unused `sec` is dropped. utctime.cpp:266-278. -/
def print (gmtime : Int → Option Tm) (t : UTCTime) : M (List Char) := do
  let _week ← floorToInt (t.sec.tdiv SEC_IN_WEEK)
  match gmtime t.sec with
  | none => .error .nullDeref
  | some d => do
    let y ← int32 (1900 + d.year)
    let m ← int32 (1 + d.mon)
    .ok (decInt y ++ '/' :: (decInt m ++ '/' :: (decInt d.mday ++ ' ' :: (decInt d.hour ++ ':' ::
      (decInt d.min ++ ':' :: decInt d.sec)))))

end Ublox.UTCTime
