import Verif.Model.Base

/-!
# Model of `src/utctime.cpp`, `include/UBLOX/utctime.h`

`int64_t` members are `Int` (sums of 64-bit times near ±2^63 are outside the model); 32-bit `int`
arithmetic that can overflow on realistic arguments is checked and yields `UB.overflow`.
-/

namespace Ublox

/-- `class UTCTime`. utctime.h:30-34. -/
structure UTCTime where
  sec : Int
  nsec : Int
  deriving DecidableEq, Repr

namespace UTCTime

/-- utctime.h:36. -/
def E9 : Int := 1000000000
/-- utctime.h:39. -/
def SEC_IN_WEEK : Int := 604800
/-- utctime.h:40. -/
def SEC_IN_DAY : Int := 86400
/-- utctime.h:56: `315964800 + LEAP_SECONDS`, `LEAP_SECONDS = 18`. -/
def GPS_UTC_OFFSET : Int := 315964818
/-- utctime.h:59. -/
def GLO_UTC_OFFSET : Int := -10800

/-- `wrapNsec()`: one conditional correction; note `>` rather than `>=`. utctime.cpp:252-264. -/
def wrapNsec (t : UTCTime) : UTCTime :=
  if t.nsec < 0 then ⟨t.sec - 1, t.nsec + E9⟩
  else if t.nsec > E9 then ⟨t.sec + 1, t.nsec - E9⟩
  else t

/-- Default constructor. utctime.cpp:35-39. -/
def zero : UTCTime := ⟨0, 0⟩

/-- `UTCTime(int sec, int nsec)`. utctime.cpp:41-44. -/
def ofInts (sec nsec : Int) : UTCTime := wrapNsec ⟨sec, nsec⟩

/-- `operator>`. utctime.cpp:53-57. -/
def gt (a b : UTCTime) : Bool :=
  if a.sec > b.sec then true else if a.sec < b.sec then false else if a.nsec > b.nsec then true else false

/-- `operator<`. utctime.cpp:58-62. -/
def lt (a b : UTCTime) : Bool :=
  if a.sec < b.sec then true else if a.sec > b.sec then false else if a.nsec < b.nsec then true else false

/-- `operator==`. utctime.cpp:64-67. -/
def eq (a b : UTCTime) : Bool := a.sec == b.sec && a.nsec == b.nsec

/-- `operator-(UTCTime)` and `operator-=(UTCTime)`. utctime.cpp:69-84. -/
def sub (a b : UTCTime) : UTCTime := wrapNsec ⟨a.sec - b.sec, a.nsec - b.nsec⟩

/-- `operator+(UTCTime)` and `operator+=(UTCTime)`. utctime.cpp:86-101. -/
def add (a b : UTCTime) : UTCTime := wrapNsec ⟨a.sec + b.sec, a.nsec + b.nsec⟩

/-- `operator+(double)` / `operator+=(double)`, idealised to exact arithmetic: the double enters only through
`fl = floor(sec_)` and `nanos = (uint64_t)(sec_ * E9)`, the latter being undefined for a negative
argument. utctime.cpp:108-122. -/
def addDouble (t : UTCTime) (fl nanos : Int) : M UTCTime :=
  if nanos < 0 then .error .overflow
  else .ok (wrapNsec ⟨t.sec + fl, t.nsec + nanos % E9⟩)

/-- `operator-(double)` / `operator-=(double)`, same idealisation. utctime.cpp:136-150. -/
def subDouble (t : UTCTime) (fl nanos : Int) : M UTCTime :=
  if nanos < 0 then .error .overflow
  else .ok (wrapNsec ⟨t.sec - fl, t.nsec - nanos % E9⟩)

/-- `UTCTime(double)`, same idealisation. utctime.cpp:46-51. -/
def ofDouble (fl nanos : Int) : M UTCTime :=
  if nanos < 0 then .error .overflow
  else .ok (wrapNsec ⟨fl, nanos % E9⟩)

/-- `operator+(int)`: the result is default-constructed and only its `sec` is assigned.  (The sum goes through
`double`, exact below 2^53.) utctime.cpp:123-128. -/
def addInt (t : UTCTime) (n : Int) : UTCTime := ⟨t.sec + n, 0⟩

/-- `operator+=(int)`. utctime.cpp:129-134. -/
def addIntAssign (t : UTCTime) (n : Int) : UTCTime := ⟨t.sec + n, t.nsec⟩

/-- `operator-(int)`. utctime.cpp:151-156. -/
def subInt (t : UTCTime) (n : Int) : UTCTime := ⟨t.sec - n, 0⟩

/-- `operator-=(int)`. utctime.cpp:157-162. -/
def subIntAssign (t : UTCTime) (n : Int) : UTCTime := ⟨t.sec - n, t.nsec⟩

/-- `week()`: C++ integer division truncates towards zero. utctime.cpp:164-167. -/
def week (t : UTCTime) : Int := t.sec.tdiv SEC_IN_WEEK

/-- `GpsWeek()`. utctime.cpp:169-173. -/
def gpsWeek (t : UTCTime) : Int := (t.sec - GPS_UTC_OFFSET).tdiv SEC_IN_WEEK

/-- `GlonassWeek()`. utctime.cpp:181-185. -/
def glonassWeek (t : UTCTime) : Int := (t.sec - GLO_UTC_OFFSET).tdiv SEC_IN_WEEK

/-- `GlonassDayOfWeek()`. utctime.cpp:187-193. -/
def glonassDayOfWeek (t : UTCTime) : Int :=
  ((t.sec - GLO_UTC_OFFSET).tmod SEC_IN_WEEK).tdiv SEC_IN_DAY

/-- A 32-bit `int` result: undefined when it does not fit. (C++ semantics of `int` arithmetic.) -/
def int32 (x : Int) : M Int :=
  if -2147483648 ≤ x ∧ x ≤ 2147483647 then .ok x else .error .overflow

/-- `fromGPS(int week, int tow_ms)`.  `week * SEC_IN_WEEK + tow_ms / 1000` is computed in `int`;
the nanoseconds are `(tow_ms % 1000) * E9` as written. utctime.cpp:205-212. -/
def fromGPS (week tow_ms : Int) : M UTCTime := do
  let w ← int32 (week * SEC_IN_WEEK)
  let s ← int32 (w + tow_ms.tdiv 1000)
  .ok (wrapNsec ⟨s + GPS_UTC_OFFSET, tow_ms.tmod 1000 * E9⟩)

/-- `fromGalileo`. utctime.cpp:225-229. -/
def fromGalileo (week tow_ms : Int) : M UTCTime := fromGPS week tow_ms

/-- `fromGlonass(int week, int tow_ms)`. utctime.cpp:243-250. -/
def fromGlonass (week tow_ms : Int) : M UTCTime := do
  let w ← int32 (week * SEC_IN_WEEK)
  .ok (wrapNsec ⟨w + tow_ms.tdiv 1000 + GLO_UTC_OFFSET, tow_ms.tmod 1000 * E9⟩)

/-- `fromGlonassTimeOfDay(ref, tod_ms)`.  `glonass_day` is `uint32_t`, so the day part is computed modulo 2^32
and converted back to `int` (two's complement). utctime.cpp:214-223. -/
def fromGlonassTimeOfDay (ref : UTCTime) (tod_ms : Int) : M UTCTime :=
  fromGlonass ref.glonassWeek ((ref.glonassDayOfWeek * SEC_IN_DAY * 1000 + tod_ms).bmod (2 ^ 32))

end UTCTime
end Ublox
