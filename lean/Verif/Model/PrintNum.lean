import Verif.Model.ExamplePrint
import Verif.Model.Double

/-!
# Printing floating-point numbers: the text

`printf("%.nf")` and `std::ostream << double` convert the exact value of the double, rounded to nearest (ties to even), as
glibc does (C [fprintf], "correctly rounded").
-/

namespace Ublox.Print

open UTCTime (decNat decInt digit)
open Dbl64 (rne roundEven ofBits)

/-- The last `n` decimal digits of `k`, with leading zeros. (C [fprintf], conversion `f`; used for read_log.cpp:55, 67; base.cpp:64.) -/
def padNat : Nat → Nat → List Char
  | 0, _ => []
  | n + 1, k => padNat n (k / 10) ++ [digit (k % 10)]

/-- The sign. The sign of zero is not represented. (C [fprintf]; used for read_log.cpp:55; nav.h:251-272.) -/
def signText (q : ℚ) : List Char := if q < 0 then ['-'] else []

/-- `%.nf`, `n > 0`. (C [fprintf], conversion `f`; read_log.cpp:55-57, 67; base.cpp:64.) -/
def fixText (n : Nat) (q : ℚ) : List Char :=
  let m := (roundEven (|q| * 10 ^ n)).toNat
  signText q ++ decNat (m / 10 ^ n) ++ '.' :: padNat n (m % 10 ^ n)

/-- The digits after the point without trailing zeros, and no point if none is left. (C [fprintf], conversion `g`; used for nav.h:251-272.) -/
def fracText (l : List Char) : List Char :=
  let s := (l.reverse.dropWhile (· == '0')).reverse
  if s = [] then [] else '.' :: s

/-- The exponent: sign and at least two digits. (C [fprintf], conversion `e`; used for nav.h:251-272.) -/
def expText (e : Int) : List Char :=
  'e' :: (if e < 0 then '-' else '+') :: (if e.natAbs < 10 then padNat 2 e.natAbs else decNat e.natAbs)

/-- Six significant digits and the decimal exponent of the first, after rounding. (C [fprintf], conversion `g`; used for nav.h:251-272.) -/
def sixDigits (q : ℚ) : Nat × Int :=
  let e := Int.log 10 |q|
  let m := (roundEven (|q| * 10 ^ (5 - e))).toNat
  if m = 1000000 then (100000, e + 1) else (m, e)

/-- `os << q` for a `double` with the stream's default settings, i.e. `%g`. (C++ [facet.num.put.virtuals], C [fprintf];
nav.h:251-272.) -/
def genText (q : ℚ) : List Char :=
  if q = 0 then ['0']
  else
    let (m, e) := sixDigits q
    signText q ++
      if -4 ≤ e ∧ e < 6 then
        let n := (5 - e).toNat
        decNat (m / 10 ^ n) ++ fracText (padNat n (m % 10 ^ n))
      else decNat (m / 100000) ++ fracText (padNat 5 (m % 100000)) ++ expText e

/-- `n * k` in `double`, `n` an integer member, `k` a literal. read_log.cpp:57-58; base.cpp:68-71. -/
def scaled (n : Int) (k : ℚ) : ℚ := rne (n * rne k)

/-- The text of `pvt_callback`. read_log.cpp:53-61. -/
def pvtText (b : List Byte) : List Char :=
  let g (name : String) := navPvt.get name b
  "t: ".toList ++ decInt (g "year") ++ " ".toList ++ decInt (g "month") ++ "/".toList ++ decInt (g "day") ++ ", ".toList ++
  decInt (g "hour") ++ ":".toList ++ decInt (g "min") ++ ":".toList ++ decInt (g "sec") ++ ".".toList ++
  decInt ((g "nano").tdiv 1000000) ++ ", lla: ".toList ++ fixText 3 (scaled (g "lat") (1 / 10 ^ 7)) ++ ", ".toList ++
  fixText 3 (scaled (g "lon") (1 / 10 ^ 7)) ++ ", ".toList ++ fixText 3 (scaled (g "height") (1 / 10 ^ 3)) ++
  ", vel: ".toList ++ fixText 3 (scaled (g "velN") (1 / 10 ^ 3)) ++ ", ".toList ++
  fixText 3 (scaled (g "velE") (1 / 10 ^ 3)) ++ ", ".toList ++ fixText 3 (scaled (g "velD") (1 / 10 ^ 3)) ++ "\n".toList ++
  "tow: ".toList ++ decInt (if g "iTOW" < 2 ^ 31 then g "iTOW" else g "iTOW" - 2 ^ 32) ++ "\n".toList

/-- The text of `svin_callback`. base.cpp:61-73. -/
def svinText (b : List Byte) : List Char :=
  let g (name : String) := navSvin.get name b
  let pos (m hp : Int) : List Char := fixText 6 (rne (scaled m (1 / 100) + scaled hp (1 / 10000)))
  let u32 (n : Int) := decInt (if n < 2 ^ 31 then n else n - 2 ^ 32)
  "t: ".toList ++ u32 (g "iTow") ++ ", ".toList ++ (if g "active" ≠ 0 then "ACTIVE" else "INACTIVE").toList ++
  ", dur: ".toList ++ u32 (g "dur") ++ ", pos: [".toList ++ pos (g "meanX") (g "meanXHP") ++ ", ".toList ++
  pos (g "meanY") (g "meanYHP") ++ ", ".toList ++ pos (g "meanZ") (g "meanZHP") ++ "], acc: ".toList ++
  fixText 6 (scaled (g "meanAcc") (1 / 10000)) ++ "\n".toList

/-- The value of a finite `float` given by its 32 bits; `none` for infinities and NaNs. (IEEE 754-2008, 3.4; the `double` it is
promoted to has the same value; used for read_log.cpp:69.) -/
def ofBits32 (bits : Nat) : Option ℚ :=
  let s : ℚ := if bits.testBit 31 then -1 else 1
  let e : Nat := bits / 2 ^ 23 % 2 ^ 8
  let f : Nat := bits % 2 ^ 23
  if e = 255 then none
  else if e = 0 then some (s * f * 2 ^ (-149 : ℤ))
  else some (s * ((2 ^ 23 + f : Nat) : ℚ) * 2 ^ ((e : ℤ) - 150))

/-- `%.nf` of a `float` (4 bytes) or `double` member given by its bits. Infinities and NaNs are written as words, with the sign
(glibc). (C [fprintf]; read_log.cpp:67-69.) -/
def realText (size n : Nat) (bits : Int) : List Char :=
  let b := bits.toNat
  let neg := b.testBit (8 * size - 1)
  let sign : List Char := if neg then ['-'] else []
  let frac := if size = 4 then b % 2 ^ 23 else b % 2 ^ 52
  match if size = 4 then ofBits32 b else ofBits b with
  | some q => sign ++ fixText n |q|
  | none => sign ++ (if frac = 0 then "inf" else "nan").toList

/-- The text of one line of `rawx_callback`. read_log.cpp:66-69. -/
def rawxLineText (b : List Byte) (i : Nat) : M (List Char) := do
  let gnss ← measGet b i "gnssId"
  let sv ← measGet b i "svId"
  let p ← measGet b i "prMeas"
  let l ← measGet b i "cpMeas"
  let d ← measGet b i "doMeas"
  .ok ("week: ".toList ++ decInt (rxmRawx.get "week" b) ++ ", tow: ".toList ++ realText 8 3 (rxmRawx.get "rcvTow" b) ++
    " gnss_id: ".toList ++ decInt gnss ++ ", sat_id: ".toList ++ decInt sv ++ ", P ".toList ++ realText 8 3 p ++
    ", L ".toList ++ realText 8 3 l ++ ", D ".toList ++ realText 4 3 d ++ "\n".toList)

/-- The loop of `rawx_callback`. read_log.cpp:65-71. -/
def rawxLoopText (b : List Byte) (i : Nat) : Nat → M (List Char)
  | 0 => .ok []
  | n + 1 => do
    let x ← rawxLineText b i
    let r ← rawxLoopText b (i + 1) n
    .ok (x ++ r)

/-- The text of `rawx_callback`. read_log.cpp:63-71. -/
def rawxText (b : List Byte) : M (List Char) := rawxLoopText b 0 (rxmRawx.get "numMeas" b).toNat

/-- The text of `relposned_callback`. rover.cpp:47-74. -/
def relposnedText (b : List Byte) : List Char :=
  let g (name : String) := navRelposned.get name b
  let both (c : Nat) : Bool := g "flags" != 0 && c != 0
  if both 0b000000010 then
    "RTK".toList ++ (if both 0b000100000 then ", Moving Base" else "").toList ++
      (if both 0b000001000 then " , Floating \n" else if both 0b000010000 then " , Fixed \n" else "").toList ++
      (if both 0b000000100 then "valid relative position components \n" else "").toList ++
      "tow: ".toList ++ decInt (g "iTow" / 1000) ++ " relNED: ".toList ++ decInt (g "relPosN") ++ ", ".toList ++
      decInt (g "relPosE") ++ ", ".toList ++ decInt (g "relPosD") ++ ", Distance: ".toList ++ decInt (g "relPosLength") ++
      "\n".toList
  else "No RTK \n".toList

/-- The text of `got_ubx` of `rover`. rover.cpp:41-45. -/
def roverGotText (cls id : Byte) (m : List Byte) : M (List Char) :=
  if cls = 0x01 ∧ id = 0x3C then .ok (relposnedText m) else .ok []

/-- The text of `got_ubx` of `base`. base.cpp:43-49. -/
def baseGotText (cls id : Byte) (m : List Byte) : M (List Char) :=
  if cls = 0x01 ∧ id = 0x3B then .ok (svinText m) else .ok []

/-- The text of `got_ubx` of `read_log`. read_log.cpp:44-51. -/
def readLogGotText (cls id : Byte) (m : List Byte) : M (List Char) :=
  if cls = 0x01 ∧ id = 0x07 then .ok ("GOT UBX MESSAGE\n".toList ++ pvtText m)
  else if cls = 0x02 ∧ id = 0x15 then do
    let t ← rawxText m
    .ok ("GOT UBX MESSAGE\n".toList ++ t)
  else .ok "GOT UBX MESSAGE\n".toList

/-- The characters the handler `got` writes, call after call. (Calls of the listener: ubx.cpp:446-450.) -/
def consoleText (got : Byte → Byte → List Byte → M (List Char)) : List Eff → M (List Char)
  | [] => .ok []
  | .ubx _ c i m :: es => do
    let a ← got c i m
    let r ← consoleText got es
    .ok (a ++ r)
  | _ :: es => consoleText got es

end Ublox.Print
