import Verif.Model.BitTools
import Verif.Model.Time

/-!
# Model of `src/parsers/nav.cpp`, part 1: ephemeris types and GPS

Doubles: every `double` member is only ever assigned `raw * constant * …` (or 0.0) and never used in further
arithmetic, so a `double` is modelled symbolically as the exact integer `raw` and the list of constants it is
multiplied by (IEEE rounding is not modelled; the constants themselves are property C69).

`emplace_back()` value-initialises, and neither ephemeris class has a user-provided default constructor, so a new
entry is zero-initialised: that is `Eph.fresh` / `GEph.fresh`.
-/

namespace Ublox.Nav

/-- Outcome of flowing off the end of a non-void function.  `strict`: C++ semantics, undefined behaviour.
`lenient`: the call returns and its (indeterminate) result is discarded, which is what unoptimised builds do.
(Not a construct of /repo.) (Used for nav.cpp:73-120, 188-245, 342-393, 395-443, 604-728.) -/
inductive Mode where
  | strict | lenient
  deriving DecidableEq, Repr

/-- Reaching the closing brace of a non-void function without `return`. (C++ semantics, see `Mode`.) (Used for
nav.cpp:120, 245, 443, 728.) -/
def offEnd : Mode → M Unit
  | .strict => .error .missingReturn
  | .lenient => .ok ()

/-- The constants a raw value is multiplied with: `P2_n` (nav.h:151-166), `PI`/`M_PI` (nav.h:152), `1E3`. -/
inductive K where
  | p2 (n : Nat) | pi | e3
  deriving DecidableEq, Repr

/-- A `double` built as `raw * k₁ * k₂ …`. (Symbolic doubles, see the module comment.) (Used for the double
members nav.h:33-146.) -/
structure Dbl where
  raw : Int
  scale : List K
  deriving DecidableEq, Repr

/-- The literal `0.0` / a zero-initialised double. nav.h:33-146. -/
def Dbl.zero : Dbl := ⟨0, []⟩

/-- `class Ephemeris` (with `EphBase`). nav.h:33-118.  Omitted: `tow`, `anti_spoof`, `age_of_data_offset`, which
nothing ever assigns. -/
structure Eph where
  gnssID : Byte
  sat : Byte
  toe : UTCTime
  toc : UTCTime
  iodc : Nat
  iode : Nat
  week : Nat
  toes : Nat
  tocs : Nat
  health : Nat
  alert : Nat
  codeOnL2 : Nat
  ura : Nat
  l2p : Nat
  fit : Nat
  tgd0 : Dbl
  tgd1 : Dbl
  tgd2 : Dbl
  tgd3 : Dbl
  af2 : Dbl
  af1 : Dbl
  af0 : Dbl
  m0 : Dbl
  deltaN : Dbl
  ecc : Dbl
  sqrta : Dbl
  omega0 : Dbl
  i0 : Dbl
  w : Dbl
  omegadot : Dbl
  idot : Dbl
  cuc : Dbl
  cus : Dbl
  crc : Dbl
  crs : Dbl
  cic : Dbl
  cis : Dbl
  iode1 : Nat
  iode2 : Nat
  iode3 : Nat
  got1 : Bool
  got2 : Bool
  got3 : Bool
  deriving DecidableEq, Repr

/-- A value-initialised `Ephemeris` (`eph_.emplace_back()`). nav.cpp:103, nav.h:60-118. -/
def Eph.fresh : Eph :=
  { gnssID := 0, sat := 0, toe := .zero, toc := .zero, iodc := 0, iode := 0, week := 0, toes := 0, tocs := 0,
    health := 0, alert := 0, codeOnL2 := 0, ura := 0, l2p := 0, fit := 0, tgd0 := .zero, tgd1 := .zero,
    tgd2 := .zero, tgd3 := .zero, af2 := .zero, af1 := .zero, af0 := .zero, m0 := .zero, deltaN := .zero,
    ecc := .zero, sqrta := .zero, omega0 := .zero, i0 := .zero, w := .zero, omegadot := .zero, idot := .zero,
    cuc := .zero, cus := .zero, crc := .zero, crs := .zero, cic := .zero, cis := .zero,
    iode1 := 0, iode2 := 0, iode3 := 0, got1 := false, got2 := false, got3 := false }

/-- `decodeGPSSubframe1`. nav.cpp:122-149. -/
def sub1 (buf : List Byte) (e : Eph) : M Eph := do
  let week ← getBit 10 buf 48
  let codeOnL2 ← getBit 2 buf 58
  let ura ← getBit 4 buf 60
  let health ← getBit 6 buf 64
  let iodc0 ← getBit 2 buf 70
  let l2p ← getBit 1 buf 72
  let tgd ← getBitS 8 buf 160
  let iode ← getBit 8 buf 168
  let tocs ← getBit 16 buf 176
  let af2 ← getBitS 8 buf 192
  let af1 ← getBitS 16 buf 200
  let af0 ← getBitS 22 buf 216
  .ok { e with
    codeOnL2 := codeOnL2
    ura := ura
    health := health
    l2p := l2p
    iode := iode
    tocs := tocs * 16
    af2 := ⟨af2, [.p2 55]⟩
    af1 := ⟨af1, [.p2 43]⟩
    af0 := ⟨af0, [.p2 31]⟩
    alert := 0
    tgd0 := if tgd = -128 then .zero else ⟨tgd, [.p2 31]⟩
    tgd1 := .zero
    tgd2 := .zero
    tgd3 := .zero
    iodc := iodc0 * 256 + iode
    week := week + 2048
    iode1 := iode
    got1 := true }

/-- `decodeGPSSubframe2`. nav.cpp:151-168. -/
def sub2 (buf : List Byte) (e : Eph) : M Eph := do
  let iode ← getBit 8 buf 48
  let crs ← getBitS 16 buf 56
  let deltaN ← getBitS 16 buf 72
  let m0 ← getBitS 32 buf 88
  let cuc ← getBitS 16 buf 120
  let ecc ← getBit 32 buf 136
  let cus ← getBitS 16 buf 168
  let sqrta ← getBit 32 buf 184
  let toes ← getBit 16 buf 216
  let fit ← getBit 1 buf 232
  .ok { e with
    iode := iode
    crs := ⟨crs, [.p2 5]⟩
    deltaN := ⟨deltaN, [.p2 43, .pi]⟩
    m0 := ⟨m0, [.p2 31, .pi]⟩
    cuc := ⟨cuc, [.p2 29]⟩
    ecc := ⟨ecc, [.p2 33]⟩
    cus := ⟨cus, [.p2 29]⟩
    sqrta := ⟨sqrta, [.p2 19]⟩
    toes := toes * 16
    fit := if fit ≠ 0 then 0 else 4
    iode2 := iode
    got2 := true }

/-- `decodeGPSSubframe3`; the decoded `iode3` is at once overwritten with `eph->iode`. nav.cpp:170-186. -/
def sub3 (buf : List Byte) (e : Eph) : M Eph := do
  let cic ← getBitS 16 buf 48
  let omega0 ← getBitS 32 buf 64
  let cis ← getBitS 16 buf 96
  let i0 ← getBitS 32 buf 112
  let crc ← getBitS 16 buf 144
  let w ← getBitS 32 buf 160
  let omegadot ← getBitS 24 buf 192
  let _iode3 ← getBit 8 buf 216
  let idot ← getBitS 14 buf 224
  .ok { e with
    cic := ⟨cic, [.p2 29]⟩
    omega0 := ⟨omega0, [.p2 31, .pi]⟩
    cis := ⟨cis, [.p2 29]⟩
    i0 := ⟨i0, [.p2 31, .pi]⟩
    crc := ⟨crc, [.p2 5]⟩
    w := ⟨w, [.p2 31, .pi]⟩
    omegadot := ⟨omegadot, [.p2 43, .pi]⟩
    idot := ⟨idot, [.p2 43, .pi]⟩
    iode3 := e.iode
    got3 := true }

/-- `*(reinterpret_cast<const uint32_t *>(p))` at byte `4 * i`, little endian. nav.cpp:198. -/
def word (dwrd : List Byte) (i : Nat) : M Nat := do
  let b0 ← rd dwrd (4 * i)
  let b1 ← rd dwrd (4 * i + 1)
  let b2 ← rd dwrd (4 * i + 2)
  let b3 ← rd dwrd (4 * i + 3)
  .ok (b0.toNat + b1.toNat * 2 ^ 8 + b2.toNat * 2 ^ 16 + b3.toNat * 2 ^ 24)

/-- The parity-stripping loop, `n` more rounds from word `i`. nav.cpp:195-200. -/
def strip (dwrd : List Byte) : Nat → Nat → List Byte → M (List Byte)
  | 0, _, sf => .ok sf
  | n + 1, i, sf => do
    let x ← word dwrd i
    let sf' ← setBit 24 sf (i * 24) (x >>> 6)
    strip dwrd n (i + 1) sf'

/-- What a decoder does to the outside: new entry, new GPS reference time, the ephemerides reported (at most one),
and the returned bool. (Result tuple of the decode functions, not a construct of /repo.) nav.cpp:188-245. -/
structure GpsOut where
  eph : Eph
  gpsTime : UTCTime
  reports : List Eph
  ret : Bool
  deriving DecidableEq, Repr

/-- The consistency test and report at the end of `decodeGPS`; `toes * 1000` is `uint32_t` arithmetic converted to
`int`. nav.cpp:225-244. -/
def gpsFinish (gpsTime : UTCTime) (e : Eph) : M GpsOut :=
  if e.got1 && e.got2 && e.got3 && e.iode1 == e.iode2 && e.iode1 == e.iode3 && e.iode == e.iodc % 256 then do
    let toe ← UTCTime.fromGPS e.week (((e.toes * 1000 : Nat) : Int).bmod (2 ^ 32))
    let toc ← UTCTime.fromGPS e.week (((e.tocs * 1000 : Nat) : Int).bmod (2 ^ 32))
    let e' := { e with toe := toe, toc := toc }
    .ok ⟨{ e' with got1 := false, got2 := false, got3 := false }, toe, [e'], false⟩
  else .ok ⟨e, gpsTime, [], false⟩

/-- `decodeGPS(buf, eph)`.  `junk` is the arbitrary initial content of the uninitialised `subfrm[30]`;
`return -1` converts to `true`. nav.cpp:188-245. -/
def decodeGPS (junk : List Byte) (gpsTime : UTCTime) (dwrd : List Byte) (e0 : Eph) : M GpsOut := do
  let e := { e0 with gnssID := 0 }
  let sf ← strip dwrd 10 0 junk
  let b5 ← rd sf 5
  let id := (b5.toNat >>> 2) &&& 7
  if id < 1 ∨ 5 < id then .ok ⟨e, gpsTime, [], true⟩
  else match id with
    | 1 => do let e1 ← sub1 sf e; gpsFinish gpsTime e1
    | 2 => do let e1 ← sub2 sf e; gpsFinish gpsTime e1
    | 3 => do let e1 ← sub3 sf e; gpsFinish gpsTime e1
    | _ => .ok ⟨e, gpsTime, [], false⟩

end Ublox.Nav
