import Verif.Model.BitTools
import Verif.Model.Time

/-!
# Model of `include/UBLOX/parsers/msm.h`

`getBits` reads the bytes of the object itself (`selfArray()` is `(uint8_t*)this`), so the model has the object's memory
layout (x86-64, Itanium ABI: virtual-table pointer first, little endian).  The wall clock is a parameter.

`MSM4` and `MSM7` are not modelled: they cannot be instantiated (`this->gnss_epoch_time` does not exist, `cnr = …` assigns to
an array).  Of `MSM5` the raw values read are modelled, not the products with the scale constants; `storeRate` … say which integer is
scaled and stored for a value read.
-/

namespace Ublox

/-- `struct MSM`. msm.h:147-160. -/
structure Msm where
  /-- virtual-table pointer, 8 bytes -/
  vptr : List Byte
  t : UTCTime
  staid : BitVec 16
  sync : Byte
  iod : Byte
  time_s : Byte
  clk_str : Byte
  clk_ext : Byte
  smooth : Byte
  tint_s : Byte
  /-- padding before `nsig`, 7 bytes -/
  pad : List Byte
  nsig : Nat
  nsat : Nat
  sigs : List Byte
  sats : List Byte
  cellmask : List (BitVec 64)
  /-- members of the derived class -/
  derived : List Byte

namespace Msm

/-- `k` bytes of a number, least significant first. (Memory representation, not a construct of /repo.) -/
def le : Nat → Nat → List Byte
  | 0, _ => []
  | k + 1, n => BitVec.ofNat 8 n :: le k (n / 256)

/-- The first 40 bytes of the object: everything before `nsig`. msm.h:147-157. -/
def head (s : Msm) : List Byte :=
  s.vptr ++ le 8 (s.t.sec % 2 ^ 64).toNat ++ le 8 (s.t.nsec % 2 ^ 64).toNat ++ le 2 s.staid.toNat ++
    [s.sync, s.iod, s.time_s, s.clk_str, s.clk_ext, s.smooth, s.tint_s] ++ s.pad

/-- The rest of the object. msm.h:158-160. -/
def tail (s : Msm) : List Byte :=
  le 8 s.nsig ++ le 8 s.nsat ++ s.sigs ++ s.sats ++ s.cellmask.flatMap (fun c => le 8 c.toNat) ++ s.derived

/-- `selfArray()`. msm.h:48. -/
def bytes (s : Msm) : List Byte := s.head ++ s.tail

/-- `getBits<len>(pos)`. msm.h:63-67. -/
def getBits (len : Nat) (s : Msm) (pos : Nat) : M Nat := getBit len s.bytes pos

/-- `decodeTime(constellation)`; `now` is the wall clock; GPS = 0, Galileo = 1, Glonass = 2. msm.h:30-36, 69-94. -/
def decodeTime (now : UTCTime) (constellation : Int) (s : Msm) : M Msm :=
  if constellation = 0 ∨ constellation = 1 then do
    let tow ← s.getBits 30 48
    let t ← UTCTime.fromGPS now.gpsWeek (tow : Int)
    .ok { s with t := t }
  else if constellation = 2 then do
    let dow ← s.getBits 3 48
    let tod ← s.getBits 27 51
    let t ← UTCTime.fromGlonass (dow : Int) (tod : Int)
    .ok { s with t := t }
  else .ok s

/-- The fixed fields of `decodeHeader`. msm.h:100-118. -/
def fixedFields (now : UTCTime) (constellation : Int) (s : Msm) : M Msm := do
  let v ← s.getBits 12 36
  let s := { s with staid := BitVec.ofNat 16 v }
  let s ← s.decodeTime now constellation
  let v ← s.getBits 1 78
  let s := { s with sync := BitVec.ofNat 8 v }
  let v ← s.getBits 3 79
  let s := { s with iod := BitVec.ofNat 8 v }
  let v ← s.getBits 7 82
  let s := { s with time_s := BitVec.ofNat 8 v }
  let v ← s.getBits 2 89
  let s := { s with clk_str := BitVec.ofNat 8 v }
  let v ← s.getBits 2 91
  let s := { s with clk_ext := BitVec.ofNat 8 v }
  let v ← s.getBits 1 93
  let s := { s with smooth := BitVec.ofNat 8 v }
  let v ← s.getBits 3 94
  .ok { s with tint_s := BitVec.ofNat 8 v }

/-- The satellite loop, `k` iterations left. msm.h:119-125. -/
def satLoop (s : Msm) (i j : Nat) : Nat → M Msm
  | 0 => .ok s
  | k + 1 => do
    let mask ← s.getBits 1 i
    if mask ≠ 0 then do
      let sats ← wr s.sats s.nsat (BitVec.ofNat 8 j)
      satLoop { s with sats, nsat := s.nsat + 1 } (i + 1) (j + 1) k
    else satLoop s (i + 1) (j + 1) k

/-- The signal loop. msm.h:126-132. -/
def sigLoop (s : Msm) (i j : Nat) : Nat → M Msm
  | 0 => .ok s
  | k + 1 => do
    let mask ← s.getBits 1 i
    if mask ≠ 0 then do
      let sigs ← wr s.sigs s.nsig (BitVec.ofNat 8 j)
      sigLoop { s with sigs, nsig := s.nsig + 1 } (i + 1) (j + 1) k
    else sigLoop s (i + 1) (j + 1) k

/-- The cell loop. msm.h:138-144. -/
def cellLoop (s : Msm) (i j : Nat) (ncell : Int) : Nat → M (Msm × Int)
  | 0 => .ok (s, ncell)
  | k + 1 => do
    let v ← s.getBits 1 i
    if j < s.cellmask.length then
      cellLoop { s with cellmask := s.cellmask.set j (BitVec.ofNat 64 v) } (i + 1) (j + 1)
        (if v ≠ 0 then ncell + 1 else ncell) k
    else .error .oobWrite

/-- `decodeHeader(constellation)`. msm.h:98-146. -/
def decodeHeader (now : UTCTime) (constellation : Int) (s : Msm) : M (Msm × Int) := do
  let s ← s.fixedFields now constellation
  let s ← s.satLoop 97 1 64
  let s ← s.sigLoop 161 1 32
  if s.nsat * s.nsig % 2 ^ 64 > 64 then .ok (s, -1)
  else s.cellLoop 193 0 0 (s.nsat * s.nsig % 2 ^ 64)

/-- One loop of `MSM5::decode` reading `n` fields of `len` bits from bit `i` on: the values read. msm.h:255-319. -/
def fields (s : Msm) (len i : Nat) : Nat → M (List Nat)
  | 0 => .ok []
  | n + 1 => do
    let v ← s.getBits len i
    let vs ← s.fields len (i + len) n
    .ok (v :: vs)

/-- The integer stored (before scaling) for a rate field read as `v`; `none`: the member is left alone.  `getBits` is
unsigned, so the comparison is with the unsigned value. msm.h:274-280. -/
def storeRate (v : Nat) : Option Int := if (v : Int) ≠ -8192 then some v else none

/-- The same for a fine pseudorange. msm.h:283-289. -/
def storeFineRange (v : Nat) : Option Int := if (v : Int) ≠ -16384 then some v else none

/-- The same for a fine phase range. msm.h:291-297. -/
def storeFinePhase (v : Nat) : Option Int := if (v : Int) ≠ -2097152 then some v else none

/-- The same for a fine rate. msm.h:313-319. -/
def storeFineRate (v : Nat) : Option Int := if (v : Int) ≠ -16384 then some v else none

/-- The ten loops of `MSM5::decode`: for each the number of bits of a field, the bit at which the first one is read, and how
many are read. msm.h:252-319. -/
def blocks5 (nsat nsig ncell : Nat) : List (Nat × Nat × Nat) :=
  let i0 := 24 + 169 * nsat * nsig
  let i1 := i0 + 8 * nsat
  let i2 := i1 + 4 * nsat
  let i3 := i2 + 10 * nsat
  let i4 := i3 + 14 * nsat
  let i5 := i4 + 15 * ncell
  let i6 := i5 + 22 * ncell
  let i7 := i6 + 4 * ncell
  let i8 := i7 + ncell
  let i9 := i8 + 6 * ncell
  [(8, i0, nsat), (4, i1, nsat), (10, i2, nsat), (14, i3, nsat), (15, i4, ncell), (22, i5, ncell), (4, i6, ncell),
   (1, i7, ncell), (6, i8, ncell), (15, i9, ncell)]

/-- The loops one after the other. msm.h:255-319. -/
def readBlocks (s : Msm) : List (Nat × Nat × Nat) → M Unit
  | [] => .ok ()
  | (len, i, n) :: rest => do
    let _ ← s.fields len i n
    s.readBlocks rest

/-- `MSM5::decode`: the ten loops, then the end of the function without a `return`.  Only where it reads and how it ends is
modelled: the values read (which the stores into the derived members may change) are discarded. msm.h:245-320. -/
def decode5 (now : UTCTime) (constellation : Int) (s : Msm) : M Int := do
  let (s, ncell) ← s.decodeHeader now constellation
  if ncell < 0 then .ok (-1)
  else do
    s.readBlocks (blocks5 s.nsat s.nsig ncell.toNat)
    .error .missingReturn

end Msm
end Ublox
