import Verif.Model.NavGps

/-!
# Model of `src/parsers/nav.cpp`, part 2: GLONASS
-/

namespace Ublox.Nav

/-- `class GlonassEphemeris`. nav.h:121-146.  Arrays `pos[3]`, `vel[3]`, `acc[3]` are separate fields. -/
structure GEph where
  gnssID : Byte
  sat : Byte
  iode : Nat
  frq : Int
  svh : Nat
  sva : Nat
  age : Nat
  toe : UTCTime
  tof : UTCTime
  pos0 : Dbl
  pos1 : Dbl
  pos2 : Dbl
  vel0 : Dbl
  vel1 : Dbl
  vel2 : Dbl
  acc0 : Dbl
  acc1 : Dbl
  acc2 : Dbl
  taun : Dbl
  gamn : Dbl
  dtaun : Dbl
  got1 : Bool
  got2 : Bool
  got3 : Bool
  got4 : Bool
  timeMark : Nat
  deriving DecidableEq, Repr

/-- A value-initialised `GlonassEphemeris` (`geph_.emplace_back()`). nav.cpp:86, nav.h:121-146. -/
def GEph.fresh : GEph :=
  { gnssID := 0, sat := 0, iode := 0, frq := 0, svh := 0, sva := 0, age := 0, toe := .zero, tof := .zero,
    pos0 := .zero, pos1 := .zero, pos2 := .zero, vel0 := .zero, vel1 := .zero, vel2 := .zero,
    acc0 := .zero, acc1 := .zero, acc2 := .zero, taun := .zero, gamn := .zero, dtaun := .zero,
    got1 := false, got2 := false, got3 := false, got4 := false, timeMark := 0 }

/-- The table `xor8[256]`. nav.cpp:249-257. -/
def xor8 : Array Nat := #[
  0, 1, 1, 0, 1, 0, 0, 1, 1, 0, 0, 1, 0, 1, 1, 0, 1, 0, 0, 1, 0, 1, 1, 0, 0, 1, 1, 0, 1, 0, 0, 1, 1, 0, 0, 1, 0,
  1, 1, 0, 0, 1, 1, 0, 1, 0, 0, 1, 0, 1, 1, 0, 1, 0, 0, 1, 1, 0, 0, 1, 0, 1, 1, 0, 1, 0, 0, 1, 0, 1, 1, 0, 0, 1,
  1, 0, 1, 0, 0, 1, 0, 1, 1, 0, 1, 0, 0, 1, 1, 0, 0, 1, 0, 1, 1, 0, 0, 1, 1, 0, 1, 0, 0, 1, 1, 0, 0, 1, 0, 1, 1,
  0, 1, 0, 0, 1, 0, 1, 1, 0, 0, 1, 1, 0, 1, 0, 0, 1, 1, 0, 0, 1, 0, 1, 1, 0, 0, 1, 1, 0, 1, 0, 0, 1, 0, 1, 1, 0,
  1, 0, 0, 1, 1, 0, 0, 1, 0, 1, 1, 0, 0, 1, 1, 0, 1, 0, 0, 1, 1, 0, 0, 1, 0, 1, 1, 0, 1, 0, 0, 1, 0, 1, 1, 0, 0,
  1, 1, 0, 1, 0, 0, 1, 0, 1, 1, 0, 1, 0, 0, 1, 1, 0, 0, 1, 0, 1, 1, 0, 1, 0, 0, 1, 0, 1, 1, 0, 0, 1, 1, 0, 1, 0,
  0, 1, 1, 0, 0, 1, 0, 1, 1, 0, 0, 1, 1, 0, 1, 0, 0, 1, 0, 1, 1, 0, 1, 0, 0, 1, 1, 0, 0, 1, 0, 1, 1, 0]

/-- The table `hamming_mask` (the unused twelfth column, zero, is dropped). nav.cpp:258-266. -/
def hammingMask : List (List Byte) := [
  [0x55, 0x55, 0x5A, 0xAA, 0xAA, 0xAA, 0xB5, 0x55, 0x6A, 0xD8, 0x08],
  [0x66, 0x66, 0x6C, 0xCC, 0xCC, 0xCC, 0xD9, 0x99, 0xB3, 0x68, 0x10],
  [0x87, 0x87, 0x8F, 0x0F, 0x0F, 0x0F, 0x1E, 0x1E, 0x3C, 0x70, 0x20],
  [0x07, 0xF8, 0x0F, 0xF0, 0x0F, 0xF0, 0x1F, 0xE0, 0x3F, 0x80, 0x40],
  [0xF8, 0x00, 0x0F, 0xFF, 0xF0, 0x00, 0x1F, 0xFF, 0xC0, 0x00, 0x80],
  [0x00, 0x00, 0x0F, 0xFF, 0xFF, 0xFF, 0xE0, 0x00, 0x00, 0x01, 0x00],
  [0xFF, 0xFF, 0xF0, 0x00, 0x00, 0x00, 0x00, 0x00, 0x00, 0x02, 0x00],
  [0xFF, 0xFF, 0xFF, 0xFF, 0xFF, 0xFF, 0xFF, 0xFF, 0xFF, 0xFF, 0xF8]]

/-- Table lookup `xor8[i]`. nav.cpp:275. -/
def xor8At (i : Nat) : M Nat :=
  match xor8[i]? with
  | some v => .ok v
  | none => .error .oobRead

/-- The inner loop `for (j = 0; j < 11; ++j) crc ^= xor8[buf[j] & hamming_mask[i][j]]` over the rest of row `i`.
nav.cpp:272-276. -/
def gloRow (buf : List Byte) : List Byte → Nat → Nat → M Nat
  | [], _, crc => .ok crc
  | m :: ms, j, crc => do
    let b ← rd buf j
    let x ← xor8At (b &&& m).toNat
    gloRow buf ms (j + 1) (crc ^^^ x)

/-- The outer loop; returns `(n, crc)`, `crc` being the value left by the last row. nav.cpp:270-279. -/
def gloRows (buf : List Byte) : List (List Byte) → Nat → Nat → M (Nat × Nat)
  | [], n, crc => .ok (n, crc)
  | r :: rs, n, _ => do
    let c ← gloRow buf r 0 0
    gloRows buf rs (if c ≠ 0 then n + 1 else n) c

/-- `gloTest(buf)`. nav.cpp:247-281. -/
def gloTest (buf : List Byte) : M Bool := do
  let (n, crc) ← gloRows buf hammingMask 0 0
  .ok (n == 0 || (n == 2 && crc != 0))

/-- `decodeGlonassFrame1`; no `return` statement. nav.cpp:283-299. -/
def gloFrame1 (md : Mode) (gpsTime : UTCTime) (buf : List Byte) (g : GEph) : M GEph := do
  let h ← getBit 5 buf 9
  let m ← getBit 6 buf 14
  let s ← getBit 1 buf 20
  let vel ← getBitGlo 24 buf 21
  let acc ← getBitGlo 5 buf 45
  let pos ← getBitGlo 27 buf 50
  let tof ← UTCTime.fromGlonassTimeOfDay gpsTime (((h * 3600 + m * 60 + s * 30) * 1000 : Nat) : Int)
  offEnd md
  .ok { g with vel0 := ⟨vel, [.p2 20, .e3]⟩, acc0 := ⟨acc, [.p2 30, .e3]⟩, pos0 := ⟨pos, [.p2 11, .e3]⟩,
               tof := tof, got1 := true }

/-- `decodeGlonassFrame2`; no `return` statement. nav.cpp:301-316. -/
def gloFrame2 (md : Mode) (gpsTime : UTCTime) (buf : List Byte) (g : GEph) : M GEph := do
  let svh ← getBit 3 buf 5
  let tb ← getBit 7 buf 9
  let vel ← getBitGlo 24 buf 21
  let acc ← getBitGlo 5 buf 45
  let pos ← getBitGlo 27 buf 50
  let toe ← UTCTime.fromGlonassTimeOfDay gpsTime ((tb * 60 * 15 * 1000 : Nat) : Int)
  offEnd md
  .ok { g with svh := svh, iode := tb, vel1 := ⟨vel, [.p2 20, .e3]⟩, acc1 := ⟨acc, [.p2 30, .e3]⟩,
               pos1 := ⟨pos, [.p2 11, .e3]⟩, toe := toe, got2 := true }

/-- `decodeGlonassFrame3`; no `return` statement. nav.cpp:318-328. -/
def gloFrame3 (md : Mode) (buf : List Byte) (g : GEph) : M GEph := do
  let gamn ← getBitGlo 11 buf 6
  let vel ← getBitGlo 24 buf 21
  let acc ← getBitGlo 5 buf 45
  let pos ← getBitGlo 27 buf 50
  offEnd md
  .ok { g with gamn := ⟨gamn, [.p2 40]⟩, vel2 := ⟨vel, [.p2 20, .e3]⟩, acc2 := ⟨acc, [.p2 30, .e3]⟩,
               pos2 := ⟨pos, [.p2 11, .e3]⟩, got3 := true }

/-- `decodeGlonassFrame4`; no `return` statement. nav.cpp:329-340. -/
def gloFrame4 (md : Mode) (buf : List Byte) (g : GEph) : M GEph := do
  let taun ← getBitGlo 22 buf 5
  let dtaun ← getBitGlo 5 buf 27
  let age ← getBit 5 buf 32
  let sva ← getBit 4 buf 52
  offEnd md
  .ok { g with taun := ⟨taun, [.p2 30]⟩, dtaun := ⟨dtaun, [.p2 30]⟩, age := age, sva := sva, got4 := true }

/-- `t.toSec() > n`, with `toSec()` (utctime.cpp:103-106) evaluated exactly. nav.cpp:382-390, 572-575. -/
def secGt (t : UTCTime) (n : Int) : Bool := t.sec * UTCTime.E9 + t.nsec > n * UTCTime.E9

/-- `t.toSec() < n`, evaluated exactly. nav.cpp:384, 388, 574. -/
def secLt (t : UTCTime) (n : Int) : Bool := t.sec * UTCTime.E9 + t.nsec < n * UTCTime.E9

/-- The day-wrap correction of one time. nav.cpp:382-385 (`toe`) and 386-389 (`tof`). -/
def dayWrap (gpsTime t : UTCTime) : UTCTime :=
  if secGt (gpsTime.sub t) 43200 then t.addIntAssign 86400
  else if secLt (gpsTime.sub t) (-43200) then t.subIntAssign 86400
  else t

/-- The `switch (frame_num)`. nav.cpp:352-370. -/
def gloFrame (md : Mode) (gpsTime : UTCTime) (num : Nat) (buf : List Byte) (g : GEph) : M GEph :=
  match num with
  | 1 => gloFrame1 md gpsTime buf g
  | 2 => gloFrame2 md gpsTime buf g
  | 3 => gloFrame3 md buf g
  | _ => gloFrame4 md buf g

/-- `decodeGlonassString`. nav.cpp:342-393. -/
def gloString (md : Mode) (gpsTime : UTCTime) (buf : List Byte) (g : GEph) : M (GEph × Bool) := do
  let num ← getBit 4 buf 1
  if num < 1 ∨ 4 < num then .ok (g, false)
  else do
    let g1 ← gloFrame md gpsTime num buf g
    if !g1.got1 || !g1.got2 || !g1.got3 || !g1.got4 || num != 4 then .ok (g1, false)
    else .ok ({ g1 with toe := dayWrap gpsTime g1.toe, tof := dayWrap gpsTime g1.tof }, true)

/-- The byte-swapping copy loops, `n` more words from word `i`: `buf[k++] = p[3 - j]`.
nav.cpp:408-416 (GLONASS), 612-620 (Galileo). -/
def swapWords (dwrd : List Byte) : Nat → Nat → M (List Byte)
  | 0, _ => .ok []
  | n + 1, i => do
    let b3 ← rd dwrd (4 * i + 3)
    let b2 ← rd dwrd (4 * i + 2)
    let b1 ← rd dwrd (4 * i + 1)
    let b0 ← rd dwrd (4 * i)
    let rest ← swapWords dwrd n (i + 1)
    .ok (b3 :: b2 :: b1 :: b0 :: rest)

/-- What `decodeGlonass` does: new entry, reported ephemerides (at most one), returned bool.
(Result tuple, not a construct of /repo.) nav.cpp:395-443. -/
structure GloOut where
  geph : GEph
  reports : List GEph
  ret : Bool
  deriving DecidableEq, Repr

/-- `decodeGlonass(msg, geph)`.  Only the 16 bytes of `buf[64]` that are written exist in the model, so reading one
of the uninitialised others is an error. nav.cpp:395-443. -/
def decodeGlonass (md : Mode) (gpsTime : UTCTime) (gnssId svId freqId : Byte) (dwrd : List Byte) (g : GEph) :
    M GloOut := do
  if svId = 255 then .ok ⟨g, [], false⟩
  else if gpsTime.eq (UTCTime.ofInts 0 0) then .ok ⟨g, [], false⟩
  else do
    let buf ← swapWords dwrd 4 0
    let good ← gloTest buf
    if !good then .ok ⟨g, [], true⟩
    else do
      let b12 ← rd buf 12
      let b13 ← rd buf 13
      let tm := b12.toNat * 256 + b13.toNat
      let g1 := if tm ≠ g.timeMark then { g with got1 := false, got2 := false, got3 := false, got4 := false } else g
      let g2 := { g1 with timeMark := tm }
      let (g3, done) ← gloString md gpsTime buf g2
      if !done then .ok ⟨g3, [], false⟩
      else
        let g4 := { g3 with frq := (freqId.toNat : Int) - 7, sat := svId, gnssID := gnssId }
        .ok ⟨g4, [g4], true⟩

end Ublox.Nav
