import Verif.Model.NavGlo
import Verif.Model.Crc

/-!
# Model of `src/parsers/nav.cpp`, part 3: Galileo

The function-local names `i += …` of `decode_gal_inav` are replaced by the bit positions they evaluate to.
Debug output (`DBG`, `printf`) is modelled in `Model/NavScreen.lean`; here it is dropped, except that `std::cout << (*eph)` calls `operator<<`, which has no
`return` statement (nav.h:233-279).
-/

namespace Ublox.Nav

/-- `decode_gal_inav(buff, eph)`.  Most members are assigned before the consistency tests, so they change even when
the result is `false`.  The values only computed, never used (`svid`, health bits, `type5`), are read (for bounds) and dropped.
nav.cpp:467-600. -/
def galInav (buff : List Byte) (e : Eph) : M (Eph × Bool) := do
  let type0 ← getBitRt buff 0 6
  let timeF ← getBitRt buff 6 2
  let week ← getBitRt buff 96 12
  let tow ← getBitRt buff 108 20
  let type1 ← getBitRt buff 128 6
  let iod0 ← getBitRt buff 134 10
  let toes ← getBitRt buff 144 14
  let m0 ← getBitRtS buff 158 32
  let ecc ← getBitRt buff 190 32
  let sqrtA ← getBitRt buff 222 32
  let type2 ← getBitRt buff 256 6
  let iod1 ← getBitRt buff 262 10
  let omega0 ← getBitRtS buff 272 32
  let i0 ← getBitRtS buff 304 32
  let w ← getBitRtS buff 336 32
  let idot ← getBitRtS buff 368 14
  let type3 ← getBitRt buff 384 6
  let iod2 ← getBitRt buff 390 10
  let omegadot ← getBitRtS buff 400 24
  let deltaN ← getBitRtS buff 424 16
  let cuc ← getBitRtS buff 440 16
  let cus ← getBitRtS buff 456 16
  let crc ← getBitRtS buff 472 16
  let crs ← getBitRtS buff 488 16
  let type4 ← getBitRt buff 512 6
  let iod3 ← getBitRt buff 518 10
  let _svid ← getBitRt buff 528 6
  let cic ← getBitRtS buff 534 16
  let cis ← getBitRtS buff 550 16
  let toc ← getBitRt buff 566 14
  let af0 ← getBitRtS buff 580 31
  let af1 ← getBitRtS buff 611 21
  let af2 ← getBitRtS buff 632 6
  let _type5 ← getBitRt buff 640 6
  let tgd0 ← getBitRtS buff 687 10
  let tgd1 ← getBitRtS buff 697 10
  let _e5bHs ← getBitRt buff 707 2
  let _e1bHs ← getBitRt buff 709 2
  let _e5bDvs ← getBitRt buff 711 1
  let _e1bDvs ← getBitRt buff 712 1
  let e1 := { e with
    toes := toes * 60
    m0 := ⟨m0, [.p2 31, .pi]⟩
    ecc := ⟨ecc, [.p2 33]⟩
    omega0 := ⟨omega0, [.p2 31, .pi]⟩
    i0 := ⟨i0, [.p2 31, .pi]⟩
    w := ⟨w, [.p2 31, .pi]⟩
    idot := ⟨idot, [.p2 43, .pi]⟩
    omegadot := ⟨omegadot, [.p2 43, .pi]⟩
    deltaN := ⟨deltaN, [.p2 43, .pi]⟩
    cuc := ⟨cuc, [.p2 29]⟩
    cus := ⟨cus, [.p2 29]⟩
    crc := ⟨crc, [.p2 5]⟩
    crs := ⟨crs, [.p2 5]⟩
    cic := ⟨cic, [.p2 29]⟩
    cis := ⟨cis, [.p2 29]⟩
    af0 := ⟨af0, [.p2 34]⟩
    af1 := ⟨af1, [.p2 46]⟩
    af2 := ⟨af2, [.p2 59]⟩
    tgd0 := ⟨tgd0, [.p2 32]⟩
    tgd1 := ⟨tgd1, [.p2 32]⟩ }
  if type0 ≠ 0 ∨ type1 ≠ 1 ∨ type2 ≠ 2 ∨ type3 ≠ 3 ∨ type4 ≠ 4 then .ok (e1, false)
  else if timeF ≠ 2 then .ok (e1, false)
  else if iod0 ≠ iod1 ∨ iod0 ≠ iod2 ∨ iod0 ≠ iod3 then .ok (e1, false)
  else do
    let ttr ← UTCTime.fromGalileo week ((tow * 1000 : Nat) : Int)
    let t ← UTCTime.fromGalileo week ((toes * 60 * 1000 : Nat) : Int)
    let dt := t.sub ttr
    let week1 : Int := if secGt dt 302400 then (week : Int) - 1 else if secLt dt (-302400) then (week : Int) + 1 else week
    let week2 := week1 + 1024
    let toe ← UTCTime.fromGalileo week2 ((toes * 60 * 1000 : Nat) : Int)
    let tocT ← UTCTime.fromGalileo week2 ((toc * 60 * 1000 : Nat) : Int)
    .ok ({ e1 with
      sqrta := ⟨sqrtA, [.p2 19]⟩
      iodc := iod0
      iode := iod0 % 256
      toe := toe
      toc := tocT
      week := (week2 % 65536).toNat }, true)

/-- The loop `setBit<8>(crc_buff, j, src[i]); j += 8`, `n` more rounds from `i`, `j`. nav.cpp:642-653. -/
def copyBits (src : List Byte) : Nat → Nat → Nat → List Byte → M (List Byte)
  | 0, _, _, dst => .ok dst
  | n + 1, i, j, dst => do
    let b ← rd src i
    let dst' ← setBit 8 dst j b.toNat
    copyBits src n (i + 1) (j + 8) dst'

/-- The loop `row[k++] = getBit<8>(src, j); j += 8`, `n` more rounds. nav.cpp:674-688. -/
def storeBytes (src : List Byte) : Nat → Nat → Nat → List Byte → M (List Byte)
  | 0, _, _, row => .ok row
  | n + 1, j, k, row => do
    let v ← getBit 8 src j
    let row' ← wr row k (BitVec.ofNat 8 v)
    storeBytes src n (j + 8) (k + 1) row'

/-- What `decodeGalileo` does: new row of the page store, new entry, reports, returned bool.
(Result tuple, not a construct of /repo.) nav.cpp:604-728. -/
structure GalOut where
  row : List Byte
  eph : Eph
  reports : List Eph
  ret : Bool
  deriving DecidableEq, Repr

/-- `if (type == 2) subfrm[sat - 1][112] = 0`. nav.cpp:668-672. -/
def restartFlags (type : Nat) (row : List Byte) : M (List Byte) :=
  if type = 2 then wr row 112 0 else .ok row

/-- The part of `decodeGalileo` after the page has been checked: store the word, collect, decode, report.
nav.cpp:668-727. -/
def galAccept (md : Mode) (buff odd : List Byte) (type : Nat) (row : List Byte) (e : Eph) : M GalOut := do
  let row0 ← restartFlags type row
  let row1 ← storeBytes buff 14 2 (type * 16) row0
  let row2 ← storeBytes odd 2 2 (type * 16 + 14) row1
  let f ← rd row2 112
  let f' := f ||| BitVec.ofNat 8 (1 <<< type)
  let row3 ← wr row2 112 f'
  if f' ≠ 0x7F then .ok ⟨row3, e, [], false⟩
  else do
    let (e1, good) ← galInav row3 e
    if !good then .ok ⟨row3, e1, [], false⟩
    else do
      offEnd md
      .ok ⟨row3, e1, [e1], true⟩

/-- `decodeGalileo(buf, eph)` on the row `subfrm[sat - 1]` of the static page store; for `sat = 0` the first access
to the row is out of bounds (`subfrm[-1]`).  The test `eph->sat != sat` (line 706) can never be true, because nothing
changes `eph->sat` in between, and is dropped. nav.cpp:602-728. -/
def decodeGalileo (md : Mode) (dwrd : List Byte) (row : List Byte) (e : Eph) : M GalOut := do
  let buff ← swapWords dwrd 8 0
  let odd := buff.drop 16
  let part1 ← getBit 1 buff 0
  let page1 ← getBit 1 buff 1
  let part2 ← getBit 1 odd 0
  let page2 ← getBit 1 odd 1
  if page1 = 1 ∨ page2 = 1 then .ok ⟨row, e, [], false⟩
  else if part1 ≠ 0 ∨ part2 ≠ 1 then .ok ⟨row, e, [], false⟩
  else do
    let c1 ← copyBits buff 15 0 4 (List.replicate 26 0)
    let c2 ← copyBits buff 11 16 118 c1
    let crc ← crc24 c2 25
    let sent ← getBit 24 odd 82
    if crc ≠ sent then .ok ⟨row, e, [], false⟩
    else do
      let type ← getBit 6 buff 2
      if type > 6 then .ok ⟨row, e, [], false⟩
      else if e.sat = 0 then .error .oobWrite
      else galAccept md buff odd type row e

end Ublox.Nav
