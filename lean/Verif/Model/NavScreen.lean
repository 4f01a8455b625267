import Verif.Model.Nav
import Verif.Model.TimePrint

/-!
# Model of `src/parsers/nav.cpp`, part 5: what it writes to the console

`DBG(…)` is `fprintf(stderr, …)` (nav.cpp:26).  The functions follow the control flow of `Model/NavGal.lean` and
`Model/NavGlo.lean` and give the text instead of the new state.  The text of `std::cout << (*eph)` (nav.cpp:710) is the
subject of `Model/EphPrint.lean` and is not repeated here.
-/

namespace Ublox.Nav

open UTCTime (decNat decInt)

/-- What is written to `stderr` (`DBG`, nav.cpp:26) and, by `printf`, to `stdout` (nav.cpp:593). -/
structure Printed where
  err : List Char := []
  out : List Char := []
  deriving DecidableEq, Repr

/-- `%2d` of a satellite number (never negative). nav.cpp:637, 656. -/
def width2 (n : Nat) : List Char := if n < 10 then ' ' :: decNat n else decNat n

/-- The messages of `decode_gal_inav`, and its result. nav.cpp:561-600. -/
def galInavSays (buff : List Byte) : M (Printed × Bool) := do
  let type0 ← getBitRt buff 0 6
  let timeF ← getBitRt buff 6 2
  let week ← getBitRt buff 96 12
  let tow ← getBitRt buff 108 20
  let type1 ← getBitRt buff 128 6
  let iod0 ← getBitRt buff 134 10
  let toes ← getBitRt buff 144 14
  let type2 ← getBitRt buff 256 6
  let iod1 ← getBitRt buff 262 10
  let type3 ← getBitRt buff 384 6
  let iod2 ← getBitRt buff 390 10
  let type4 ← getBitRt buff 512 6
  let iod3 ← getBitRt buff 518 10
  if type0 ≠ 0 ∨ type1 ≠ 1 ∨ type2 ≠ 2 ∨ type3 ≠ 3 ∨ type4 ≠ 4 then
    .ok ({ err := "decode_gal_inav error: type=".toList ++ decNat type0 ++ " ".toList ++ decNat type1 ++ " ".toList ++
      decNat type2 ++ " ".toList ++ decNat type3 ++ " ".toList ++ decNat type4 ++ "\n".toList }, false)
  else if timeF ≠ 2 then .ok ({ err := "decode_gal_inav error: word0-time=".toList ++ decNat timeF ++ "\n".toList }, false)
  else if iod0 ≠ iod1 ∨ iod0 ≠ iod2 ∨ iod0 ≠ iod3 then
    .ok ({ err := "decode_gal_inav error: ionav=".toList ++ decNat iod0 ++ " ".toList ++ decNat iod1 ++ " ".toList ++
      decNat iod2 ++ " ".toList ++ decNat iod3 ++ "\n".toList }, false)
  else do
    let ttr ← UTCTime.fromGalileo week ((tow * 1000 : Nat) : Int)
    let t ← UTCTime.fromGalileo week ((toes * 60 * 1000 : Nat) : Int)
    let dt := t.sub ttr
    let week1 : Int := if secGt dt 302400 then (week : Int) - 1 else if secLt dt (-302400) then (week : Int) + 1 else week
    let week2 := week1 + 1024
    .ok ({ out := "Week = ".toList ++ decInt week2 ++ ", toes = ".toList ++ decNat (toes * 60) ++ "\n".toList }, true)

/-- The messages after the page has been checked. nav.cpp:668-709. -/
def galAcceptSays (buff odd : List Byte) (type : Nat) (row : List Byte) : M Printed := do
  let row0 ← restartFlags type row
  let row1 ← storeBytes buff 14 2 (type * 16) row0
  let row2 ← storeBytes odd 2 2 (type * 16 + 14) row1
  let f ← rd row2 112
  let f' := f ||| BitVec.ofNat 8 (1 <<< type)
  let row3 ← wr row2 112 f'
  if f' ≠ 0x7F then .ok { err := "GAL waiting for other subframes\n".toList }
  else do
    let (t, good) ← galInavSays row3
    if !good then .ok t
    else .ok { t with err := t.err ++ "GAL Success\n".toList }

/-- The messages of `decodeGalileo` (as there, the test of line 704 can never be true). nav.cpp:604-709. -/
def galSays (sat : Byte) (dwrd row : List Byte) : M Printed := do
  let buff ← swapWords dwrd 8 0
  let odd := buff.drop 16
  let part1 ← getBit 1 buff 0
  let page1 ← getBit 1 buff 1
  let part2 ← getBit 1 odd 0
  let page2 ← getBit 1 odd 1
  if page1 = 1 ∨ page2 = 1 then .ok { err := "Skipping alert page".toList }
  else if part1 ≠ 0 ∨ part2 ≠ 1 then .ok { err := "gal page even/odd error: sat=".toList ++ width2 sat.toNat ++ "\n".toList }
  else do
    let c1 ← copyBits buff 15 0 4 (List.replicate 26 0)
    let c2 ← copyBits buff 11 16 118 c1
    let crc ← crc24 c2 25
    let sent ← getBit 24 odd 82
    if crc ≠ sent then .ok { err := "GAL CRC Error: sat=".toList ++ width2 sat.toNat ++ "\n".toList }
    else do
      let type ← getBit 6 buff 2
      if type > 6 then .ok {}
      else if sat = 0 then .error .oobWrite
      else galAcceptSays buff odd type row

/-- The messages of `decodeGlonass` and `decodeGlonassString`. nav.cpp:342-370, 395-432. -/
def gloSays (gpsTime : UTCTime) (svId : Byte) (dwrd : List Byte) (g : GEph) : M Printed := do
  if svId = 255 then .ok {}
  else if gpsTime.eq (UTCTime.ofInts 0 0) then .ok {}
  else do
    let buf ← swapWords dwrd 4 0
    let good ← gloTest buf
    if !good then .ok {}
    else do
      let num ← getBit 4 buf 1
      if num < 1 ∨ 4 < num then .ok {}
      else .ok { err := "GLO Sat ".toList ++ decNat g.sat.toNat ++ ", frm ".toList ++ decNat num ++ "\n".toList }

/-- What one operation writes: an SFRBX message to `convertUBX` (nav.cpp:73-120), nothing for the others
(nav.cpp:58-66, nav.h:169-194); `decodeGPS` (nav.cpp:210-244) prints nothing. -/
def Nav.says (n : Nav) : NavOp → M Printed
  | .sfrbx _ m =>
    if m.gnssId = GLONASS then
      match findLast m.svId (n.geph.map (·.sat)) 0 none with
      | some i =>
        match n.geph[i]? with
        | none => .error .oobRead
        | some g => gloSays n.gpsTime m.svId m.dwrd g
      | none => gloSays n.gpsTime m.svId m.dwrd { GEph.fresh with sat := m.svId }
    else if m.gnssId = 2 then galSays m.svId m.dwrd (n.gal m.svId.toNat)
    else .ok {}
  | _ => .ok {}

end Ublox.Nav
