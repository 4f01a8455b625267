import Verif.Spec.TestData
import Verif.Model.Nav
import Verif.Model.EphDbl
import Verif.Model.BitField
import Verif.Model.TimeDbl
import Verif.Model.TimeWeek

/-!
# The project's own unit tests, replayed on the model

Not a claim: this validates the model against src/test/*.cpp.  Every `EXPECT_…` of a test that compiles is evaluated by
the kernel on the model, with the test's own data.  (`Time.Now` prints the clock; the third `BitField` test names members
that do not exist and test_rtcm.cpp is empty.)
-/

namespace Ublox.Conformance

open Nav

/-- `uint32_t` words in the memory of a little-endian machine. (`Eph.ByteOrder`, test_eph.cpp:26-40.) -/
def bytesOf (ws : List Nat) : List Byte :=
  ws.flatMap fun w =>
    [BitVec.ofNat 8 w, BitVec.ofNat 8 (w / 256), BitVec.ofNat 8 (w / 65536), BitVec.ofNat 8 (w / 16777216)]

example : bytesOf [0x01234567] = [0x67, 0x45, 0x23, 0x01] := by decide +kernel

/-! ## test_bit_tools.cpp -/

/-- test_bit_tools.cpp:14-39. -/
def d8 : List Byte := [0x12, 0x34, 0x56, 0x78, 0x9A, 0xBC, 0xCD, 0xEF]
/-- test_bit_tools.cpp:46-70. -/
def d7 : List Byte := [0x12, 0x34, 0x56, 0x78, 0x9A, 0xBC, 0xEF]
/-- test_bit_tools.cpp:7, 126-148. -/
def d13 : List Byte := [0x12, 0x34, 0x45, 0x56, 0x67, 0x78, 0x89, 0x9A, 0xAB, 0xBC, 0xCD, 0xDE, 0xEF]
/-- test_bit_tools.cpp:152-155. -/
def real : List Byte := [0x8b, 0x0, 0x38, 0xc1, 0x2b, 0xaf, 0x0, 0xb7, 0x60, 0x1c, 0x5e, 0x8f, 0xff, 0xca, 0x26,
  0xac, 0x32, 0x32, 0x2a, 0x9f, 0xc5, 0xd3, 0x7a, 0x1, 0xff, 0xa7, 0x4c, 0x4e, 0xfb, 0x68]
/-- The result assigned to a `uint16_t`. -/
def u16 (r : M Nat) : M Nat := r.map (· % 65536)
/-- `*(reinterpret_cast<uint32_t *>(buf))` on a little-endian machine. -/
def le32 (r : M (List Byte)) : M Nat :=
  r.map fun b => ((b.take 4).reverse.foldl (fun a x => a * 256 + x.toNat) 0)
/-- `uint8_t buf[8]; memset(buf, 0, 8)`. -/
def zero8 : List Byte := List.replicate 8 0

-- GetBits: Aligned, HalfAlignedEnd, HalfAlignedStart, HalfAlignedBoth, MisAlignedEnd
example : u16 (getBit 16 d13 0) = .ok 0x1234 ∧ u16 (getBit 12 d8 0) = .ok 0x123 ∧ u16 (getBit 12 d8 4) = .ok 0x234 ∧
    u16 (getBit 16 d8 4) = .ok 0x2345 ∧ u16 (getBit 13 d8 24) = .ok 0x0F13 := by decide +kernel
-- GetBits: MisAlignedStart, MisAlignedEndLong, MisAlignedStartEnd
example : u16 (getBit 17 d7 39) = .ok 0xBCEF ∧ u16 (getBit 17 d7 32) = .ok 0x3579 ∧
    u16 (getBit 17 d7 29) = .ok 0x26AF := by decide +kernel
-- SetBits: Aligned, HalfAlignedStart, HalfAlignedEnd, HalfAlignedBoth, UnalignedBoth
example : le32 (setBit 16 zero8 0 0xF125) = .ok 0x25F1 ∧ le32 (setBit 16 zero8 4 0xF125) = .ok 0x50120F ∧
    le32 (setBit 20 zero8 0 0xF125B7) = .ok 0x705b12 ∧ le32 (setBit 32 zero8 4 0xF125B7CE) = .ok 0x7c5b120f ∧
    le32 (setBit 32 zero8 3 0xF125B7CE) = .ok 0xf9b6241e := by decide +kernel
-- GetBitsSigned: Aligned, HalfAlignedStart, HalfAlignedEnd, MisalignedBoth, RealData
example : getBitS 16 d13 48 = .ok (-30310) ∧ getBitS 20 d13 44 = .ok (-489062) ∧ getBitS 20 d13 48 = .ok (-484950) ∧
    getBitS 31 d13 41 = .ok (-125199701) ∧ getBitS 32 real 160 = .ok (-975996415) := by decide +kernel

/-! ## test_bitfield.cpp -/

/-- `buf[0] = 0x01234567; buf[1] = 0x8ABCDEF0`, in memory. test_bitfield.cpp:40-41. -/
def bf : List Byte := bytesOf [0x01234567, 0x8ABCDEF0]

-- CheckAlignedData
example : bfRead .keep 0 8 bf = .ok 0x67 ∧ bfRead .keep 8 16 bf = .ok 0x2345 ∧ bfRead .keep 32 16 bf = .ok 0xDEF0 ∧
    bfRead .keep 48 16 (bf ++ [0]) = .ok 0x8ABC := by decide +kernel
-- CheckUnAlignedData
example : bfRead .keep 0 5 bf = .ok 0x7 ∧ bfRead .keep 1 7 bf = .ok (0x67 >>> 1) ∧
    bfRead .keep 33 6 bf = .ok ((0xF0 >>> 1) &&& 0b111111) ∧ bfRead .keep 61 3 (bf ++ [0]) = .ok (0x8A >>> 5) ∧
    bfRead .keep 4 15 bf = .ok ((0x01234567 >>> 4) &&& 0x7FFF) ∧
    bfRead .keep 41 13 bf = .ok ((0x8ABCDEF0 >>> 9) &&& 0x1FFF) := by decide +kernel
-- `aligned4` and `offset3`: the expected value comes out, but the test itself reads one byte past its union.
example : bfRead .keep 48 16 bf = .error .oobRead ∧ bfRead .keep 61 3 bf = .error .oobRead := by decide +kernel


/-! ## test_time.cpp -/

open UTCTime Dbl64

/-- The double literal `n / d`, rounded by the compiler. -/
def lit (n d : Nat) : ℚ := rne (n / d)
/-- `uint64_t(x * 1e9)`. -/
def e9 (n d : Nat) : Int := trunc (rne (lit n d * 1000000000))
/-- The start times of the tests. test_time.cpp:68, 79. -/
def t0 : UTCTime := ofInts 1564005746 1234
def tHalf : UTCTime := ofInts 1564005746 (e9 5 10)
def dt : UTCTime := ofInts 3 (e9 6 10)

-- CompareSec, CompareNsec, Equal
example : let t1 := ofInts 1564005746 0; let t2 := ofInts 1564005748 0
    t2.gt t1 = true ∧ t1.lt t2 = true ∧ t2.lt t1 = false ∧ t1.gt t2 = false ∧ t2.eq t1 = false ∧ t1.eq t2 = false := by
  decide +kernel
example : let t1 := ofInts 1564005746 1234; let t2 := ofInts 1564005746 1235
    t2.gt t1 = true ∧ t1.lt t2 = true ∧ t2.lt t1 = false ∧ t1.gt t2 = false ∧ t2.eq t1 = false ∧ t1.eq t2 = false := by
  decide +kernel
example : let t1 := ofInts 1564005746 1234; let t2 := ofInts 1564005746 1234
    t2.gt t1 = false ∧ t1.lt t2 = false ∧ t2.lt t1 = false ∧ t1.gt t2 = false ∧ t2.eq t1 = true ∧ t1.eq t2 = true := by
  decide +kernel
-- Plus, PlusWrap, Minus, MinusWrap (the assigning forms are the same functions)
example : t0.plusDbl (lit 1 10) = .ok ⟨1564005746, 100001234⟩ := by decide +kernel
example : tHalf.plusDbl (lit 36 10) = .ok ⟨1564005750, e9 1 10⟩ := by decide +kernel
example : tHalf.minusDbl (lit 1 10) = .ok ⟨1564005746, e9 4 10⟩ := by decide +kernel
example : tHalf.minusDbl (lit 36 10) = .ok ⟨1564005742, e9 9 10⟩ := by decide +kernel
-- AddWrap, SubtractWrap
example : tHalf.add dt = ⟨1564005750, e9 1 10⟩ ∧ tHalf.sub dt = ⟨1564005742, e9 9 10⟩ := by decide +kernel
-- getGPSWeek
example : ((ofInts 1563667200 0).plusDbl 18).bind gpsWeekInt = .ok 2063 ∧
    ((ofInts 1563667200 0).plusDbl 17).bind gpsWeekInt = .ok 2062 := by decide +kernel
-- getGlonassWeek, getGlonassDayOfWeek
example : ((ofInts 1564012800 0).subInt 10800).glonassWeekInt = .ok 2586 ∧
    ((ofInts 1563667200 0).subInt 10800).glonassDayInt = .ok 3 := by decide +kernel
-- GPSvsUTC
example : fromGPS 2063 0 = (ofInts 1563667200 0).plusDbl 18 ∧
    ((ofInts 1563667200 0).plusDbl 18).bind gpsWeekInt = .ok 2063 ∧
    fromGPS 2063 ((SEC_IN_WEEK - 1) * 1000) = (ofInts 1564271999 0).plusDbl 18 := by decide +kernel
-- GlonassvsUTC
example : fromGlonass 2586 0 = .ok ((ofInts 1564012800 0).subInt 10800) ∧
    fromGlonass 2585 ((SEC_IN_WEEK - 1) * 1000) = .ok ((ofInts 1564012799 0).subInt 10800) ∧
    ((ofInts 1564012799 0).subInt 10800).glonassWeekInt = .ok 2585 := by decide +kernel
-- GlonassFromTOD
example : fromGlonassTimeOfDay (ofInts 1563885000 0) ((15 * 3600 + 1800) * 1000) = .ok (ofInts 1563885000 0) ∧
    fromGlonassTimeOfDay (((ofInts 1564012800 0).subInt 10800).subInt 10) (24 * 3600 * 1000)
      = .ok ((ofInts 1564012800 0).subInt 10800) ∧
    fromGlonassTimeOfDay ((ofInts 1564012799 0).subInt 10800) ((24 * 3600 - 1) * 1000)
      = .ok ((ofInts 1564012799 0).subInt 10800) := by decide +kernel

/-! ## test_eph.cpp -/

/-- `EXPECT_NEAR(d, v, tol)` on the double the program computes. -/
def near (d : Dbl) (v tol : ℚ) : Bool := match d.ieee with | some x => decide (|x - v| ≤ tol) | none => false

/-- The reports of the six calls of `decodeGPS`, with `eph.sat = 21`. test_eph.cpp:99-104. -/
def gpsTest (junk : List Byte) : M (List Eph) := do
  let (_, _, rs) ← gpsWords.foldlM (init := ({ Eph.fresh with sat := 21 }, UTCTime.zero, ([] : List Eph)))
    fun (e, t, rs) ws => do
      let o ← decodeGPS junk t (bytesOf ws) e
      return (o.eph, o.gpsTime, rs ++ o.reports)
  return rs

/-- The expectations of the callback. test_eph.cpp:58-96.  (`sqrta` is compared with a square root: here the square of
the two bounds is compared.) -/
def gpsExpect (e : Eph) : Bool :=
  let u : ℚ := 1 / 1000000
  let n (d : Dbl) (micro : Int) : Bool := near d (micro / 1000000) u
  e.sat == 21 && e.gnssID == 0 && e.iode == 78 && e.iodc == 78 && e.ura == 0 && e.health == 0 && e.week == 2062 &&
  e.codeOnL2 == 1 && e.alert == 0 && e.toe == ⟨1563660018, 0⟩ && e.toc == ⟨1563660018, 0⟩ &&
  (match e.sqrta.ieee with
    | some x => decide ((x - u) ^ 2 ≤ 26560606593836 / 1000000 ∧ 26560606593836 / 1000000 ≤ (x + u) ^ 2)
    | none => false) &&
  n e.ecc 24511 && n e.i0 949169 && n e.omega0 2358914 && n e.w (-1427803) && n e.m0 2311086 && n e.deltaN 0 &&
  n e.omegadot 0 && n e.idot 0 && n e.crc 340968750 && n e.crs (-21468750) && n e.cuc (-1) && n e.cus 2 &&
  n e.cic 0 && n e.cis 0 && e.toes == 597600 && e.fit == 4 && n e.af0 (-151) && n e.af1 0 && n e.af2 0 &&
  n e.tgd0 0 && n e.tgd1 0 && n e.tgd2 0 && n e.tgd3 0

-- ParseGPS: `finished` becomes true (once), and every expectation holds
example : ((gpsTest (List.replicate 30 0xEE)).map fun rs => (rs.length, rs.all gpsExpect)) = .ok (1, true) := by
  decide +kernel

/-- The reports of the 61 calls of `decodeGlonass` on the rows cast to `RXM_SFRBX_t`. test_eph.cpp:230-235. -/
def gloReports (md : Mode) : M (List GEph) := do
  let (_, rs) ← (List.range 61).foldlM (init := (GEph.fresh, ([] : List GEph)))
    fun (g, rs) i => do
      let p := bytesOf ((gloWords.drop i).take 2).flatten
      let o ← decodeGlonass md (← ofDbl 1563660018) (p[0]?.getD 0) (p[1]?.getD 0) (p[3]?.getD 0) (p.drop 8) g
      return (o.geph, rs ++ o.reports)
  return rs

/-- The expectations of the callback. test_eph.cpp:203-227. -/
def gloExpect (g : GEph) : Bool :=
  g.sat == 4 && g.gnssID == 6 && g.iode == 95 && g.frq == 6 && g.svh == 0 && g.sva == 3 && g.age == 0 &&
  g.toe == ⟨1563655500, 0⟩ && g.tof == ⟨1563655950, 0⟩ &&
  near g.pos0 5616046.875 (1 / 10 ^ 3) && near g.pos1 (-21385926.26953125) (1 / 10 ^ 8) &&
  near g.pos2 12753206.54296875 (1 / 10 ^ 8) && near g.vel0 (-97.52464294433594) (1 / 10 ^ 14) &&
  near g.vel1 1744.4267272949219 (1 / 10 ^ 13) && near g.vel2 2971.3258743286133 (1 / 10 ^ 13) &&
  near g.acc0 (-9.313225746154785e-07) (1 / 10 ^ 21) && near g.acc1 (-3.725290298461914e-06) (1 / 10 ^ 20) &&
  near g.acc2 0 (1 / 10 ^ 25) && near g.taun (-0.000314553268254) (1 / 10 ^ 15) &&
  near g.gamn 9.09494701773e-13 (1 / 10 ^ 25) && near g.dtaun (-2.79396772385e-09) (1 / 10 ^ 20)

-- ParseGLONASS
example : ((gloReports .lenient).map fun rs => (rs.length, rs.all gloExpect)) = .ok (1, true) := by
  decide +kernel

/-- The record after the 23 calls of `decodeGalileo`, with `eph.sat = 19`. test_eph.cpp:268-275. -/
def galTest (md : Mode) : M Eph := do
  let (e, _) ← galWords.foldlM (init := ({ Eph.fresh with sat := 19, gnssID := 2 }, List.replicate 128 (0 : Byte)))
    fun (e, row) ws => do
      let o ← decodeGalileo md (bytesOf ws) row e
      return (o.eph, o.row)
  return e

/-- The expectations after the loop. test_eph.cpp:277-320.  (`anti_spoof` and `age_of_data_offset` are never assigned and
not in the model.)  Eleven of the test's literals are printed with six digits but compared with a tolerance below that
rounding, so that no transmitted integer satisfies them (`no_tgd` below); for these the tolerance is half a unit of the
last printed digit. -/
def galExpect (e : Eph) : Bool :=
  e.gnssID == 2 && e.sat == 19 && e.toe == ⟨1573014018, 0⟩ && e.toc == ⟨1573014018, 0⟩ && e.iodc == 74 && e.iode == 74 &&
  e.week == 2078 && e.toes == 274800 && e.tocs == 0 && e.health == 0 && e.alert == 0 && e.codeOnL2 == 0 && e.ura == 0 &&
  e.l2p == 0 && e.fit == 0 &&
  near e.tgd0 (-5.82077e-09) (5 / 10 ^ 15) && near e.tgd1 (-6.0536e-09) (5 / 10 ^ 15) && near e.tgd2 0 (1 / 10 ^ 15) &&
  near e.tgd3 0 (1 / 10 ^ 15) && near e.af2 0 (1 / 10 ^ 9) && near e.af1 1.98952e-13 (1 / 10 ^ 17) &&
  near e.af0 (-3.04537e-06) (5 / 10 ^ 12) && near e.m0 0.858087 (1 / 10 ^ 6) && near e.deltaN 2.98155e-09 (5 / 10 ^ 15) &&
  near e.ecc 7.9249e-05 (1 / 10 ^ 9) && near e.sqrta 5440.62 (1 / 10 ^ 2) && near e.omega0 2.20037 (1 / 10 ^ 5) &&
  near e.i0 0.958879 (1 / 10 ^ 6) && near e.w 1.93694 (5 / 10 ^ 6) && near e.omegadot (-5.46416e-09) (5 / 10 ^ 15) &&
  near e.idot 9.10752e-11 (5 / 10 ^ 17) && near e.cuc (-2.12155e-06) (5 / 10 ^ 12) &&
  near e.cus 1.21035e-05 (5 / 10 ^ 11) && near e.crc 78 (1 / 10 ^ 4) && near e.crs (-46.9062) (1 / 10 ^ 4) &&
  near e.cic 1.49012e-08 (5 / 10 ^ 14) && near e.cis 5.02914e-08 (5 / 10 ^ 14)

-- Galileo
example : ((galTest .lenient).map galExpect) = .ok true := by decide +kernel

/-- `EXPECT_NEAR(eph.tgd[0], -5.82077e-09, 1e-15)` fails whatever integer the satellite transmits, `tgd` being that integer
times 2^-32.  (The test's defect, not the decoder's.) test_eph.cpp:299. -/
theorem no_tgd (n : Int) : ¬ |(n : ℚ) / 2 ^ 32 - (-5.82077e-09)| ≤ 1 / 10 ^ 15 := by
  intro h
  rw [abs_le] at h
  obtain ⟨h1, h2⟩ := h
  have a : (-26 : ℚ) < n := by
    norm_num at h1 h2 ⊢
    linarith
  have b : (n : ℚ) < -25 := by
    norm_num at h1 h2 ⊢
    linarith
  have a' : (-26 : Int) < n := by exact_mod_cast a
  have b' : n < (-25 : Int) := by exact_mod_cast b
  omega

end Ublox.Conformance
