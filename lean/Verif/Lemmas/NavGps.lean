import Verif.Lemmas.Base
import Verif.Lemmas.Bits
import Verif.Props.Bits
import Verif.Props.Time
import Verif.Spec.NavGps

/-! Helper lemmas: GPS subframe decoding equals the IS-GPS-200 reading. -/

namespace Ublox.Nav

theorem word_ok {d : List Byte} {i : Nat} (hd : d.length = 40) (hi : i < 10) :
    ∃ x, word d i = .ok x ∧
      ∀ k, k < 32 → x.testBit k = (d.getD (4 * i + k / 8) 0).getLsbD (k % 8) := by
  simp only [word, rd_ok (show 4 * i < d.length by omega), rd_ok (show 4 * i + 1 < d.length by omega),
    rd_ok (show 4 * i + 2 < d.length by omega), rd_ok (show 4 * i + 3 < d.length by omega), ok_bind]
  refine ⟨_, rfl, ?_⟩
  intro k hk
  generalize h0 : d[4 * i] = b0
  generalize h1 : d[4 * i + 1] = b1
  generalize h2 : d[4 * i + 2] = b2
  generalize h3 : d[4 * i + 3] = b3
  have e : b0.toNat + b1.toNat * 2 ^ 8 + b2.toNat * 2 ^ 16 + b3.toNat * 2 ^ 24 =
      2 ^ 8 * (2 ^ 8 * (2 ^ 8 * b3.toNat + b2.toNat) + b1.toNat) + b0.toNat := by omega
  have c0 := b0.isLt
  have c1 := b1.isLt
  have c2 := b2.isLt
  have g : ∀ j (hj : j < d.length), d.getD j 0 = d[j] := fun j hj => by
    simp [List.getD, List.getElem?_eq_getElem hj]
  rw [e, Nat.testBit_two_pow_mul_add _ c0, Nat.testBit_two_pow_mul_add _ c1, Nat.testBit_two_pow_mul_add _ c2]
  split
  · rw [show k / 8 = 0 by omega, show k % 8 = k by omega, g _ (by omega)]
    simp only [Nat.add_zero, h0, BitVec.getLsbD]
  · split
    · rw [show k / 8 = 1 by omega, show k % 8 = k - 8 by omega, g _ (by omega)]
      simp only [h1, BitVec.getLsbD]
    · split
      · rw [show k / 8 = 2 by omega, show k % 8 = k - 8 - 8 by omega, g _ (by omega)]
        simp only [h2, BitVec.getLsbD]
      · rw [show k / 8 = 3 by omega, show k % 8 = k - 8 - 8 - 8 by omega, g _ (by omega)]
        simp only [h3, BitVec.getLsbD]

/-- Bit `i` (0..239) of the parity-free subframe. -/
def sfBit (d : List Byte) (i : Nat) : Bool := gpsBit d (i / 24 + 1) (i % 24 + 1)

theorem strip_ok {d : List Byte} (hd : d.length = 40) (n : Nat) : ∀ (i : Nat) (sf : List Byte), i + n = 10 →
    sf.length = 30 → (∀ j, j < 24 * i → bitAt sf j = sfBit d j) →
    ∃ sf', strip d n i sf = .ok sf' ∧ sf'.length = 30 ∧ ∀ j, j < 240 → bitAt sf' j = sfBit d j := by
  induction n with
  | zero =>
    intro i sf hi hl hb
    exact ⟨sf, rfl, hl, fun j hj => hb j (by omega)⟩
  | succ n ih =>
    intro i sf hi hl hb
    obtain ⟨x, hx, hxb⟩ := word_ok (i := i) hd (by omega)
    obtain ⟨sf1, h1, hl1, hb1⟩ := setBit_ok (len := 24) (buf := sf) (pos := i * 24) (data := x >>> 6)
      (by omega) (by omega) (by omega)
    obtain ⟨sf', h2, hl2, hb2⟩ := ih (i + 1) sf1 (by omega) (by omega) (by
      intro j hj
      rw [hb1]
      split
      · rw [Nat.testBit_shiftRight, hxb _ (by omega)]
        unfold sfBit gpsBit
        rw [show j / 24 + 1 - 1 = i by omega, show 6 + (i * 24 + 24 - 1 - j) = 30 - (j % 24 + 1) by omega]
      · exact hb j (by omega))
    exact ⟨sf', by simp only [strip, hx, h1, ok_bind, h2], hl2, hb2⟩

theorem strip_full {d junk : List Byte} (hd : d.length = 40) (hj : junk.length = 30) :
    ∃ sf, strip d 10 0 junk = .ok sf ∧ sf.length = 30 ∧ ∀ j, j < 240 → bitAt sf j = sfBit d j :=
  strip_ok hd 10 0 junk (by omega) hj (by intro j hj; omega)

/-- A subframe buffer holding the data bits of `d`. -/
def Holds (sf d : List Byte) : Prop := sf.length = 30 ∧ ∀ j, j < 240 → bitAt sf j = sfBit d j

theorem Holds.u {sf d : List Byte} (h : Holds sf d) (w b n : Nat) (hw : 1 ≤ w) (hw' : w ≤ 10) (hb : 1 ≤ b)
    (hn : b + n ≤ 25) : fieldVal sf (24 * (w - 1) + (b - 1)) n = gpsU d w b n := by
  unfold fieldVal gpsU
  apply bitsVal_congr
  intro k hk
  rw [h.2 _ (by omega)]
  unfold sfBit
  rw [show (24 * (w - 1) + (b - 1) + k) / 24 + 1 = w by omega, show (24 * (w - 1) + (b - 1) + k) % 24 + 1 = b + k by omega]

theorem Holds.getU {sf d : List Byte} (h : Holds sf d) (n p w b : Nat)
    (hp : p = 24 * (w - 1) + (b - 1) := by decide) (hw : 1 ≤ w := by decide) (hw' : w ≤ 10 := by decide)
    (hb : 1 ≤ b := by decide) (hn : b + n ≤ 25 := by decide) (h1 : 1 ≤ n := by decide) :
    getBit n sf p = .ok (gpsU d w b n) := by
  rw [getBit_ok h1 (by omega) (by rw [h.1]; omega), ← h.u w b n hw hw' hb hn, hp, fieldVal]

theorem Holds.getS {sf d : List Byte} (h : Holds sf d) (n p w b : Nat)
    (hp : p = 24 * (w - 1) + (b - 1) := by decide) (hw : 1 ≤ w := by decide) (hw' : w ≤ 10 := by decide)
    (hb : 1 ≤ b := by decide) (hn : b + n ≤ 25 := by decide) (h1 : 1 ≤ n := by decide) :
    getBitS n sf p = .ok (gpsS d w b n) := by
  rw [c36_getBitS n p sf h1 (by omega) (by unfold FieldIn; rw [h.1]; omega), hp, h.u w b n hw hw' hb hn, gpsS]

theorem Holds.u32 {sf d : List Byte} (h : Holds sf d) (w : Nat) (hw : 1 ≤ w) (hw' : w ≤ 9) :
    fieldVal sf (24 * (w - 1) + 16) 32 = gpsU32 d w := by
  unfold gpsU32
  rw [← h.u w 17 8 hw (by omega) (by omega) (by omega), ← h.u (w + 1) 1 24 (by omega) (by omega) (by omega) (by omega)]
  unfold fieldVal
  rw [show (32 : Nat) = 8 + 24 from rfl, bitsVal_add]
  congr 2; omega

theorem Holds.getU32 {sf d : List Byte} (h : Holds sf d) (p w : Nat)
    (hp : p = 24 * (w - 1) + 16 := by decide) (hw : 1 ≤ w := by decide) (hw' : w ≤ 9 := by decide) :
    getBit 32 sf p = .ok (gpsU32 d w) := by
  rw [getBit_ok (by omega) (by omega) (by rw [h.1]; omega), ← h.u32 w hw hw', hp, fieldVal]

theorem Holds.getS32 {sf d : List Byte} (h : Holds sf d) (p w : Nat)
    (hp : p = 24 * (w - 1) + 16 := by decide) (hw : 1 ≤ w := by decide) (hw' : w ≤ 9 := by decide) :
    getBitS 32 sf p = .ok (gpsS32 d w) := by
  rw [c36_getBitS 32 p sf (by omega) (by omega) (by unfold FieldIn; rw [h.1]; omega), hp, h.u32 w hw hw', gpsS32]

/-- The entry after subframe 1. -/
def upd1 (d : List Byte) (e : Eph) : Eph :=
  { e with
    codeOnL2 := gpsU d 3 11 2
    ura := gpsU d 3 13 4
    health := gpsU d 3 17 6
    l2p := gpsU d 4 1 1
    iode := gpsU d 8 1 8
    tocs := gpsU d 8 9 16 * 16
    af2 := ⟨gpsS d 9 1 8, [.p2 55]⟩
    af1 := ⟨gpsS d 9 9 16, [.p2 43]⟩
    af0 := ⟨gpsS d 10 1 22, [.p2 31]⟩
    alert := 0
    tgd0 := if gpsS d 7 17 8 = -128 then .zero else ⟨gpsS d 7 17 8, [.p2 31]⟩
    tgd1 := .zero
    tgd2 := .zero
    tgd3 := .zero
    iodc := gpsU d 3 23 2 * 256 + gpsU d 8 1 8
    week := gpsU d 3 1 10 + 2048
    iode1 := gpsU d 8 1 8
    got1 := true }

/-- The entry after subframe 2. -/
def upd2 (d : List Byte) (e : Eph) : Eph :=
  { e with
    iode := gpsU d 3 1 8
    crs := ⟨gpsS d 3 9 16, [.p2 5]⟩
    deltaN := ⟨gpsS d 4 1 16, [.p2 43, .pi]⟩
    m0 := ⟨gpsS32 d 4, [.p2 31, .pi]⟩
    cuc := ⟨gpsS d 6 1 16, [.p2 29]⟩
    ecc := ⟨gpsU32 d 6, [.p2 33]⟩
    cus := ⟨gpsS d 8 1 16, [.p2 29]⟩
    sqrta := ⟨gpsU32 d 8, [.p2 19]⟩
    toes := gpsU d 10 1 16 * 16
    fit := if gpsU d 10 17 1 ≠ 0 then 0 else 4
    iode2 := gpsU d 3 1 8
    got2 := true }

/-- The entry after subframe 3. -/
def upd3 (d : List Byte) (e : Eph) : Eph :=
  { e with
    cic := ⟨gpsS d 3 1 16, [.p2 29]⟩
    omega0 := ⟨gpsS32 d 3, [.p2 31, .pi]⟩
    cis := ⟨gpsS d 5 1 16, [.p2 29]⟩
    i0 := ⟨gpsS32 d 5, [.p2 31, .pi]⟩
    crc := ⟨gpsS d 7 1 16, [.p2 5]⟩
    w := ⟨gpsS32 d 7, [.p2 31, .pi]⟩
    omegadot := ⟨gpsS d 9 1 24, [.p2 43, .pi]⟩
    idot := ⟨gpsS d 10 9 14, [.p2 43, .pi]⟩
    iode3 := e.iode
    got3 := true }

theorem sub1_ok {sf d : List Byte} (h : Holds sf d) (e : Eph) : sub1 sf e = .ok (upd1 d e) := by
  simp only [sub1, h.getU 10 48 3 1, h.getU 2 58 3 11, h.getU 4 60 3 13, h.getU 6 64 3 17, h.getU 2 70 3 23, h.getU 1 72 4 1, h.getS 8 160 7 17,
    h.getU 8 168 8 1, h.getU 16 176 8 9, h.getS 8 192 9 1, h.getS 16 200 9 9, h.getS 22 216 10 1, ok_bind, upd1]

theorem sub2_ok {sf d : List Byte} (h : Holds sf d) (e : Eph) : sub2 sf e = .ok (upd2 d e) := by
  simp only [sub2, h.getU 8 48 3 1, h.getS 16 56 3 9, h.getS 16 72 4 1, h.getS32 88 4, h.getS 16 120 6 1, h.getU32 136 6, h.getS 16 168 8 1,
    h.getU32 184 8, h.getU 16 216 10 1, h.getU 1 232 10 17, ok_bind, upd2]

theorem sub3_ok {sf d : List Byte} (h : Holds sf d) (e : Eph) : sub3 sf e = .ok (upd3 d e) := by
  simp only [sub3, h.getS 16 48 3 1, h.getS32 64 3, h.getS 16 96 5 1, h.getS32 112 5, h.getS 16 144 7 1, h.getS32 160 7, h.getS 24 192 9 1,
    h.getU 8 216 10 1, h.getS 14 224 10 9, ok_bind, upd3]

theorem id_ok {sf d : List Byte} (h : Holds sf d) :
    ∃ b, rd sf 5 = .ok b ∧ (b.toNat >>> 2) &&& 7 = gpsId d := by
  have hl : 5 < sf.length := by rw [h.1]; omega
  refine ⟨sf[5], rd_ok hl, ?_⟩
  have e1 := h.u 2 20 3 (by omega) (by omega) (by omega) (by omega)
  rw [gpsId, ← e1]
  apply Eq.symm
  apply bitsVal_eq_of_testBit
  · exact Nat.lt_of_le_of_lt Nat.and_le_right (by decide)
  · intro k hk
    rw [bitAt_lt (by omega), Nat.testBit_and, Nat.testBit_shiftRight]
    have : k = 0 ∨ k = 1 ∨ k = 2 := by omega
    rcases this with rfl | rfl | rfl <;> simp [BitVec.getLsbD, show Nat.testBit 7 2 = true from by decide, show Nat.testBit 7 1 = true from by decide]

/-- `decodeGPS` in terms of what the subframe says. -/
def gpsStep (t : UTCTime) (d : List Byte) (e0 : Eph) : M GpsOut :=
  let e := { e0 with gnssID := 0 }
  if gpsId d = 1 then gpsFinish t (upd1 d e)
  else if gpsId d = 2 then gpsFinish t (upd2 d e)
  else if gpsId d = 3 then gpsFinish t (upd3 d e)
  else .ok ⟨e, t, [], gpsId d < 1 || 5 < gpsId d⟩

theorem decodeGPS_eq {d junk : List Byte} (hd : d.length = 40) (hj : junk.length = 30) (t : UTCTime) (e : Eph) :
    decodeGPS junk t d e = gpsStep t d e := by
  obtain ⟨sf, h1, h2, h3⟩ := strip_full hd hj
  have H : Holds sf d := ⟨h2, h3⟩
  obtain ⟨b, hb, hid⟩ := id_ok H
  simp only [decodeGPS, h1, hb, ok_bind, hid, gpsStep]
  by_cases c1 : gpsId d = 1
  · simp [c1, sub1_ok H]
  by_cases c2 : gpsId d = 2
  · simp [c2, sub2_ok H]
  by_cases c3 : gpsId d = 3
  · simp [c3, sub3_ok H]
  simp only [c1, c2, c3, if_false]
  split
  · rename_i hc; simp only [Except.ok.injEq, GpsOut.mk.injEq, true_and]; simpa using hc
  · rename_i hc
    simp only [Except.ok.injEq, GpsOut.mk.injEq, true_and]
    simp only [not_or] at hc
    simp [hc.1, hc.2]

end Ublox.Nav
