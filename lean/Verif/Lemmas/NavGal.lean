import Verif.Lemmas.NavGlo
import Verif.Lemmas.Crc
import Verif.Spec.NavGal
import Verif.Props.Bits

/-! Helper lemmas: acceptance and storage of Galileo pages. -/

namespace Ublox.Nav

theorem galBit_raw (d : List Byte) (p : Nat) : galBit d p = rawBit d p := rfl

theorem packBits_length (f : Nat → Bool) (n : Nat) : (packBits f n).length = n := by simp [packBits]

theorem bitAt_packBits (f : Nat → Bool) (n i : Nat) (h : i < 8 * n) : bitAt (packBits f n) i = f i := by
  unfold bitAt packBits
  rw [List.getElem?_map, List.getElem?_range (by omega)]
  dsimp only [Option.map]
  rw [BitVec.getLsbD_ofNat, decide_eq_true (by omega), Bool.true_and, testBit_bitsVal]
  rw [decide_eq_true (by omega), Bool.true_and]
  congr 1; omega

theorem bitAt_drop (l : List Byte) (k i : Nat) : bitAt (l.drop k) i = bitAt l (8 * k + i) := by
  unfold bitAt
  rw [List.getElem?_drop, show (8 * k + i) / 8 = k + i / 8 by omega, show (8 * k + i) % 8 = i % 8 by omega]

theorem bitAt_take (l : List Byte) (k i : Nat) (h : i < 8 * k) : bitAt (l.take k) i = bitAt l i := by
  unfold bitAt
  rw [List.getElem?_take, if_pos (by omega)]

theorem copyBits_ok (src : List Byte) (n : Nat) : ∀ (i j : Nat) (dst : List Byte), i + n ≤ src.length →
    j + 8 * n ≤ 8 * dst.length →
    ∃ dst', copyBits src n i j dst = .ok dst' ∧ dst'.length = dst.length ∧
      ∀ p, bitAt dst' p = if j ≤ p ∧ p < j + 8 * n then bitAt src (8 * i + (p - j)) else bitAt dst p := by
  induction n with
  | zero =>
    intro i j dst _ _
    exact ⟨dst, rfl, rfl, fun p => by rw [if_neg (by omega)]⟩
  | succ n ih =>
    intro i j dst h1 h2
    obtain ⟨d1, e1, l1, b1⟩ := setBit_ok (len := 8) (buf := dst) (pos := j) (data := (src[i]'(by omega)).toNat) (by omega)
      (by omega) (by omega)
    obtain ⟨d2, e2, l2, b2⟩ := ih (i + 1) (j + 8) d1 (by omega) (by omega)
    refine ⟨d2, ?_, by omega, fun p => ?_⟩
    · unfold copyBits
      rw [rd_ok (show i < src.length by omega), ok_bind, e1, ok_bind, e2]
    · rw [b2, b1]
      by_cases c1 : j + 8 ≤ p ∧ p < j + 8 + 8 * n
      · rw [if_pos c1, if_pos (by omega)]; congr 1; omega
      · rw [if_neg c1]
        by_cases c2 : j ≤ p ∧ p < j + 8
        · rw [if_pos c2, if_pos (by omega), bitAt_lt (by omega)]
          have q1 : (8 * i + (p - j)) / 8 = i := by omega
          have q2 : 7 - (8 * i + (p - j)) % 8 = j + 8 - 1 - p := by omega
          simp only [q1, q2, BitVec.getLsbD]
        · rw [if_neg c2, if_neg (by omega)]

theorem storeBytes_ok (src : List Byte) (n : Nat) : ∀ (j k : Nat) (row : List Byte), j + 8 * n ≤ 8 * src.length →
    k + n ≤ row.length →
    ∃ row', storeBytes src n j k row = .ok row' ∧ row'.length = row.length ∧
      ∀ p, bitAt row' p = if 8 * k ≤ p ∧ p < 8 * (k + n) then bitAt src (j + (p - 8 * k)) else bitAt row p := by
  induction n with
  | zero =>
    intro j k row _ _
    exact ⟨row, rfl, rfl, fun p => by rw [if_neg (by omega)]⟩
  | succ n ih =>
    intro j k row h1 h2
    obtain ⟨r2, e2, l2, b2⟩ := ih (j + 8) (k + 1) (row.set k (BitVec.ofNat 8 (fieldVal src j 8))) (by omega)
      (by rw [List.length_set]; omega)
    rw [List.length_set] at l2
    refine ⟨r2, ?_, l2, fun p => ?_⟩
    · unfold storeBytes
      rw [getBit_ok (by omega) (by omega) (by omega), ok_bind, wr_ok (by omega), ok_bind, e2]
    · rw [b2, bitAt_set _ (by omega)]
      by_cases c1 : 8 * (k + 1) ≤ p ∧ p < 8 * (k + 1 + n)
      · rw [if_pos c1, if_pos (by omega)]; congr 1; omega
      · rw [if_neg c1]
        by_cases c2 : p / 8 = k
        · rw [if_pos c2, if_pos (by omega), BitVec.getLsbD_ofNat, decide_eq_true (by omega), Bool.true_and]
          unfold fieldVal
          rw [testBit_bitsVal, decide_eq_true (by omega), Bool.true_and]
          congr 1; omega
        · rw [if_neg c2, if_neg (by omega)]

theorem beNat_drop (l : List Byte) (k : Nat) : beNat (l.drop k) = fieldVal l (8 * k) (8 * (l.length - k)) := by
  unfold beNat fieldVal
  rw [List.length_drop]
  apply bitsVal_congr
  intro i _
  rw [bitAt_drop, Nat.zero_add]

/-- The CRC test of the decoder. -/
theorem crc_test {d c2 : List Byte} (hl : c2.length = 26)
    (hb : ∀ p, p < 200 → bitAt c2 p = bitAt (galFrame d) p) :
    ∃ c, crc24 c2 25 = .ok c ∧ (c = fieldVal (galFrame d) 200 24 ↔ CrcValid (galFrame d)) := by
  obtain ⟨c, h1, -, h3⟩ := crc24_spec c2 25 (by omega)
  have hfl : (galFrame d).length = 28 := packBits_length _ _
  have htake : c2.take 25 = (galFrame d).take 25 := by
    apply ext_bitAt
    · simp [hl, hfl]
    · intro i hi
      rw [List.length_take] at hi
      rw [bitAt_take _ _ _ (by omega), bitAt_take _ _ _ (by omega), hb i (by omega)]
  rw [htake] at h3
  have hdrop : beNat ((galFrame d).drop 25) = fieldVal (galFrame d) 200 24 := by
    rw [beNat_drop, hfl]
  refine ⟨c, h1, ?_, ?_⟩
  · intro h
    generalize hg : (galFrame d).drop 25 = tl at hdrop
    have htl : tl.length = 3 := by rw [← hg, List.length_drop, hfl]
    match tl, htl with
    | [c0, c1, c2'], _ =>
      refine ⟨(galFrame d).take 25, c0, c1, c2', ?_, ?_⟩
      · rw [← hg, List.take_append_drop]
      · unfold IsCrc24Q
        rw [hdrop, ← h]; exact h3
  · rintro ⟨msg, c0, c1, c2', h4, h5⟩
    have hm : msg.length = 25 := by
      have := congrArg List.length h4
      rw [hfl] at this; simp at this; omega
    have t1 : (galFrame d).take 25 = msg := by rw [h4, ← hm]; simp
    have t2 : (galFrame d).drop 25 = [c0, c1, c2'] := by rw [h4, ← hm]; simp
    rw [t1] at h3
    rw [t2] at hdrop
    rw [← hdrop]
    exact isCrc24Q_unique h3 h5

end Ublox.Nav
