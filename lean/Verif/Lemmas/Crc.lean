import Mathlib.Tactic.Ring
import Mathlib.Tactic.NormNum
import Mathlib.Tactic.LinearCombination
import Mathlib.Tactic.ComputeDegree
import Mathlib.Algebra.Polynomial.Degree.Lemmas
import Mathlib.Algebra.CharP.Two
import Verif.Model.Crc
import Verif.Spec.Crc
import Verif.Lemmas.Bits

/-! Helper lemmas: the table-driven CRC against polynomial division. -/

namespace Ublox
open Polynomial

theorem toPoly_zero : toPoly 0 = 0 := by rw [toPoly]; simp

theorem toPoly_rec (n : Nat) : toPoly n = toPoly (n / 2) * X + C ((n % 2 : Nat) : ZMod 2) := by
  by_cases h : n = 0
  · subst h; simp [toPoly_zero]
  · rw [toPoly, if_neg h]

theorem toPoly_bit (n : Nat) (b : Bool) :
    toPoly (2 * n + b.toNat) = toPoly n * X + C ((b.toNat : Nat) : ZMod 2) := by
  have hb : b.toNat < 2 := Bool.toNat_lt b
  rw [toPoly_rec]
  have h1 : (2 * n + b.toNat) / 2 = n := by omega
  have h2 : (2 * n + b.toNat) % 2 = b.toNat := by omega
  rw [h1, h2]

theorem coeff_toPoly (n i : Nat) : (toPoly n).coeff i = if n.testBit i then 1 else 0 := by
  induction i generalizing n with
  | zero =>
    rw [toPoly_rec]
    rcases Nat.mod_two_eq_zero_or_one n with h | h <;> simp [h, Nat.testBit_zero]
  | succ i ih =>
    rw [toPoly_rec, coeff_add, coeff_mul_X, ih, coeff_C_succ, Nat.testBit_succ]; simp

theorem toPoly_xor (a b : Nat) : toPoly (a ^^^ b) = toPoly a + toPoly b := by
  ext i
  rw [coeff_add, coeff_toPoly, coeff_toPoly, coeff_toPoly, Nat.testBit_xor]
  cases a.testBit i <;> cases b.testBit i <;> simp
  decide

theorem toPoly_shl (a k : Nat) : toPoly (a <<< k) = toPoly a * X ^ k := by
  ext i
  rw [coeff_mul_X_pow', coeff_toPoly, coeff_toPoly, Nat.testBit_shiftLeft]
  by_cases h : k ≤ i <;> simp [h]

theorem toPoly_split (a b k : Nat) (hb : b < 2 ^ k) :
    toPoly (a * 2 ^ k + b) = toPoly a * X ^ k + toPoly b := by
  rw [← toPoly_shl, ← toPoly_xor]
  congr 1
  rw [← Nat.shiftLeft_eq, Nat.shiftLeft_add_eq_or_of_lt hb]
  apply Nat.eq_of_testBit_eq
  intro i
  rw [Nat.testBit_or, Nat.testBit_xor, Nat.testBit_shiftLeft]
  by_cases h : k ≤ i
  · rw [Nat.testBit_lt_two_pow (Nat.lt_of_lt_of_le hb (Nat.pow_le_pow_right (by decide) h))]; simp
  · simp [h]

theorem toPoly_degree_lt (n k : Nat) (h : n < 2 ^ k) : (toPoly n).degree < k := by
  rw [Polynomial.degree_lt_iff_coeff_zero]
  intro m hm
  rw [coeff_toPoly, Nat.testBit_lt_two_pow (Nat.lt_of_lt_of_le h (Nat.pow_le_pow_right (by decide) hm))]
  simp

theorem toPoly_inj {a b : Nat} (h : toPoly a = toPoly b) : a = b := by
  apply Nat.eq_of_testBit_eq
  intro i
  have := congrArg (fun p => p.coeff i) h
  simp only [coeff_toPoly] at this
  cases ha : a.testBit i <;> cases hb : b.testBit i <;> simp_all

theorem toPoly_one : toPoly 1 = 1 := by
  rw [toPoly_rec]; simp [toPoly_zero]

theorem toPoly_gen : toPoly 0x1864CFB = crc24Q := by
  have : 0x1864CFB = (1 <<< 24) ^^^ (1 <<< 23) ^^^ (1 <<< 18) ^^^ (1 <<< 17) ^^^ (1 <<< 14) ^^^ (1 <<< 11) ^^^
    (1 <<< 10) ^^^ (1 <<< 7) ^^^ (1 <<< 6) ^^^ (1 <<< 5) ^^^ (1 <<< 4) ^^^ (1 <<< 3) ^^^ (1 <<< 1) ^^^ (1 <<< 0) := by
    decide
  rw [this]
  simp only [toPoly_xor, toPoly_shl, toPoly_one, one_mul, pow_one, pow_zero]
  rfl

theorem gen_natDegree : crc24Q.natDegree = 24 := by
  unfold crc24Q; compute_degree!

theorem gen_monic : crc24Q.Monic := by
  unfold crc24Q; monicity!

theorem gen_degree : crc24Q.degree = 24 := by
  rw [Polynomial.degree_eq_natDegree gen_monic.ne_zero, gen_natDegree]; rfl

/-! ### table -/

/-- multiplication by X modulo the generator, on numbers -/
def mulX (c : Nat) : Nat := if (c <<< 1).testBit 24 then (c <<< 1) ^^^ 0x1864CFB else c <<< 1

theorem mulX_poly (c : Nat) : ∃ q, toPoly (mulX c) = toPoly c * X + q * crc24Q := by
  unfold mulX
  split
  · exact ⟨1, by rw [toPoly_xor, toPoly_shl, toPoly_gen]; ring⟩
  · exact ⟨0, by rw [toPoly_shl]; ring⟩

theorem mulX_iter_poly (n c : Nat) : ∃ q, toPoly (mulX^[n] c) = toPoly c * X ^ n + q * crc24Q := by
  induction n with
  | zero => exact ⟨0, by simp⟩
  | succ n ih =>
    obtain ⟨q, hq⟩ := ih
    obtain ⟨q', hq'⟩ := mulX_poly (mulX^[n] c)
    rw [Function.iterate_succ_apply']
    exact ⟨q * X + q', by rw [hq', hq, pow_succ]; ring⟩

theorem table_eq : ∀ h, h < 256 → crcTable[h]? = some (mulX^[8] (h <<< 16)) := by
  decide +kernel

theorem table_lt : ∀ h, h < 256 → mulX^[8] (h <<< 16) < 2 ^ 24 := by
  decide +kernel

theorem table_poly (h : Nat) :
    ∃ q, toPoly (mulX^[8] (h <<< 16)) = toPoly h * X ^ 24 + q * crc24Q := by
  obtain ⟨q, hq⟩ := mulX_iter_poly 8 (h <<< 16)
  exact ⟨q, by rw [hq, toPoly_shl]; ring⟩

theorem xor_lt_256 {a b : Nat} (ha : a < 256) (hb : b < 256) : a ^^^ b < 256 :=
  Nat.xor_lt_two_pow (n := 8) ha hb

theorem crcByte_spec (c : Nat) (b : Byte) (hc : c < 2 ^ 24) :
    ∃ c', crcByte c b = .ok c' ∧ c' < 2 ^ 24 ∧
      ∃ q, toPoly c' = toPoly c * X ^ 8 + toPoly b.toNat * X ^ 24 + q * crc24Q := by
  have hhi : c >>> 16 < 256 := by
    rw [Nat.shiftRight_eq_div_pow]
    exact Nat.div_lt_of_lt_mul (by simpa using hc)
  have hidx : (c >>> 16) ^^^ b.toNat < 256 := xor_lt_256 hhi b.isLt
  have hand : (c <<< 8 % 2 ^ 32) &&& 0xFFFFFF = (c % 2 ^ 16) <<< 8 := by
    have := Nat.and_two_pow_sub_one_eq_mod (c <<< 8 % 2 ^ 32) 24
    rw [show (2 ^ 24 - 1 : Nat) = 0xFFFFFF from rfl] at this
    rw [this, Nat.shiftLeft_eq, Nat.shiftLeft_eq]
    omega
  refine ⟨((c % 2 ^ 16) <<< 8) ^^^ mulX^[8] (((c >>> 16) ^^^ b.toNat) <<< 16), ?_, ?_, ?_⟩
  · unfold crcByte
    rw [table_eq _ hidx]
    simp only [hand]
  · apply Nat.xor_lt_two_pow
    · rw [Nat.shiftLeft_eq]; omega
    · exact table_lt _ hidx
  · obtain ⟨q, hq⟩ := table_poly ((c >>> 16) ^^^ b.toNat)
    refine ⟨q, ?_⟩
    rw [toPoly_xor, hq, toPoly_shl, toPoly_xor]
    have hsplit : toPoly c = toPoly (c >>> 16) * X ^ 16 + toPoly (c % 2 ^ 16) := by
      rw [← toPoly_split _ _ _ (Nat.mod_lt _ (by decide))]
      congr 1
      rw [Nat.shiftRight_eq_div_pow]; omega
    rw [hsplit]; ring

theorem beNat_take_succ {buf : List Byte} {i : Nat} (h : i < buf.length) :
    beNat (buf.take (i + 1)) = beNat (buf.take i) * 2 ^ 8 + buf[i].toNat := by
  have hl1 : (buf.take (i + 1)).length = i + 1 := by simp; omega
  have hl0 : (buf.take i).length = i := by simp; omega
  have e : ∀ n j, j < 8 * n → n ≤ buf.length → bitAt (buf.take n) j = bitAt buf j := by
    intro n j hj hn
    unfold bitAt
    rw [List.getElem?_take_of_lt (by omega)]
  have e1 : bitsVal (bitAt (buf.take (i + 1))) 0 (8 * i) = bitsVal (bitAt (buf.take i)) 0 (8 * i) := by
    apply bitsVal_congr; intro k hk
    rw [e _ _ (by omega) (by omega), e _ _ (by omega) (by omega)]
  have e2 : bitsVal (bitAt (buf.take (i + 1))) (0 + 8 * i) 8 = bitsVal (bitAt buf) (8 * i) 8 := by
    apply bitsVal_congr; intro k hk
    rw [e _ _ (by omega) (by omega), Nat.zero_add]
  have e3 := byte_eq_bitsVal h
  unfold beNat
  unfold fieldVal at e3 ⊢
  rw [hl1, hl0, show 8 * (i + 1) = 8 * i + 8 from rfl, bitsVal_add, e1, e2, e3]

theorem crcLoop_spec (buf : List Byte) (n i crc : Nat) (hlen : i + n ≤ buf.length) (hc : crc < 2 ^ 24)
    (hp : ∃ q, toPoly crc = toPoly (beNat (buf.take i)) * X ^ 24 + q * crc24Q) :
    ∃ c, crcLoop buf n i crc = .ok c ∧ c < 2 ^ 24 ∧
      ∃ q, toPoly c = toPoly (beNat (buf.take (i + n))) * X ^ 24 + q * crc24Q := by
  induction n generalizing i crc with
  | zero => exact ⟨crc, rfl, hc, hp⟩
  | succ n ih =>
    have hi : i < buf.length := by omega
    obtain ⟨c', h1, h2, q', h3⟩ := crcByte_spec crc buf[i] hc
    obtain ⟨q, hq⟩ := hp
    obtain ⟨c, e1, e2, e3⟩ := ih (i + 1) c' (by omega) h2
      ⟨q * X ^ 8 + q', by
        rw [h3, hq, beNat_take_succ hi, toPoly_split _ _ _ buf[i].isLt]; ring⟩
    refine ⟨c, ?_, e2, ?_⟩
    · simp only [crcLoop, rd_ok hi, bind, Except.bind, h1]; exact e1
    · rw [show i + 1 + n = i + (n + 1) by omega] at e3; exact e3

theorem crc24_spec (buf : List Byte) (len : Nat) (h : len ≤ buf.length) :
    ∃ c, crc24 buf len = .ok c ∧ c < 2 ^ 24 ∧ IsCrc24Q (buf.take len) c := by
  obtain ⟨c, h1, h2, q, h3⟩ := crcLoop_spec buf len 0 0 (by omega) (by decide)
    ⟨0, by simp [beNat, fieldVal, bitsVal, toPoly_zero]⟩
  refine ⟨c, h1, h2, ?_⟩
  rw [Nat.zero_add] at h3
  unfold IsCrc24Q
  have := Polynomial.div_modByMonic_unique (f := toPoly (beNat (buf.take len)) * X ^ 24) (g := crc24Q)
    (-q) (toPoly c) gen_monic ⟨by rw [h3]; ring, by
      rw [gen_degree]; exact toPoly_degree_lt c 24 h2⟩
  exact this.2.symm

theorem isCrc24Q_unique {msg : List Byte} {a b : Nat} (ha : IsCrc24Q msg a) (hb : IsCrc24Q msg b) : a = b :=
  toPoly_inj (ha.trans hb.symm)

/-- a result of `crc24` is only possible with the whole range readable -/
theorem crc24_err (buf : List Byte) (len : Nat) (h : buf.length < len) :
    crc24 buf len = .error .oobRead := by
  have key : ∀ n i crc, i ≤ buf.length → buf.length < i + n → crc < 2 ^ 24 →
      crcLoop buf n i crc = .error .oobRead := by
    intro n
    induction n with
    | zero => intro i crc h1 h2; omega
    | succ n ih =>
      intro i crc h1 h2 hc
      by_cases hi : i < buf.length
      · obtain ⟨c', e1, e2, -⟩ := crcByte_spec crc buf[i] hc
        simp only [crcLoop, rd_ok hi, bind, Except.bind, e1]
        exact ih _ _ (by omega) (by omega) e2
      · simp only [crcLoop, rd_err (by omega : buf.length ≤ i), bind, Except.bind]
  exact key len 0 0 (by omega) (by omega) (by decide)

/-! ### error detection -/

theorem beNat_append (a b : List Byte) : beNat (a ++ b) = beNat a * 2 ^ (8 * b.length) + beNat b := by
  unfold beNat fieldVal
  rw [List.length_append, Nat.mul_add, bitsVal_add]
  congr 1
  · congr 1
    apply bitsVal_congr; intro k hk
    unfold bitAt
    rw [List.getElem?_append_left (by omega)]
  · apply bitsVal_congr; intro k hk
    unfold bitAt
    rw [List.getElem?_append_right (by omega)]
    have e1 : (0 + 8 * a.length + k) / 8 - a.length = (0 + k) / 8 := by omega
    have e2 : (0 + 8 * a.length + k) % 8 = (0 + k) % 8 := by omega
    rw [e1, e2]

theorem beNat_lt (a : List Byte) : beNat a < 2 ^ (8 * a.length) := bitsVal_lt _ _ _

/-- a frame is valid iff the generator divides the whole frame's polynomial -/
theorem crcValid_dvd {frame : List Byte} (h : CrcValid frame) : crc24Q ∣ toPoly (beNat frame) := by
  obtain ⟨msg, c0, c1, c2, rfl, hc⟩ := h
  rw [beNat_append, toPoly_split _ _ _ (beNat_lt _), hc]
  simp only [List.length_cons, List.length_nil]
  have := Polynomial.modByMonic_add_div (toPoly (beNat msg) * X ^ 24) crc24Q
  refine ⟨(toPoly (beNat msg) * X ^ 24) /ₘ crc24Q, ?_⟩
  have h2 : (2 : (ZMod 2)[X]) = 0 := CharTwo.two_eq_zero
  linear_combination (-1 : (ZMod 2)[X]) * this + ((toPoly (beNat msg) * X ^ 24) %ₘ crc24Q) * h2

end Ublox
