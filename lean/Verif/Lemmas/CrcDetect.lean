import Mathlib.RingTheory.Polynomial.Basic
import Mathlib.RingTheory.Coprime.Lemmas
import Verif.Lemmas.Crc

/-! Helper lemmas: error detection of CRC-24Q. -/

namespace Ublox
open Polynomial

/-- Flip the bits of `a` selected by the error mask `e`. -/
def xorBytes (a e : List Byte) : List Byte := List.zipWith (· ^^^ ·) a e

theorem bitAt_xorBytes {a e : List Byte} (h : e.length = a.length) (i : Nat) :
    bitAt (xorBytes a e) i = (bitAt a i ^^ bitAt e i) := by
  unfold bitAt xorBytes
  rw [List.getElem?_zipWith]
  by_cases hi : i / 8 < a.length
  · have hi' : i / 8 < e.length := by omega
    simp [hi, hi']
  · have hi' : ¬ i / 8 < e.length := by omega
    simp only [not_lt] at hi hi'
    rw [List.getElem?_eq_none hi, List.getElem?_eq_none hi']
    rfl

theorem beNat_xorBytes {a e : List Byte} (h : e.length = a.length) :
    beNat (xorBytes a e) = beNat a ^^^ beNat e := by
  have hl : (xorBytes a e).length = a.length := by simp [xorBytes, h]
  unfold beNat fieldVal
  apply bitsVal_eq_of_testBit
  · rw [hl]
    exact Nat.xor_lt_two_pow (bitsVal_lt _ _ _) (by rw [h]; exact bitsVal_lt _ _ _)
  · intro k hk
    rw [bitAt_xorBytes h, Nat.testBit_xor, testBit_bitsVal, testBit_bitsVal, h, hl]
    rw [hl] at hk
    have e1 : 8 * a.length - 1 - k < 8 * a.length := by omega
    have e2 : 0 + (8 * a.length - 1 - (8 * a.length - 1 - k)) = 0 + k := by omega
    simp [e1, e2]

theorem valid_xor_dvd {frame e : List Byte} (hl : e.length = frame.length) (hv : CrcValid frame)
    (hv' : CrcValid (xorBytes frame e)) : crc24Q ∣ toPoly (beNat e) := by
  have h1 := crcValid_dvd hv
  have h2 := crcValid_dvd hv'
  rw [beNat_xorBytes hl, toPoly_xor] at h2
  exact (dvd_add_right h1).mp h2

theorem gen_coprime_X : IsCoprime crc24Q (X : (ZMod 2)[X]) := by
  refine ⟨1, -(X ^ 23 + X ^ 22 + X ^ 17 + X ^ 16 + X ^ 13 + X ^ 10 + X ^ 9 + X ^ 6 + X ^ 5 + X ^ 4 + X ^ 3 + X ^ 2 + 1), ?_⟩
  unfold crc24Q; ring

theorem dvd_of_dvd_mul_X_pow {p : (ZMod 2)[X]} {k : Nat} (h : crc24Q ∣ p * X ^ k) : crc24Q ∣ p :=
  (gen_coprime_X.pow_right).dvd_of_dvd_mul_right h

theorem not_dvd_small {b : Nat} (h0 : b ≠ 0) (hb : b < 2 ^ 24) : ¬ crc24Q ∣ toPoly b := by
  intro h
  have hne : toPoly b ≠ 0 := fun hz => h0 (toPoly_inj (hz.trans toPoly_zero.symm))
  have := Polynomial.degree_le_of_dvd h hne
  rw [gen_degree] at this
  exact absurd (toPoly_degree_lt b 24 hb) (not_lt.mpr this)

theorem testBit_beNat (e : List Byte) (k : Nat) :
    (beNat e).testBit k = (decide (k < 8 * e.length) && bitAt e (8 * e.length - 1 - k)) := by
  unfold beNat fieldVal
  rw [testBit_bitsVal, Nat.zero_add]

theorem bitAt_lt_len {e : List Byte} {i : Nat} (h : bitAt e i = true) : i < 8 * e.length := by
  unfold bitAt at h
  by_cases hi : i / 8 < e.length
  · omega
  · rw [List.getElem?_eq_none (by omega)] at h; simp at h

theorem burst_not_dvd (e : List Byte) (k : Nat) (hne : ∃ i, bitAt e i = true)
    (hb : ∀ i, bitAt e i = true → k ≤ i ∧ i < k + 24) : ¬ crc24Q ∣ toPoly (beNat e) := by
  -- number of zero digits after the burst
  intro hd
  let r := 8 * e.length - (k + 24)
  have hsh : beNat e = (beNat e >>> r) <<< r := by
    apply Nat.eq_of_testBit_eq; intro j
    rw [Nat.testBit_shiftLeft, Nat.testBit_shiftRight]
    by_cases hj : r ≤ j
    · simp only [hj, decide_true, Bool.true_and]; congr 1; omega
    · simp only [hj, decide_false, Bool.false_and]
      rw [testBit_beNat]
      by_contra hc
      simp only [Bool.not_eq_false, Bool.and_eq_true, decide_eq_true_eq] at hc
      have := hb _ hc.2
      omega
  rw [hsh, toPoly_shl] at hd
  refine not_dvd_small ?_ ?_ (dvd_of_dvd_mul_X_pow hd)
  · intro hz
    rw [hz] at hsh
    obtain ⟨i, hi⟩ := hne
    have hlt := bitAt_lt_len hi
    have : (beNat e).testBit (8 * e.length - 1 - i) = true := by
      rw [testBit_beNat]
      have e1 : 8 * e.length - 1 - i < 8 * e.length := by omega
      have e2 : 8 * e.length - 1 - (8 * e.length - 1 - i) = i := by omega
      simp [e1, e2, hi]
    rw [hsh] at this; simp at this
  · apply Nat.lt_pow_two_of_testBit
    intro j hj
    rw [Nat.testBit_shiftRight, testBit_beNat]
    by_contra hc
    simp only [Bool.not_eq_false, Bool.and_eq_true, decide_eq_true_eq] at hc
    have := hb _ hc.2
    omega

/-- number of set bits of a buffer -/
def weight (e : List Byte) : Nat := ((List.range (8 * e.length)).filter (bitAt e)).length

theorem eval_one_bitsVal (f : Nat → Bool) (n : Nat) :
    (toPoly (bitsVal f 0 n)).eval 1 = (((List.range n).filter f).length : ZMod 2) := by
  induction n with
  | zero => simp [bitsVal, toPoly_zero]
  | succ n ih =>
    rw [bitsVal, toPoly_bit, List.range_succ, List.filter_append, List.length_append]
    simp only [eval_add, eval_mul, eval_X, eval_C, mul_one, ih, Nat.zero_add, Nat.cast_add]
    congr 2
    cases h : f n <;> simp [h]

theorem gen_eval_one : crc24Q.eval 1 = 0 := by
  unfold crc24Q; simp; decide

theorem odd_not_dvd (e : List Byte) (h : weight e % 2 = 1) : ¬ crc24Q ∣ toPoly (beNat e) := by
  rintro ⟨q, hq⟩
  have h1 := eval_one_bitsVal (bitAt e) (8 * e.length)
  have h2 := congrArg (Polynomial.eval 1) hq
  rw [eval_mul, gen_eval_one, zero_mul] at h2
  unfold beNat fieldVal at h2
  rw [h2] at h1
  have h3 : ((weight e : Nat) : ZMod 2) = 0 := h1.symm
  rw [ZMod.natCast_eq_zero_iff] at h3
  omega

/-! two-bit errors -/

theorem mulX_lt {c : Nat} (h : c < 2 ^ 24) : mulX c < 2 ^ 24 := by
  unfold mulX
  split
  · rename_i ht
    apply Nat.lt_pow_two_of_testBit
    intro j hj
    rw [Nat.testBit_xor]
    by_cases hj24 : j = 24
    · subst hj24; rw [ht]; decide
    · have h25 : 25 ≤ j := by omega
      have e1 : (c <<< 1).testBit j = false := by
        apply Nat.testBit_lt_two_pow
        rw [Nat.shiftLeft_eq]
        calc c * 2 ^ 1 < 2 ^ 25 := by omega
          _ ≤ 2 ^ j := Nat.pow_le_pow_right (by decide) h25
      have e2 : Nat.testBit 0x1864CFB j = false := by
        apply Nat.testBit_lt_two_pow
        calc 0x1864CFB < 2 ^ 25 := by decide
          _ ≤ 2 ^ j := Nat.pow_le_pow_right (by decide) h25
      rw [e1, e2]; rfl
  · rename_i ht
    apply Nat.lt_pow_two_of_testBit
    intro j hj
    by_cases hj24 : j = 24
    · subst hj24; simpa using ht
    · apply Nat.testBit_lt_two_pow
      rw [Nat.shiftLeft_eq]
      calc c * 2 ^ 1 < 2 ^ 25 := by omega
        _ ≤ 2 ^ j := Nat.pow_le_pow_right (by decide) (by omega)

theorem mulX_iter_lt (n : Nat) {c : Nat} (h : c < 2 ^ 24) : mulX^[n] c < 2 ^ 24 := by
  induction n generalizing c with
  | zero => exact h
  | succ n ih => rw [Function.iterate_succ_apply]; exact ih (mulX_lt h)

/-- none of the next `n` powers of X is 1 -/
def noReturn : Nat → Nat → Bool
  | 0, _ => true
  | n + 1, c => (mulX c != 1) && noReturn n (mulX c)

theorem noReturn_spec (n c : Nat) (h : noReturn n c = true) (d : Nat) (h0 : 0 < d) (hd : d ≤ n) :
    mulX^[d] c ≠ 1 := by
  induction n generalizing c d with
  | zero => omega
  | succ n ih =>
    simp only [noReturn, Bool.and_eq_true, bne_iff_ne] at h
    obtain ⟨d', rfl⟩ : ∃ d', d = d' + 1 := ⟨d - 1, by omega⟩
    rw [Function.iterate_succ_apply]
    by_cases hd' : d' = 0
    · subst hd'; exact h.1
    · exact ih (mulX c) h.2 d' (by omega) (by omega)

theorem noReturn_big : noReturn 8400 1 = true := by decide +kernel

theorem X_pow_not_one (d : Nat) (h0 : 0 < d) (hd : d ≤ 8400) : ¬ crc24Q ∣ X ^ d + 1 := by
  intro h
  obtain ⟨q, hq⟩ := mulX_iter_poly d 1
  rw [toPoly_one, one_mul] at hq
  have hx : crc24Q ∣ toPoly (mulX^[d] 1 ^^^ 1) := by
    rw [toPoly_xor, toPoly_one, hq]
    have : X ^ d + q * crc24Q + 1 = (X ^ d + 1) + q * crc24Q := by ring
    rw [this]
    exact dvd_add h (dvd_mul_left _ _)
  have hlt : mulX^[d] 1 ^^^ 1 < 2 ^ 24 := Nat.xor_lt_two_pow (mulX_iter_lt d (by decide)) (by decide)
  have hz : mulX^[d] 1 ^^^ 1 = 0 := by
    by_contra hc
    exact not_dvd_small hc hlt hx
  have h1 : mulX^[d] 1 = 1 := by
    have := congrArg (· ^^^ 1) hz
    simpa [Nat.xor_assoc] using this
  exact noReturn_spec 8400 1 noReturn_big d h0 hd h1

theorem two_not_dvd (e : List Byte) (i j : Nat) (hij : i < j) (hlen : j - i ≤ 8400)
    (hb : ∀ k, bitAt e k = true ↔ (k = i ∨ k = j)) : ¬ crc24Q ∣ toPoly (beNat e) := by
  have hj : j < 8 * e.length := bitAt_lt_len ((hb j).mpr (Or.inr rfl))
  have hval : beNat e = ((1 <<< (j - i)) ^^^ 1) <<< (8 * e.length - 1 - j) := by
    apply Nat.eq_of_testBit_eq; intro k
    rw [testBit_beNat, Nat.testBit_shiftLeft, Nat.testBit_xor, Nat.testBit_shiftLeft]
    have hone : ∀ m, Nat.testBit 1 m = decide (m = 0) := by
      intro m; cases m with
      | zero => rfl
      | succ m => simp [Nat.testBit_succ]
    rw [hone, hone]
    by_cases hk : k < 8 * e.length
    · have hbi := hb (8 * e.length - 1 - k)
      by_cases c1 : 8 * e.length - 1 - k = i
      · have : bitAt e (8 * e.length - 1 - k) = true := hbi.mpr (Or.inl c1)
        rw [this]
        have a1 : 8 * e.length - 1 - j ≤ k := by omega
        have a2 : j - i ≤ k - (8 * e.length - 1 - j) := by omega
        have a3 : k - (8 * e.length - 1 - j) - (j - i) = 0 := by omega
        have a4 : ¬ (k - (8 * e.length - 1 - j) = 0) := by omega
        simp only [hk, a1, a2, a3, a4]; decide
      · by_cases c2 : 8 * e.length - 1 - k = j
        · have : bitAt e (8 * e.length - 1 - k) = true := hbi.mpr (Or.inr c2)
          rw [this]
          have a1 : 8 * e.length - 1 - j ≤ k := by omega
          have a2 : ¬ (0 ≥ j - i) := by omega
          have a4 : k - (8 * e.length - 1 - j) = 0 := by omega
          simp only [hk, a1, a4, a2]; rfl
        · have : bitAt e (8 * e.length - 1 - k) = false := by
            rw [Bool.eq_false_iff]; intro h; rcases hbi.mp h with h | h <;> contradiction
          rw [this]
          by_cases a1 : 8 * e.length - 1 - j ≤ k
          · have a4 : ¬ (k - (8 * e.length - 1 - j) = 0) := by omega
            by_cases a2 : j - i ≤ k - (8 * e.length - 1 - j)
            · have a3 : ¬ (k - (8 * e.length - 1 - j) - (j - i) = 0) := by omega
              simp [a3, a4]
            · simp [a2, a4]
          · simp [a1]
    · have a1 : 8 * e.length - 1 - j ≤ k := by omega
      have a2 : j - i ≤ k - (8 * e.length - 1 - j) := by omega
      have a3 : ¬ (k - (8 * e.length - 1 - j) - (j - i) = 0) := by omega
      have a4 : ¬ (k - (8 * e.length - 1 - j) = 0) := by omega
      simp [hk, a3, a4]
  intro hd
  rw [hval, toPoly_shl, toPoly_xor, toPoly_shl, toPoly_one, one_mul] at hd
  exact X_pow_not_one (j - i) (by omega) hlen (dvd_of_dvd_mul_X_pow hd)

end Ublox
