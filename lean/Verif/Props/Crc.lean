import Verif.Lemmas.CrcDetect

/-! # Properties C27, C28: CRC-24Q -/

namespace Ublox
open Polynomial

/-- C27: `crc24(buf, len)` is the remainder of `buf(x)·x^24` by the CRC-24Q generator over GF(2), it is below
`2^24`, and neither the buffer nor the table is read out of bounds. -/
theorem c27_crc24 (buf : List Byte) (len : Nat) (h : len ≤ buf.length) :
    ∃ c, crc24 buf len = .ok c ∧ c < 2 ^ 24 ∧
      toPoly c = (toPoly (beNat (buf.take len)) * X ^ 24) %ₘ crc24Q :=
  crc24_spec buf len h

/-- The correspondence between numbers and polynomials used in C27 is the usual one: coefficient `i` is bit `i`,
and it is injective, so the polynomial determines the returned number. -/
theorem c27_toPoly_faithful (a b i : Nat) :
    ((toPoly a).coeff i = if a.testBit i then 1 else 0) ∧ (toPoly a = toPoly b → a = b) :=
  ⟨coeff_toPoly a i, toPoly_inj⟩

/-- known-answer check of the model (CRC-24Q of "123456789", as in the CRC catalogue) -/
example : crc24 [0x31, 0x32, 0x33, 0x34, 0x35, 0x36, 0x37, 0x38, 0x39] 9 = .ok 0xCDE703 := by decide +kernel

/-- C28, bursts: an error confined to 24 consecutive bits of a valid frame leaves an invalid frame. -/
theorem c28_burst (frame e : List Byte) (hl : e.length = frame.length) (hv : CrcValid frame)
    (k : Nat) (hne : ∃ i, bitAt e i = true) (hb : ∀ i, bitAt e i = true → k ≤ i ∧ i < k + 24) :
    ¬ CrcValid (xorBytes frame e) :=
  fun hv' => burst_not_dvd e k hne hb (valid_xor_dvd hl hv hv')

/-- C28, odd errors: flipping an odd number of bits of a valid frame leaves an invalid frame. -/
theorem c28_odd (frame e : List Byte) (hl : e.length = frame.length) (hv : CrcValid frame)
    (hodd : ((List.range (8 * e.length)).filter (bitAt e)).length % 2 = 1) :
    ¬ CrcValid (xorBytes frame e) :=
  fun hv' => odd_not_dvd e hodd (valid_xor_dvd hl hv hv')

/-- C28, double errors: flipping any two bits of a valid frame of at most 1050 bytes (an RTCM frame has at
most 1029) leaves an invalid frame. -/
theorem c28_two (frame e : List Byte) (hl : e.length = frame.length) (hv : CrcValid frame)
    (hsize : frame.length ≤ 1050) (i j : Nat) (hij : i < j)
    (hb : ∀ k, bitAt e k = true ↔ (k = i ∨ k = j)) : ¬ CrcValid (xorBytes frame e) := by
  have hj : j < 8 * e.length := bitAt_lt_len ((hb j).mpr (Or.inr rfl))
  exact fun hv' => two_not_dvd e i j hij (by omega) hb (valid_xor_dvd hl hv hv')

/-- The hypotheses of C28 are met: `D3 00 01 00` with its CRC is valid … -/
theorem c28_example_valid : CrcValid [0xD3, 0x00, 0x01, 0x00, 0x0A, 0x18, 0x8D] := by
  refine ⟨[0xD3, 0x00, 0x01, 0x00], 0x0A, 0x18, 0x8D, rfl, ?_⟩
  obtain ⟨c, h1, -, h3⟩ := crc24_spec [0xD3, 0x00, 0x01, 0x00] 4 (by decide)
  have : c = beNat [0x0A, 0x18, 0x8D] := by
    have e : crc24 [0xD3, 0x00, 0x01, 0x00] 4 = .ok (beNat [0x0A, 0x18, 0x8D]) := by decide +kernel
    rw [e] at h1; exact (Except.ok.inj h1).symm
  rw [← this]; exact h3

/-- … and there are error masks of each kind. -/
example : (∀ i, i < 56 → bitAt [0, 0, 0x80, 0, 0x40, 0, 0] i = true → 16 ≤ i ∧ i < 40) ∧
    ((List.range 56).filter (bitAt [0, 0, 0x80, 0, 0, 0, 0])).length % 2 = 1 := by decide

end Ublox
