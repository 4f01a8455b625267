import Verif.Props.BitField
import Verif.Props.Bits
/-! # C40 in the default byte order: which fields survive assignment and reading -/

namespace Ublox

theorem lsbAt_eq (buf : List Byte) (q : Nat) : lsbAt buf q = bitAt buf (8 * (q / 8) + (7 - q % 8)) := by
  unfold lsbAt bitAt
  have e1 : (8 * (q / 8) + (7 - q % 8)) / 8 = q / 8 := by omega
  have e2 : 7 - (8 * (q / 8) + (7 - q % 8)) % 8 = q % 8 := by omega
  rw [e1, e2, List.getD_eq_getElem?_getD]
  cases buf[q / 8]? with
  | none => simp
  | some b => rfl

/-- What is read after an assignment in the default byte order, bit by bit: bit `k` of the number read is the bit of the array
that assignment counts as `j`, the position mirrored within its byte; it is a bit of the assigned value where `j` lies in the
field, and otherwise what was there before. -/
theorem keep_after_write (first size m : Nat) (buf : List Byte) (h1 : 1 ≤ size) (hs : size ≤ 24)
    (hin : first / 8 + (size + 7) / 8 < buf.length) :
    ∃ buf' v, bfWrite .keep first size buf m = .ok buf' ∧ bfRead .keep first size buf' = .ok v ∧ v < 2 ^ size ∧
      ∀ k < size, v.testBit k =
        (let j := 8 * ((first + k) / 8) + (7 - (first + k) % 8)
         if first ≤ j ∧ j < first + size then m.testBit (first + size - 1 - j) else bitAt buf j) := by
  obtain ⟨buf', e, hl, hb⟩ := setBitW_ok (W := 32) (data := m) (pos := first) (buf := buf) h1 (by omega) (by omega)
  refine ⟨buf', _, e, c111_keep_partial buf' first size h1 hs (by omega), lsbField_lt _ _ _, ?_⟩
  intro k hk
  dsimp only
  rw [testBit_lsbField, lsbAt_eq, hb]
  simp [hk]

/-- **C40, default byte order (partial).** In the default byte order exactly the fields that lie symmetrically in one byte -
`<0,8>`, `<1,6>`, `<2,4>`, `<3,2>` and the same in later bytes - give back what was assigned, mod `2^size`, for every value and
every content of the array.  (Fields up to 24 bits with another byte behind them; otherwise reading is undefined, C111.) -/
theorem c40_keep_partial (first size n : Nat) (h1 : 1 ≤ size) (hs : size ≤ 24) (hin : first / 8 + (size + 7) / 8 < n) :
    (∀ buf m, buf.length = n → ∃ buf', bfWrite .keep first size buf m = .ok buf' ∧
      bfRead .keep first size buf' = .ok (m % 2 ^ size)) ↔ 2 * (first % 8) + size = 8 := by
  constructor
  · intro h
    obtain ⟨b1, w1, r1⟩ := h (List.replicate n 0) 1 List.length_replicate
    obtain ⟨b2, v, w2, r2, -, hv⟩ := keep_after_write first size 1 (List.replicate n 0) h1 hs (by rw [List.length_replicate]; exact hin)
    rw [w1] at w2
    obtain rfl := Except.ok.inj w2
    rw [r1] at r2
    have hv0 := hv 0 (by omega)
    rw [← Except.ok.inj r2, Nat.testBit_mod_two_pow] at hv0
    dsimp only at hv0
    rw [show decide (0 < size) = true by simp; omega, Bool.true_and, Nat.add_zero] at hv0
    by_cases hj : first ≤ 8 * (first / 8) + (7 - first % 8) ∧ 8 * (first / 8) + (7 - first % 8) < first + size
    · rw [if_pos hj] at hv0
      by_cases hz : first + size - 1 - (8 * (first / 8) + (7 - first % 8)) = 0
      · omega
      · rw [Nat.testBit_one_eq_true_iff_self_eq_zero.2 rfl] at hv0
        exact absurd (Nat.testBit_one_eq_true_iff_self_eq_zero.1 hv0.symm) hz
    · rw [if_neg hj] at hv0
      exfalso
      have : bitAt (List.replicate n (0 : Byte)) (8 * (first / 8) + (7 - first % 8)) = false := by
        unfold bitAt
        split
        · rename_i b hb
          rw [List.eq_of_mem_replicate (List.mem_of_getElem? hb)]
          simp
        · rfl
      rw [this] at hv0
      cases hv0
  · intro h8 buf m hn
    obtain ⟨b, v, w, r, hlt, hv⟩ := keep_after_write first size m buf h1 hs (by omega)
    refine ⟨b, w, ?_⟩
    rw [r]
    congr 1
    apply Nat.eq_of_testBit_eq
    intro k
    rw [Nat.testBit_mod_two_pow]
    by_cases hk : k < size
    · have e1 : (first + k) / 8 = first / 8 := by omega
      have e2 : (first + k) % 8 = first % 8 + k := by omega
      rw [hv k hk]
      dsimp only
      rw [e1, e2, if_pos (by omega)]
      have : first + size - 1 - (8 * (first / 8) + (7 - (first % 8 + k))) = k := by omega
      rw [this]; simp [hk]
    · rw [Nat.testBit_lt_two_pow (Nat.lt_of_lt_of_le hlt (Nat.pow_le_pow_right (by omega) (by omega)))]
      simp [hk]

/-- The four fields of a byte that work; `<2,4>` on a byte of ones; and one that does not. -/
example : (∀ a s, a < 8 → 1 ≤ s → (2 * (a % 8) + s = 8 ↔ (a, s) ∈ [(0, 8), (1, 6), (2, 4), (3, 2)])) := by
  intro a s ha hs
  simp only [List.mem_cons, Prod.mk.injEq, List.not_mem_nil, or_false]
  omega

example : bfWrite .keep 10 4 [0xFF, 0xFF, 0xFF] 0x15 = .ok [0xFF, 0xD7, 0xFF] ∧ bfRead .keep 10 4 [0xFF, 0xD7, 0xFF] = .ok 5 ∧
    bfWrite .keep 0 4 [0, 0] 3 = .ok [0x30, 0] ∧ bfRead .keep 0 4 [0x30, 0] = .ok 0 := by decide +kernel

end Ublox
