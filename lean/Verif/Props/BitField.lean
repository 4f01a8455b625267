import Verif.Spec.BitField
import Verif.Model.BitField
import Verif.Lemmas.Bits
import Verif.Lemmas.Base

/-!
# C111: reading a `BitField`
-/

namespace Ublox

theorem lsbField_lt (buf : List Byte) (first n : Nat) : lsbField buf first n < 2 ^ n := by
  induction n with
  | zero => exact Nat.one_pos
  | succ n ih =>
    rw [lsbField, Nat.pow_succ]
    split <;> omega

theorem testBit_lsbField (buf : List Byte) (first n k : Nat) :
    (lsbField buf first n).testBit k = (decide (k < n) && lsbAt buf (first + k)) := by
  induction n with
  | zero => simp [lsbField]
  | succ n ih =>
    rw [lsbField]
    have hlt := lsbField_lt buf first n
    by_cases hb : lsbAt buf (first + n) = true
    · have e : lsbField buf first n + 2 ^ n = 2 ^ n * 1 ||| lsbField buf first n := by
        rw [← Nat.two_pow_add_eq_or_of_lt hlt]; omega
      rw [if_pos hb, e, Nat.mul_one, Nat.testBit_or, ih, Nat.testBit_two_pow]
      by_cases e : k = n
      · subst e; simp [hb]
      · have h1 : (k < n + 1) ↔ k < n := by omega
        have h2 : ¬ n = k := fun h => e h.symm
        simp [h1, h2]
    · rw [if_neg hb, Nat.add_zero, ih]
      by_cases e : k = n
      · subst e; simp [hb]
      · have : (k < n + 1) ↔ k < n := by omega
        simp [this]

theorem keepLoop_ok {buf : List Byte} {p0 size : Nat} (hs : size ≤ 24) (hin : p0 + (size + 7) / 8 < buf.length) :
    ∀ (fuel i p ret : Nat), size ≤ fuel + i → i % 8 = 0 → p = p0 + i / 8 → i < size + 8 →
      (∀ k, ret.testBit k = (decide (k < i + 8) && lsbAt buf (8 * p0 + k))) →
      ∃ r j, bfKeepLoop buf size fuel i p ret = .ok r ∧ size ≤ j ∧
        ∀ k, r.testBit k = (decide (k < j + 8) && lsbAt buf (8 * p0 + k)) := by
  intro fuel
  induction fuel with
  | zero => intro i p ret hf _ _ _ hr; exact ⟨ret, i, rfl, by omega, hr⟩
  | succ fuel ih =>
    intro i p ret hf h8 hp hi hr
    rw [bfKeepLoop]
    by_cases hlt : i < size
    · rw [if_pos hlt, rd_ok (show p + 1 < buf.length by omega), ok_bind, if_neg (by omega)]
      refine ih (i + 8) (p + 1) _ (by omega) (by omega) (by omega) (by omega) fun k => ?_
      rw [Nat.testBit_or, hr, Nat.testBit_mod_two_pow, Nat.testBit_shiftLeft]
      by_cases hk : k < i + 8
      · have : k < i + 8 + 8 := by omega
        have h3 : ¬ i + 8 ≤ k := by omega
        simp [hk, this, h3]
      · by_cases hk2 : k < i + 8 + 8
        · have h3 : i + 8 ≤ k := by omega
          have h4 : k < 32 := by omega
          have e1 : (8 * p0 + k) / 8 = p + 1 := by omega
          have e2 : (8 * p0 + k) % 8 = k - (i + 8) := by omega
          have e3 : buf.getD (p + 1) 0 = buf[p + 1] := by
            rw [List.getD_eq_getElem?_getD, List.getElem?_eq_getElem (by omega), Option.getD_some]
          simp only [lsbAt, e1, e2, e3]
          simp [hk, hk2, h3, h4]
        · have : buf[p + 1].toNat < 2 ^ (k - (i + 8)) :=
            Nat.lt_of_lt_of_le buf[p + 1].isLt (Nat.pow_le_pow_right (by omega) (by omega))
          simp [hk, hk2, Nat.testBit_lt_two_pow this]
    · rw [if_neg hlt]
      exact ⟨ret, i, rfl, by omega, hr⟩

/-- **C111, default byte order (partial).** A field of at most 24 bits with one more byte behind it reads exactly the bits it
names.  Missing: a field at the end of the array, more than 24 bits. -/
theorem c111_keep_partial (buf : List Byte) (first size : Nat) (h1 : 1 ≤ size) (hs : size ≤ 24)
    (hin : first / 8 + (size + 7) / 8 < buf.length) :
    bfRead .keep first size buf = .ok (lsbField buf first size) := by
  have hp : first / 8 < buf.length := by omega
  have e3 : buf.getD (first / 8) 0 = buf[first / 8] := by
    rw [List.getD_eq_getElem?_getD, List.getElem?_eq_getElem hp, Option.getD_some]
  obtain ⟨r, j, e, hj, hr⟩ := keepLoop_ok hs hin size 0 (first / 8) buf[first / 8].toNat (by omega) rfl (by omega) (by omega)
    (fun k => by
      by_cases hk : k < 8
      · have e1 : (8 * (first / 8) + k) / 8 = first / 8 := by omega
        have e2 : (8 * (first / 8) + k) % 8 = k := by omega
        simp only [lsbAt, e1, e2, e3]
        simp [hk]
      · have : buf[first / 8].toNat < 2 ^ k :=
          Nat.lt_of_lt_of_le buf[first / 8].isLt (Nat.pow_le_pow_right (by omega) (by omega))
        simp [hk, Nat.testBit_lt_two_pow this])
  unfold bfRead
  simp only [rd_ok hp, ok_bind, e]
  congr 1
  apply Nat.eq_of_testBit_eq
  intro k
  rw [Nat.testBit_and, Nat.testBit_shiftRight, hr, testBit_lsbField, Nat.testBit_two_pow_sub_one]
  by_cases hk : k < size
  · have h2 : first % 8 + k < j + 8 := by omega
    have h3 : 8 * (first / 8) + (first % 8 + k) = first + k := by omega
    simp [hk, h2, h3]
  · simp [hk]

theorem keepLoop_oob {buf : List Byte} {size : Nat} (hs : size ≤ 24) :
    ∀ (fuel i p ret : Nat), size ≤ fuel + i → i < size → buf.length ≤ p + (size - i + 7) / 8 →
      bfKeepLoop buf size fuel i p ret = .error .oobRead := by
  intro fuel
  induction fuel with
  | zero => intro i p ret hf hi; omega
  | succ fuel ih =>
    intro i p ret hf hi hp
    rw [bfKeepLoop, if_pos hi]
    by_cases hlt : p + 1 < buf.length
    · rw [rd_ok hlt, ok_bind, if_neg (by omega)]
      by_cases h2 : i + 8 < size
      · exact ih _ _ _ (by omega) h2 (by omega)
      · omega
    · rw [rd_err (by omega)]
      rfl

theorem keepLoop_wide {buf : List Byte} {size : Nat} (hs : 24 < size) :
    ∀ (fuel i p ret : Nat), size ≤ fuel + i → i ≤ 24 → i % 8 = 0 → ∃ e, bfKeepLoop buf size fuel i p ret = .error e := by
  intro fuel
  induction fuel with
  | zero => intro i p ret hf hi; omega
  | succ fuel ih =>
    intro i p ret hf hi h8
    rw [bfKeepLoop, if_pos (by omega)]
    by_cases hlt : p + 1 < buf.length
    · rw [rd_ok hlt, ok_bind]
      by_cases h2 : 32 ≤ i + 8
      · exact ⟨_, if_pos h2⟩
      · rw [if_neg h2]
        exact ih _ _ _ (by omega) (by omega) (by omega)
    · rw [rd_err (by omega)]
      exact ⟨_, rfl⟩

/-- **C111 refuted: the end of the array.** Reading any field of up to 24 bits that has no further byte behind the last one it
may touch reads outside the array, even if the field itself lies within it (every byte-aligned field of whole bytes at the end
does). -/
theorem c111_tail_refuted (buf : List Byte) (first size : Nat) (h1 : 1 ≤ size) (hs : size ≤ 24)
    (hend : buf.length ≤ first / 8 + (size + 7) / 8) : bfRead .keep first size buf = .error .oobRead := by
  unfold bfRead
  by_cases hp : first / 8 < buf.length
  · simp only [rd_ok hp, ok_bind]
    rw [keepLoop_oob hs size 0 (first / 8) _ (by omega) (by omega) (by omega)]
    rfl
  · simp only [rd_err (Nat.le_of_not_lt hp)]
    rfl

/-- **C111 refuted: wide fields.** Reading a field of more than 24 bits in the default byte order is undefined behaviour,
wherever it lies. -/
theorem c111_wide_refuted (buf : List Byte) (first size : Nat) (hs : 24 < size) :
    ∃ e, bfRead .keep first size buf = .error e := by
  unfold bfRead
  by_cases hp : first / 8 < buf.length
  · obtain ⟨e, he⟩ := keepLoop_wide hs size 0 (first / 8) buf[first / 8].toNat (buf := buf) (by omega) (by omega) rfl
    simp only [rd_ok hp, ok_bind]
    rw [he]
    exact ⟨e, rfl⟩
  · simp only [rd_err (Nat.le_of_not_lt hp)]
    exact ⟨_, rfl⟩

/-- **C111, switched byte order (partial).** A field within the array that touches at most four bytes (any field of up to 25
bits) reads exactly the bits it names, most significant first.  Missing: fields that touch five bytes. -/
theorem c111_switch_partial (buf : List Byte) (first size : Nat) (h1 : 1 ≤ size)
    (h2 : (first % 8 + size + 7) / 8 ≤ 4) (hin : FieldIn buf.length first size) :
    bfRead .switch first size buf = .ok (fieldVal buf first size) := by
  unfold FieldIn at hin
  exact getBitRaw_ok h1 (by omega) (by omega) (by omega)

/-- **C111 refuted: switched, five bytes.** A field of 32 bits that starts within a byte loses its first bits. -/
theorem c111_switch_refuted :
    ∃ buf first size, size ≤ 32 ∧ FieldIn buf.length first size ∧ fieldVal buf first size = 0xFFFFFFFF ∧
      bfRead .switch first size buf = .ok 0x0FFFFFFF :=
  ⟨[0xFF, 0xFF, 0xFF, 0xFF, 0xFF], 4, 32, by decide, by unfold FieldIn; decide, by decide +kernel, by decide +kernel⟩

/-- A field across two bytes in each order, and one at the end of the array. -/
example : bfRead .keep 4 8 [0x12, 0x34, 0x56, 0x78] = .ok 0x41 ∧ bfRead .switch 4 8 [0x12, 0x34, 0x56, 0x78] = .ok 0x23 ∧
    bfRead .keep 16 16 [0x12, 0x34, 0x56, 0x78] = .error .oobRead := by decide +kernel

end Ublox
