import Verif.Lemmas.Bits
import Verif.Model.BitField

/-! # Properties C35 – C40: bit-field access -/

namespace Ublox

/-- A small concrete buffer used by the non-vacuity examples. -/
def exBuf : List Byte := [0xA5, 0x3C, 0xF0]

/-! ## C35 -/

/-- C35: `getBit<len>(buf, pos)` returns the number whose binary digits are the field's bits, exactly
when the field lies inside the buffer; otherwise it reads out of bounds. -/
theorem c35_getBit (len pos : Nat) (buf : List Byte) (h1 : 1 ≤ len) (h2 : len ≤ 56) :
    getBit len buf pos =
      if FieldIn buf.length pos len then .ok (fieldVal buf pos len) else .error .oobRead := by
  split <;> rename_i h <;> unfold FieldIn at h
  · exact getBit_ok h1 h2 h
  · exact getBitRaw_err h1 (by omega)

/-- C35, run-time length overload (the result type is 32 bits wide, so `len ≤ 32`). -/
theorem c35_getBitRt (len pos : Nat) (buf : List Byte) (h1 : 1 ≤ len) (h2 : len ≤ 32) :
    getBitRt buf pos len =
      if FieldIn buf.length pos len then .ok (fieldVal buf pos len) else .error .oobRead := by
  split <;> rename_i h <;> unfold FieldIn at h
  · exact getBitRt_ok h1 h2 h
  · exact getBitRaw_err h1 (by omega)

/-- C35, "reads only the bytes containing those bits": two buffers that agree on the field's bits give the
same result. -/
theorem c35_locality (len pos : Nat) (b1 b2 : List Byte) (h1 : 1 ≤ len) (h2 : len ≤ 56)
    (i1 : FieldIn b1.length pos len) (i2 : FieldIn b2.length pos len)
    (heq : ∀ i, pos ≤ i → i < pos + len → bitAt b1 i = bitAt b2 i) :
    getBit len b1 pos = getBit len b2 pos := by
  rw [c35_getBit _ _ _ h1 h2, c35_getBit _ _ _ h1 h2, if_pos i1, if_pos i2]
  congr 1
  exact bitsVal_congr fun k hk => heq _ (by omega) (by omega)

example : FieldIn exBuf.length 5 11 ∧ fieldVal exBuf 5 11 = 0x53C := by decide
example : getBit 11 exBuf 5 = .ok 0x53C ∧ getBit 11 exBuf 15 = .error .oobRead := by decide

/-! ## C36 -/

/-- C36: signed `getBit<len>` is the two's complement value of the field. -/
theorem c36_getBitS (len pos : Nat) (buf : List Byte) (h1 : 1 ≤ len) (h2 : len ≤ 56)
    (hin : FieldIn buf.length pos len) :
    getBitS len buf pos = .ok (twosComp len (fieldVal buf pos len)) := by
  have hW : typeWidth len ≤ typeWidth (len + 8) := by
    unfold typeWidth; repeat' split
    all_goals omega
  simp only [getBitS, getBit_ok h1 h2 hin, bind, Except.bind,
    signExt_eq h1 (typeWidth_ge (by omega)) hW (bitsVal_lt _ _ _), fieldVal]

/-- C36, run-time length overload. -/
theorem c36_getBitRtS (len pos : Nat) (buf : List Byte) (h1 : 1 ≤ len) (h2 : len ≤ 32)
    (hin : FieldIn buf.length pos len) :
    getBitRtS buf pos len = .ok (twosComp len (fieldVal buf pos len)) := by
  simp only [getBitRtS, getBitRt_ok h1 h2 hin, bind, Except.bind,
    signExt_eq h1 h2 (by decide : 32 ≤ 64) (bitsVal_lt _ _ _), fieldVal]

/-- The two's complement value of an `n`-bit field lies in `[-2^(n-1), 2^(n-1))` and is congruent to
the unsigned one: `twosComp` is the usual notion. -/
theorem c36_twosComp_range (n v : Nat) (h1 : 1 ≤ n) (hv : v < 2 ^ n) :
    -(2 : Int) ^ (n - 1) ≤ twosComp n v ∧ twosComp n v < 2 ^ (n - 1) ∧ (twosComp n v - v) % 2 ^ n = 0 := by
  obtain ⟨k, rfl⟩ : ∃ k, n = k + 1 := ⟨n - 1, by omega⟩
  unfold twosComp
  have e : ((2 ^ k : Nat) : Int) = 2 ^ k := by norm_cast
  have e2 : (2 : Int) ^ (k + 1) = 2 * 2 ^ k := by rw [Int.pow_succ, Int.mul_comm]
  have e3 : 2 ^ (k + 1) = 2 * 2 ^ k := by rw [Nat.pow_succ, Nat.mul_comm]
  simp only [Nat.add_sub_cancel]
  split
  · refine ⟨by omega, by omega, by simp⟩
  · refine ⟨by omega, by omega, ?_⟩
    have : (v : Int) - 2 ^ (k + 1) - v = -(2 ^ (k + 1)) := by omega
    rw [this]; simp

example : getBitS 4 exBuf 0 = .ok (-6) ∧ getBitS 4 exBuf 4 = .ok 5 ∧
    getBitRtS exBuf 15 4 = .ok 7 := by decide

/-! ## C37 -/

/-- C37: `setBit<len>` makes the field's bits equal to the low `len` bits of `data` and changes nothing
else; it succeeds whenever the field lies inside the buffer. -/
theorem c37_setBit (len pos data : Nat) (buf : List Byte) (h1 : 1 ≤ len) (h2 : len ≤ 56)
    (hin : FieldIn buf.length pos len) :
    ∃ buf', setBit len buf pos data = .ok buf' ∧ buf'.length = buf.length ∧
      ∀ i, bitAt buf' i =
        if pos ≤ i ∧ i < pos + len then data.testBit (pos + len - 1 - i) else bitAt buf i :=
  setBit_ok h1 h2 hin

/-- C37, run-time length overload. -/
theorem c37_setBitRt (len pos data : Nat) (buf : List Byte) (h1 : 1 ≤ len) (h2 : len ≤ 56)
    (hin : FieldIn buf.length pos len) :
    ∃ buf', setBitRt buf pos data len = .ok buf' ∧ buf'.length = buf.length ∧
      ∀ i, bitAt buf' i =
        if pos ≤ i ∧ i < pos + len then data.testBit (pos + len - 1 - i) else bitAt buf i :=
  setBitRt_ok h1 h2 hin

example : FieldIn exBuf.length 5 11 ∧ setBit 11 exBuf 5 0x2C3 = .ok [0xA2, 0xC3, 0xF0] := by decide

/-! ## C38 -/

/-- C38: after `setBit`, `getBit` of the same field returns the value mod `2^len`, and `getBit` of any
field not overlapping it is unchanged. -/
theorem c38_roundtrip (len pos data : Nat) (buf : List Byte) (h1 : 1 ≤ len) (h2 : len ≤ 56)
    (hin : FieldIn buf.length pos len) :
    ∃ buf', setBit len buf pos data = .ok buf' ∧ getBit len buf' pos = .ok (data % 2 ^ len) ∧
      ∀ len' pos', 1 ≤ len' → len' ≤ 56 → pos' + len' ≤ pos ∨ pos + len ≤ pos' →
        getBit len' buf' pos' = getBit len' buf pos' := by
  obtain ⟨buf', e, hl, hb⟩ := setBit_ok (data := data) h1 h2 hin
  refine ⟨buf', e, ?_, ?_⟩
  · rw [getBit_ok h1 h2 (by rw [hl]; exact hin)]
    congr 1
    apply bitsVal_eq_of_testBit _ _ _ _ (Nat.mod_lt _ (Nat.two_pow_pos _))
    intro k hk
    rw [hb, if_pos (by omega), Nat.testBit_mod_two_pow]
    have : len - 1 - k < len := by omega
    have e : pos + len - 1 - (pos + k) = len - 1 - k := by omega
    simp [this, e]
  · intro len' pos' a1 a2 hd
    rw [c35_getBit _ _ _ a1 a2, c35_getBit _ _ _ a1 a2, hl]
    split
    · congr 1
      exact bitsVal_congr fun k hk => by rw [hb, if_neg (by omega)]
    · rfl

/-- C38 for the run-time length overloads (32-bit result). -/
theorem c38_roundtripRt (len pos data : Nat) (buf : List Byte) (h1 : 1 ≤ len) (h2 : len ≤ 32)
    (hin : FieldIn buf.length pos len) :
    ∃ buf', setBitRt buf pos data len = .ok buf' ∧ getBitRt buf' pos len = .ok (data % 2 ^ len) ∧
      ∀ len' pos', 1 ≤ len' → len' ≤ 32 → pos' + len' ≤ pos ∨ pos + len ≤ pos' →
        getBitRt buf' pos' len' = getBitRt buf pos' len' := by
  obtain ⟨buf', e, hl, hb⟩ := setBitRt_ok (data := data) h1 (by omega : len ≤ 56) hin
  refine ⟨buf', e, ?_, ?_⟩
  · rw [getBitRt_ok h1 h2 (by rw [hl]; exact hin)]
    congr 1
    apply bitsVal_eq_of_testBit _ _ _ _ (Nat.mod_lt _ (Nat.two_pow_pos _))
    intro k hk
    rw [hb, if_pos (by omega), Nat.testBit_mod_two_pow]
    have : len - 1 - k < len := by omega
    have e : pos + len - 1 - (pos + k) = len - 1 - k := by omega
    simp [this, e]
  · intro len' pos' a1 a2 hd
    rw [c35_getBitRt _ _ _ a1 a2, c35_getBitRt _ _ _ a1 a2, hl]
    split
    · congr 1
      exact bitsVal_congr fun k hk => by rw [hb, if_neg (by omega)]
    · rfl

example : FieldIn exBuf.length 3 7 := by decide

/-! ## C39 -/

/-- C39: sign-magnitude fields. -/
theorem c39_getBitGlo (len pos : Nat) (buf : List Byte) (h1 : 2 ≤ len) (h2 : len ≤ 57)
    (hin : FieldIn buf.length pos len) :
    getBitGlo len buf pos = .ok
      (if bitAt buf pos then -(fieldVal buf (pos + 1) (len - 1) : Int)
       else (fieldVal buf (pos + 1) (len - 1) : Int)) := by
  unfold FieldIn at hin
  have e1 : getBit (len - 1) buf (pos + 1) = .ok (fieldVal buf (pos + 1) (len - 1)) :=
    getBit_ok (by omega) (by omega) (by omega)
  have e2 : getBit 1 buf pos = .ok (fieldVal buf pos 1) := getBit_ok (by omega) (by omega) (by omega)
  have e3 : fieldVal buf pos 1 = (bitAt buf pos).toNat := by simp [fieldVal, bitsVal]
  simp only [getBitGlo, e1, e2, bind, Except.bind, e3]
  cases bitAt buf pos <;> simp

example : getBitGlo 5 exBuf 0 = .ok (-4) ∧ getBitGlo 5 exBuf 1 = .ok 9 := by decide

/-! ## C40 -/

/-- C40, the true part: with `SwitchByteOrder`, when the field's bytes fit the 32-bit temporary (in
particular for every size up to 25), assigning a value and reading it back gives it mod `2^size`,
and no bit outside the field changes.  Missing: `KeepByteOrder` (the default!), for which the
property is false, see `c40_refuted`; sizes 26..32 that straddle five bytes. -/
theorem c40_switch_partial (first size m : Nat) (buf : List Byte) (h1 : 1 ≤ size)
    (h2 : (first % 8 + size + 7) / 8 ≤ 4) (hin : FieldIn buf.length first size) :
    ∃ buf', bfWrite .switch first size buf m = .ok buf' ∧
      bfRead .switch first size buf' = .ok (m % 2 ^ size) ∧
      ∀ i, ¬ (first ≤ i ∧ i < first + size) → bitAt buf' i = bitAt buf i := by
  unfold FieldIn at hin
  obtain ⟨buf', e, hl, hb⟩ := setBitW_ok (W := 32) (data := m) h1 (by omega) hin
  refine ⟨buf', e, ?_, fun i hi => by rw [hb, if_neg hi]⟩
  simp only [bfRead]
  rw [getBitRaw_ok h1 (by omega) (by omega) (by omega)]
  congr 1
  apply bitsVal_eq_of_testBit _ _ _ _ (Nat.mod_lt _ (Nat.two_pow_pos _))
  intro k hk
  rw [hb, if_pos (by omega), Nat.testBit_mod_two_pow]
  have : size - 1 - k < size := by omega
  have e : first + size - 1 - (first + k) = size - 1 - k := by omega
  simp [this, e]

/-- every field of at most 25 bits meets the side condition -/
example (first size : Nat) (h : size ≤ 25) : (first % 8 + size + 7) / 8 ≤ 4 := by omega

/-- C40, `+=` and the other compound assignments (Switch order): the field becomes `f v` mod `2^size`. -/
theorem c40_update_partial (first size : Nat) (f : Nat → Nat) (buf : List Byte) (h1 : 1 ≤ size)
    (h2 : (first % 8 + size + 7) / 8 ≤ 4) (hin : FieldIn buf.length first size) :
    ∃ buf', bfUpdate .switch first size buf f = .ok buf' ∧
      bfRead .switch first size buf' = .ok (f (fieldVal buf first size) % 2 ^ size) := by
  unfold FieldIn at hin
  have hr : bfRead .switch first size buf = .ok (fieldVal buf first size) := by
    simp only [bfRead]; exact getBitRaw_ok h1 (by omega) (by omega) (by omega)
  obtain ⟨buf', e, e2, -⟩ := c40_switch_partial first size (f (fieldVal buf first size) % 2 ^ 32) buf h1 h2 hin
  refine ⟨buf', by simp only [bfUpdate, hr, bind, Except.bind]; exact e, ?_⟩
  rw [e2, Nat.mod_mod_of_dvd]
  exact Nat.pow_dvd_pow 2 (by omega)

/-- C40 is false of the code for the default `KeepByteOrder`: writing 0x1234 to `BitField<0,16>` reads
back 0x3412, and writing 3 to `BitField<0,4>` reads back another value. -/
theorem c40_refuted :
    (∃ buf buf', buf.length = 8 ∧ bfWrite .keep 0 16 buf 0x1234 = .ok buf' ∧
      bfRead .keep 0 16 buf' = .ok 0x3412) ∧
    (∃ buf buf', buf.length = 8 ∧ bfWrite .keep 0 4 buf 3 = .ok buf' ∧
      bfRead .keep 0 4 buf' = .ok 0) :=
  ⟨⟨List.replicate 8 0, [0x12, 0x34, 0, 0, 0, 0, 0, 0], by decide, by decide, by decide⟩,
   ⟨List.replicate 8 0, [0x30, 0, 0, 0, 0, 0, 0, 0], by decide, by decide, by decide⟩⟩

end Ublox
