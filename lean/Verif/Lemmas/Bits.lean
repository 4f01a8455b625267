import Verif.Model.BitTools
import Verif.Spec.Bits

/-! Helper lemmas about bit fields. -/

namespace Ublox

theorem rd_ok {buf : List Byte} {i : Nat} (h : i < buf.length) : rd buf i = .ok buf[i] := by
  simp [rd, h]

theorem rd_err {buf : List Byte} {i : Nat} (h : buf.length ≤ i) : rd buf i = .error .oobRead := by
  simp [rd, h]

theorem wr_ok {buf : List Byte} {i : Nat} {b : Byte} (h : i < buf.length) :
    wr buf i b = .ok (buf.set i b) := by
  simp [wr, h]

/-! ### bitsVal -/

theorem bitsVal_lt (f : Nat → Bool) (pos n : Nat) : bitsVal f pos n < 2 ^ n := by
  induction n with
  | zero => simp [bitsVal]
  | succ n ih =>
    have : (f (pos + n)).toNat < 2 := Bool.toNat_lt _
    simp only [bitsVal, Nat.pow_succ]; omega

theorem bitsVal_add (f : Nat → Bool) (pos n m : Nat) :
    bitsVal f pos (n + m) = bitsVal f pos n * 2 ^ m + bitsVal f (pos + n) m := by
  induction m with
  | zero => simp [bitsVal]
  | succ m ih =>
    rw [← Nat.add_assoc, bitsVal, ih, bitsVal, Nat.pow_succ, Nat.add_assoc pos n m]
    have : bitsVal f pos n * (2 ^ m * 2) = 2 * (bitsVal f pos n * 2 ^ m) := by
      rw [← Nat.mul_assoc, Nat.mul_comm]
    omega

theorem bitsVal_congr {f g : Nat → Bool} {pos pos' n : Nat}
    (h : ∀ k, k < n → f (pos + k) = g (pos' + k)) : bitsVal f pos n = bitsVal g pos' n := by
  induction n with
  | zero => rfl
  | succ n ih =>
    simp only [bitsVal]
    rw [ih (fun k hk => h k (by omega)), h n (by omega)]

theorem bitsVal_div (f : Nat → Bool) (pos n m : Nat) :
    bitsVal f pos (n + m) / 2 ^ m = bitsVal f pos n := by
  rw [bitsVal_add, Nat.mul_comm, Nat.mul_add_div (Nat.two_pow_pos m),
    Nat.div_eq_of_lt (bitsVal_lt _ _ _), Nat.add_zero]

theorem bitsVal_mod (f : Nat → Bool) (pos n m : Nat) :
    bitsVal f pos (n + m) % 2 ^ m = bitsVal f (pos + n) m := by
  rw [bitsVal_add, Nat.mul_comm, Nat.mul_add_mod, Nat.mod_eq_of_lt (bitsVal_lt _ _ _)]

theorem testBit_bitsVal (f : Nat → Bool) (pos n k : Nat) :
    (bitsVal f pos n).testBit k = (decide (k < n) && f (pos + (n - 1 - k))) := by
  induction n generalizing k with
  | zero => simp [bitsVal]
  | succ n ih =>
    cases k with
    | zero =>
      simp only [bitsVal, Nat.testBit_zero]
      cases hfn : f (pos + n) <;> simp [hfn]
    | succ k =>
      rw [Nat.testBit_succ]
      have : bitsVal f pos (n + 1) / 2 = bitsVal f pos n := by
        have := bitsVal_div f pos n 1; simpa using this
      rw [this, ih]
      by_cases h : k < n
      · simp [h]; congr 1; omega
      · simp [h]

/-- bits determine the number -/
theorem bitsVal_eq_of_testBit (f : Nat → Bool) (pos n v : Nat) (hv : v < 2 ^ n)
    (h : ∀ k, k < n → f (pos + k) = v.testBit (n - 1 - k)) : bitsVal f pos n = v := by
  apply Nat.eq_of_testBit_eq
  intro k
  rw [testBit_bitsVal]
  by_cases hk : k < n
  · rw [h _ (by omega)]
    have : n - 1 - (n - 1 - k) = k := by omega
    simp [hk, this]
  · simp only [hk, decide_false, Bool.false_and]
    exact (Nat.testBit_lt_two_pow (Nat.lt_of_lt_of_le hv (Nat.pow_le_pow_right (by omega) (by omega)))).symm

theorem bitAt_lt {buf : List Byte} {i : Nat} (h : i / 8 < buf.length) :
    bitAt buf i = buf[i / 8].getLsbD (7 - i % 8) := by
  simp [bitAt, h]

theorem byte_eq_bitsVal {buf : List Byte} {k : Nat} (h : k < buf.length) :
    buf[k].toNat = fieldVal buf (8 * k) 8 := by
  symm
  apply bitsVal_eq_of_testBit
  · exact buf[k].isLt
  · intro j hj
    have h1 : (8 * k + j) / 8 = k := by omega
    have h2 : (8 * k + j) % 8 = j := by omega
    have h3 : (8 * k + j) / 8 < buf.length := by omega
    rw [bitAt_lt h3]
    simp only [h1, h2, BitVec.getLsbD]

/-! ### getBit -/

theorem getBitLoop_ok (W : Nat) (buf : List Byte) (len : Nat) (fuel i p0 n tmp : Nat)
    (hf : len ≤ i + 8 * fuel)
    (hW : 8 * n + (len - i + 7) / 8 * 8 ≤ W)
    (hb : p0 + n + (len - i + 7) / 8 ≤ buf.length) (hn : 1 ≤ n)
    (ht : tmp = fieldVal buf (8 * p0) (8 * n)) :
    getBitLoop W buf len fuel i (p0 + n - 1) tmp
      = .ok (fieldVal buf (8 * p0) (8 * (n + (len - i + 7) / 8))) := by
  induction fuel generalizing i n tmp with
  | zero =>
    have : (len - i + 7) / 8 = 0 := by omega
    simp [getBitLoop, this, ht]
  | succ fuel ih =>
    unfold getBitLoop
    by_cases h : i < len
    · rw [if_pos h]
      have e : p0 + n - 1 + 1 = p0 + n := by omega
      have hlt : p0 + n < buf.length := by omega
      have hq : (len - i + 7) / 8 = (len - (i + 8) + 7) / 8 + 1 := by omega
      rw [e, rd_ok hlt]
      show getBitLoop W buf len fuel (i + 8) (p0 + n) _ = _
      have hT : tmp < 2 ^ (8 * n) := by rw [ht]; exact bitsVal_lt _ _ _
      have hbv := byte_eq_bitsVal hlt
      have hx : (tmp <<< 8 % 2 ^ W ||| buf[p0 + n].toNat) = fieldVal buf (8 * p0) (8 * (n + 1)) := by
        have h1 : tmp <<< 8 < 2 ^ W := by
          rw [Nat.shiftLeft_eq]
          calc tmp * 2 ^ 8 < 2 ^ (8 * n) * 2 ^ 8 := by
                exact Nat.mul_lt_mul_of_pos_right hT (by decide)
            _ = 2 ^ (8 * n + 8) := (Nat.pow_add ..).symm
            _ ≤ 2 ^ W := Nat.pow_le_pow_right (by decide) (by omega)
        rw [Nat.mod_eq_of_lt h1, ← Nat.shiftLeft_add_eq_or_of_lt buf[p0 + n].isLt,
          Nat.shiftLeft_eq, hbv, ht]
        have : 8 * (n + 1) = 8 * n + 8 := by omega
        rw [this]; unfold fieldVal; rw [bitsVal_add]
        congr 2; omega
      have := ih (i + 8) (n + 1) _ (by omega) (by omega) (by omega) (by omega) hx
      have e2 : p0 + (n + 1) - 1 = p0 + n := by omega
      rw [e2] at this
      rw [this, hq]
      congr 3; omega
    · rw [if_neg h]
      have : (len - i + 7) / 8 = 0 := by omega
      simp [this, ht]

theorem getBitRaw_ok {W R : Nat} {buf : List Byte} {pos len : Nat} (h1 : 1 ≤ len)
    (hW : (pos % 8 + len + 7) / 8 * 8 ≤ W) (hR : len ≤ R) (hb : pos + len ≤ 8 * buf.length) :
    getBitRaw W R buf pos len = .ok (fieldVal buf pos len) := by
  unfold getBitRaw
  have hp : pos / 8 < buf.length := by omega
  rw [rd_ok hp]
  have hl := getBitLoop_ok W buf len len (8 - pos % 8) (pos / 8) 1 buf[pos / 8].toNat (by omega)
    (by omega) (by omega) (by omega) (by rw [byte_eq_bitsVal hp])
  have e : pos / 8 + 1 - 1 = pos / 8 := by omega
  rw [e] at hl
  simp only [bind, Except.bind, hl]
  congr 1
  have hs : 8 * (1 + (len - (8 - pos % 8) + 7) / 8)
      = (pos % 8 + len) + (7 - (pos + len - 1) % 8) := by omega
  rw [hs, Nat.shiftRight_eq_div_pow, Nat.and_two_pow_sub_one_eq_mod]
  unfold fieldVal
  rw [bitsVal_div, bitsVal_mod]
  have : 8 * (pos / 8) + pos % 8 = pos := by omega
  rw [this]
  exact Nat.mod_eq_of_lt (Nat.lt_of_lt_of_le (bitsVal_lt _ _ _) (Nat.pow_le_pow_right (by decide) hR))

theorem getBitLoop_err (W : Nat) (buf : List Byte) (len : Nat) (fuel i p tmp : Nat)
    (hf : len ≤ i + 8 * fuel) (hp : p < buf.length)
    (hb : buf.length < p + 1 + (len - i + 7) / 8) :
    getBitLoop W buf len fuel i p tmp = .error .oobRead := by
  induction fuel generalizing i p tmp with
  | zero => omega
  | succ fuel ih =>
    unfold getBitLoop
    have h : i < len := by omega
    rw [if_pos h]
    by_cases hp' : p + 1 < buf.length
    · rw [rd_ok hp']
      exact ih _ _ _ (by omega) hp' (by omega)
    · rw [rd_err (by omega)]; rfl

theorem getBitRaw_err {W R : Nat} {buf : List Byte} {pos len : Nat} (h1 : 1 ≤ len)
    (hb : 8 * buf.length < pos + len) :
    getBitRaw W R buf pos len = .error .oobRead := by
  unfold getBitRaw
  by_cases hp : pos / 8 < buf.length
  · rw [rd_ok hp]
    have := getBitLoop_err W buf len len (8 - pos % 8) (pos / 8) buf[pos / 8].toNat (by omega) hp (by omega)
    simp [bind, Except.bind, this]
  · rw [rd_err (by omega)]; rfl

theorem typeWidth_ge {len : Nat} (h : len ≤ 64) : len ≤ typeWidth len := by
  unfold typeWidth; split <;> (try split) <;> (try split) <;> omega

theorem typeWidth_round {len pos : Nat} (h : len ≤ 56) :
    (pos % 8 + len + 7) / 8 * 8 ≤ typeWidth (len + 8) := by
  unfold typeWidth; split <;> (try split) <;> (try split) <;> omega

theorem getBit_ok {len : Nat} {buf : List Byte} {pos : Nat} (h1 : 1 ≤ len) (h2 : len ≤ 56)
    (hb : pos + len ≤ 8 * buf.length) : getBit len buf pos = .ok (fieldVal buf pos len) :=
  getBitRaw_ok h1 (typeWidth_round h2) (typeWidth_ge (by omega)) hb

theorem getBitRt_ok {len : Nat} {buf : List Byte} {pos : Nat} (h1 : 1 ≤ len) (h2 : len ≤ 32)
    (hb : pos + len ≤ 8 * buf.length) : getBitRt buf pos len = .ok (fieldVal buf pos len) :=
  getBitRaw_ok h1 (by omega) h2 hb

/-! ### sign extension -/

theorem signExt_eq {W R len v : Nat} (h1 : 1 ≤ len) (hR : len ≤ R) (hRW : R ≤ W) (hv : v < 2 ^ len) :
    signExt W R len v = twosComp len v := by
  obtain ⟨k, rfl⟩ : ∃ k, len = k + 1 := ⟨len - 1, by omega⟩
  have hpow : 2 ^ (k + 1) = 2 * 2 ^ k := by rw [Nat.pow_succ]; omega
  have hR2 : 2 ^ (k + 1) ≤ 2 ^ R := Nat.pow_le_pow_right (by decide) hR
  have htest : (v &&& 2 ^ k ≠ 0) ↔ ¬ v < 2 ^ k := by
    have hvk : v / 2 ^ k < 2 := Nat.div_lt_of_lt_mul (by omega)
    have hb : v &&& 2 ^ k = (v / 2 ^ k % 2) * 2 ^ k := by
      apply Nat.eq_of_testBit_eq
      intro j
      have ht : v.testBit k = decide (v / 2 ^ k % 2 = 1) := Nat.testBit_eq_decide_div_mod_eq
      rw [Nat.testBit_and, Nat.testBit_two_pow]
      rcases Nat.mod_two_eq_zero_or_one (v / 2 ^ k) with h | h
      · by_cases hj : k = j
        · subst hj; simp [h, ht]
        · simp [h, hj]
      · by_cases hj : k = j
        · subst hj; simp [h, ht]
        · simp [h, hj]
    rw [hb]
    constructor
    · intro h hlt
      apply h; rw [Nat.div_eq_of_lt hlt]; simp
    · intro h
      have : 0 < v / 2 ^ k := Nat.div_pos (by omega) (Nat.two_pow_pos k)
      have h1 : v / 2 ^ k = 1 := by omega
      rw [h1]; simp
  unfold signExt twosComp
  simp only [Nat.add_sub_cancel]
  by_cases hlt : v < 2 ^ k
  · rw [if_neg (by rw [htest]; omega), if_pos hlt]
    rw [BitVec.toInt_ofNat', Int.bmod_eq_of_le]
    all_goals norm_cast
    all_goals omega
  · rw [if_pos (htest.mpr hlt), if_neg hlt]
    -- the OR adds 2^W - 2^len (mod 2^W); reduce mod 2^R
    have hmod : (v ||| (2 ^ W - 1) <<< (k + 1) % 2 ^ W) % 2 ^ R = 2 ^ R - 2 ^ (k + 1) + v := by
      have hval : 2 ^ R - 2 ^ (k + 1) + v = ((2 ^ (R - (k + 1)) - 1) <<< (k + 1)) ||| v := by
        rw [← Nat.shiftLeft_add_eq_or_of_lt hv, Nat.shiftLeft_eq, Nat.sub_mul, ← Nat.pow_add]
        congr 2
        · congr 1; omega
        · simp
      rw [hval]
      apply Nat.eq_of_testBit_eq
      intro j
      simp only [Nat.testBit_mod_two_pow, Nat.testBit_or, Nat.testBit_shiftLeft, Nat.testBit_two_pow_sub_one]
      by_cases hj : j < k + 1
      · have : ¬ (k + 1 ≤ j) := by omega
        have : j < R := by omega
        simp [*]
      · have hvj : v.testBit j = false :=
          Nat.testBit_lt_two_pow (Nat.lt_of_lt_of_le hv (Nat.pow_le_pow_right (by decide) (by omega)))
        have h2 : k + 1 ≤ j := by omega
        simp only [hvj, h2, decide_true, Bool.true_and, Bool.false_or, Bool.or_false]
        by_cases hjR : j < R
        · have : j < W := by omega
          have : j - (k + 1) < W := by omega
          have : j - (k + 1) < R - (k + 1) := by omega
          simp [*]
        · have : ¬ (j - (k + 1) < R - (k + 1)) := by omega
          simp [*]
    rw [BitVec.toInt_ofNat']
    have : ((v ||| (2 ^ W - 1) <<< (k + 1) % 2 ^ W : Nat) : Int).bmod (2 ^ R)
        = (((v ||| (2 ^ W - 1) <<< (k + 1) % 2 ^ W) % 2 ^ R : Nat) : Int).bmod (2 ^ R) := by
      rw [Int.natCast_emod]; exact (Int.emod_bmod ..).symm
    rw [this, hmod]
    have h3 : ((2 ^ R - 2 ^ (k + 1) + v : Nat) : Int) = ((v : Int) - 2 ^ (k + 1)) + (2 ^ R : Nat) := by
      have : ((2 ^ (k+1) : Nat) : Int) = 2 ^ (k+1) := by norm_cast
      omega
    rw [h3, Int.add_bmod_right]
    apply Int.bmod_eq_of_le
    · have : ((2 ^ (k+1) : Nat) : Int) = 2 ^ (k+1) := by norm_cast
      omega
    · have : ((2 ^ (k+1) : Nat) : Int) = 2 ^ (k+1) := by norm_cast
      omega

/-! ### setBit -/

theorem setByte_ok {buf : List Byte} {p wm m : Nat} (h : p < buf.length) :
    setByte buf p wm m = .ok (buf.set p ((buf[p] &&& BitVec.ofNat 8 wm) ||| BitVec.ofNat 8 m)) := by
  simp [setByte, rd_ok h, wr_ok h, bind, Except.bind]

theorem bitAt_set {buf : List Byte} {p : Nat} (b : Byte) (h : p < buf.length) (i : Nat) :
    bitAt (buf.set p b) i = if i / 8 = p then b.getLsbD (7 - i % 8) else bitAt buf i := by
  unfold bitAt
  by_cases hi : i / 8 = p
  · subst hi; simp [h]
  · rw [if_neg hi, List.getElem?_set_ne (Ne.symm hi)]

theorem bitAt_setByte {buf buf' : List Byte} {p wm m : Nat} (h : p < buf.length)
    (hr : setByte buf p wm m = .ok buf') (i : Nat) :
    buf'.length = buf.length ∧
    bitAt buf' i = if i / 8 = p then (bitAt buf i && wm.testBit (7 - i % 8)) || m.testBit (7 - i % 8)
      else bitAt buf i := by
  rw [setByte_ok h] at hr
  cases hr
  refine ⟨by simp, ?_⟩
  rw [bitAt_set _ h]
  split
  · rename_i hi
    have h8 : 7 - i % 8 < 8 := by omega
    rw [bitAt_lt (by omega)]
    simp only [hi, BitVec.getLsbD_or, BitVec.getLsbD_and, BitVec.getLsbD_ofNat, h8, decide_true, Bool.true_and]
  · rfl

/-- Effect of the byte loop. -/
theorem setBitLoop_ok (len fuel i p wm m : Nat) (buf : List Byte)
    (hf : len ≤ i + 8 * fuel) (hroom : len ≤ i + 8 * p) (hp : p ≤ buf.length) :
    ∃ buf', setBitLoop len fuel i p wm m buf = .ok buf' ∧ buf'.length = buf.length ∧
      ∀ j, bitAt buf' j =
        if j / 8 < p ∧ i + 8 * (p - 1 - j / 8) < len then
          (bitAt buf j && wm.testBit (8 * p + 7 - j)) || m.testBit (8 * p + 7 - j)
        else bitAt buf j := by
  induction fuel generalizing i p wm m buf with
  | zero =>
    refine ⟨buf, rfl, rfl, fun j => ?_⟩
    rw [if_neg]; omega
  | succ fuel ih =>
    unfold setBitLoop
    by_cases h : i < len
    · rw [if_pos h]
      cases p with
      | zero => omega
      | succ p' =>
        have hlt : p' < buf.length := by omega
        have hs := setByte_ok (buf := buf) (p := p') (wm := wm >>> 8) (m := m >>> 8) hlt
        have hb := fun j => bitAt_setByte hlt hs j
        obtain ⟨buf', h1, h2, h3⟩ := ih (i + 8) p' (wm >>> 8) (m >>> 8) _ (by omega) (by omega)
          (by rw [(hb 0).1]; omega)
        refine ⟨buf', ?_, by rw [h2, (hb 0).1], fun j => ?_⟩
        · simp only [bind, Except.bind, hs]; exact h1
        · rw [h3 j, (hb j).2]
          by_cases hj : j / 8 = p'
          · have c1 : ¬ (j / 8 < p' ∧ i + 8 + 8 * (p' - 1 - j / 8) < len) := by omega
            have c2 : j / 8 < p' + 1 ∧ i + 8 * (p' + 1 - 1 - j / 8) < len := by omega
            rw [if_neg c1, if_pos hj, if_pos c2]
            simp only [Nat.testBit_shiftRight]
            have e : 8 + (7 - j % 8) = 8 * (p' + 1) + 7 - j := by omega
            rw [e]
          · simp only [if_neg hj, Nat.testBit_shiftRight]
            by_cases c : j / 8 < p' ∧ i + 8 + 8 * (p' - 1 - j / 8) < len
            · have c2 : j / 8 < p' + 1 ∧ i + 8 * (p' + 1 - 1 - j / 8) < len := by omega
              have e : 8 + (8 * p' + 7 - j) = 8 * (p' + 1) + 7 - j := by omega
              rw [if_pos c, if_pos c2, e]
            · have c2 : ¬ (j / 8 < p' + 1 ∧ i + 8 * (p' + 1 - 1 - j / 8) < len) := by omega
              rw [if_neg c, if_neg c2]
    · rw [if_neg h]
      refine ⟨buf, rfl, rfl, fun j => ?_⟩
      rw [if_neg]; omega

theorem setBitW_ok {W len : Nat} {buf : List Byte} {pos data : Nat} (h1 : 1 ≤ len)
    (hW : (pos % 8 + len + 7) / 8 * 8 ≤ W) (hb : pos + len ≤ 8 * buf.length) :
    ∃ buf', setBitW W len buf pos data = .ok buf' ∧ buf'.length = buf.length ∧
      ∀ j, bitAt buf' j =
        if pos ≤ j ∧ j < pos + len then data.testBit (pos + len - 1 - j) else bitAt buf j := by
  unfold setBitW
  have hlt : (pos + len - 1) / 8 < buf.length := by omega
  generalize hs : 7 - (pos + len - 1) % 8 = s
  generalize hm : ((data &&& 2 ^ len - 1) <<< s) % 2 ^ W = m
  generalize hw : 2 ^ W - 1 - ((2 ^ len - 1) <<< s) % 2 ^ W = wm
  have tm : ∀ k, k < W → m.testBit k = (decide (s ≤ k) && decide (k < s + len) && data.testBit (k - s)) := by
    intro k hk
    rw [← hm]
    simp only [Nat.testBit_mod_two_pow, Nat.testBit_shiftLeft, Nat.testBit_and, Nat.testBit_two_pow_sub_one, hk,
      decide_true, Bool.true_and]
    by_cases hsk : s ≤ k
    · have : (k - s < len) ↔ (k < s + len) := by omega
      simp [hsk, this, Bool.and_comm]
    · simp [hsk]
  have tw : ∀ k, k < W → wm.testBit k = !(decide (s ≤ k) && decide (k < s + len)) := by
    intro k hk
    rw [← hw, Nat.sub_sub, Nat.add_comm 1, Nat.testBit_two_pow_sub_succ (Nat.mod_lt _ (Nat.two_pow_pos W))]
    simp only [Nat.testBit_mod_two_pow, Nat.testBit_shiftLeft, Nat.testBit_two_pow_sub_one, hk,
      decide_true, Bool.true_and]
    by_cases hsk : s ≤ k
    · have : (k - s < len) ↔ (k < s + len) := by omega
      simp [hsk, this]
    · simp [hsk]
  have hset := setByte_ok (buf := buf) (p := (pos + len - 1) / 8) (wm := wm) (m := m) hlt
  have hb1 := fun j => bitAt_setByte hlt hset j
  obtain ⟨buf', e1, e2, e3⟩ := setBitLoop_ok len len ((pos + len - 1) % 8 + 1) ((pos + len - 1) / 8) wm m _
    (by omega) (by omega) (by rw [(hb1 0).1]; omega)
  refine ⟨buf', ?_, by rw [e2, (hb1 0).1], fun j => ?_⟩
  · simp only [bind, Except.bind, hs, hm, hw, hset]; exact e1
  · rw [e3 j, (hb1 j).2]
    have main : ∀ k, k = 8 * ((pos + len - 1) / 8) + 7 - j → j / 8 ≤ (pos + len - 1) / 8 → k < W →
        ((bitAt buf j && wm.testBit k) || m.testBit k)
        = if pos ≤ j ∧ j < pos + len then data.testBit (pos + len - 1 - j) else bitAt buf j := by
      intro k hk hle hkW
      rw [tm k hkW, tw k hkW]
      by_cases c : pos ≤ j ∧ j < pos + len
      · have a1 : s ≤ k := by omega
        have a2 : k < s + len := by omega
        have a3 : k - s = pos + len - 1 - j := by omega
        rw [if_pos c]; simp [a1, a2, a3]
      · rw [if_neg c]
        have : (decide (s ≤ k) && decide (k < s + len)) = false := by
          simp only [Bool.and_eq_false_iff, decide_eq_false_iff_not]; omega
        simp [this]
    by_cases hj : j / 8 = (pos + len - 1) / 8
    · rw [if_neg (by omega), if_pos hj]
      have e : 7 - j % 8 = 8 * ((pos + len - 1) / 8) + 7 - j := by omega
      rw [e]
      exact main _ rfl (by omega) (by omega)
    · simp only [if_neg hj]
      by_cases c : j / 8 < (pos + len - 1) / 8 ∧
          (pos + len - 1) % 8 + 1 + 8 * ((pos + len - 1) / 8 - 1 - j / 8) < len
      · rw [if_pos c]
        exact main _ rfl (by omega) (by omega)
      · rw [if_neg c, if_neg (by omega)]

theorem setBit_ok {len : Nat} {buf : List Byte} {pos data : Nat} (h1 : 1 ≤ len) (h2 : len ≤ 56)
    (hb : pos + len ≤ 8 * buf.length) :
    ∃ buf', setBit len buf pos data = .ok buf' ∧ buf'.length = buf.length ∧
      ∀ j, bitAt buf' j =
        if pos ≤ j ∧ j < pos + len then data.testBit (pos + len - 1 - j) else bitAt buf j :=
  setBitW_ok h1 (typeWidth_round h2) hb

theorem setBitRt_ok {len : Nat} {buf : List Byte} {pos data : Nat} (h1 : 1 ≤ len) (h2 : len ≤ 56)
    (hb : pos + len ≤ 8 * buf.length) :
    ∃ buf', setBitRt buf pos data len = .ok buf' ∧ buf'.length = buf.length ∧
      ∀ j, bitAt buf' j =
        if pos ≤ j ∧ j < pos + len then data.testBit (pos + len - 1 - j) else bitAt buf j :=
  setBitW_ok h1 (by omega) hb

/-- buffers of equal length with equal bits are equal -/
theorem ext_bitAt {a b : List Byte} (hl : a.length = b.length)
    (h : ∀ i, i < 8 * a.length → bitAt a i = bitAt b i) : a = b := by
  apply List.ext_getElem hl
  intro k h1 h2
  apply BitVec.eq_of_getLsbD_eq
  intro j hj
  have := h (8 * k + (7 - j)) (by omega)
  rw [bitAt_lt (by omega), bitAt_lt (by omega)] at this
  have e1 : (8 * k + (7 - j)) / 8 = k := by omega
  have e2 : 7 - (8 * k + (7 - j)) % 8 = j := by omega
  simpa only [e1, e2] using this

end Ublox
