import Verif.Lemmas.Base
import Verif.Lemmas.Bits
import Verif.Props.Bits
import Verif.Spec.NavGlo

/-! Helper lemmas: the GLONASS Hamming test is the ICD's rule. -/

namespace Ublox.Nav

/-- Sum modulo 2 of `f 0, …, f (n-1)`. -/
def xorUpTo (f : Nat → Bool) : Nat → Bool
  | 0 => false
  | n + 1 => xor (xorUpTo f n) (f n)

theorem xorUpTo_congr {f g : Nat → Bool} {n : Nat} (h : ∀ i, i < n → f i = g i) : xorUpTo f n = xorUpTo g n := by
  induction n with
  | zero => rfl
  | succ n ih => simp only [xorUpTo]; rw [ih (fun i hi => h i (by omega)), h n (by omega)]

theorem xorUpTo_add (f : Nat → Bool) (m n : Nat) :
    xorUpTo f (m + n) = xor (xorUpTo f m) (xorUpTo (fun i => f (m + i)) n) := by
  induction n with
  | zero => simp [xorUpTo]
  | succ n ih =>
    rw [← Nat.add_assoc]
    simp only [xorUpTo]
    rw [ih, Bool.xor_assoc]

theorem xorUpTo_false (n : Nat) : xorUpTo (fun _ => false) n = false := by
  induction n with
  | zero => rfl
  | succ n ih => simp [xorUpTo, ih]

theorem xorUpTo_single (n q : Nat) (hq : q < n) (v : Bool) : xorUpTo (fun i => decide (i = q) && v) n = v := by
  induction n with
  | zero => omega
  | succ n ih =>
    simp only [xorUpTo]
    by_cases h : q = n
    · subst h
      rw [xorUpTo_congr (g := fun _ => false) (fun i hi => by simp; omega), xorUpTo_false]
      simp
    · rw [ih (by omega)]
      have : ¬ n = q := fun h' => h h'.symm
      simp [this]

theorem xorUpTo_xor (f g : Nat → Bool) (n : Nat) :
    xorUpTo (fun i => xor (f i) (g i)) n = xor (xorUpTo f n) (xorUpTo g n) := by
  induction n with
  | zero => rfl
  | succ n ih =>
    simp only [xorUpTo]; rw [ih]
    cases xorUpTo f n <;> cases xorUpTo g n <;> cases f n <;> cases g n <;> rfl

theorem foldl_xor (l : List Bool) (a : Bool) : l.foldl xor a = xor a (l.foldl xor false) := by
  induction l generalizing a with
  | nil => simp
  | cons b l ih => simp only [List.foldl_cons]; rw [ih, ih (xor false b)]; simp [Bool.xor_assoc]

/-- A checksum over a duplicate-free set is a masked sum over all bits. -/
theorem checksum_eq (bit : Nat → Bool) (s : List Nat) (n : Nat) (hn : ∀ b ∈ s, b < n) (hd : s.Nodup) :
    checksum bit s = xorUpTo (fun i => decide (i ∈ s) && bit i) n := by
  induction s with
  | nil => simp [checksum, xorUpTo_false]
  | cons a s ih =>
    unfold checksum at *
    rw [List.map_cons, List.foldl_cons, foldl_xor, ih (fun b hb => hn b (by simp [hb])) (List.nodup_cons.mp hd).2]
    have ha := (List.nodup_cons.mp hd).1
    rw [← xorUpTo_single n a (hn a (by simp)) (xor false (bit a)), ← xorUpTo_xor]
    apply xorUpTo_congr
    intro i _
    by_cases h : i = a
    · subst h; simp [ha]
    · simp [h]

/-- Parity of a byte. -/
def parity8 (b : Byte) : Bool := xorUpTo (fun i => b.getLsbD (7 - i)) 8

theorem xor8_ok (b : Byte) : xor8At b.toNat = .ok (parity8 b).toNat := by
  have : ∀ b : Fin 256, xor8At b.val = .ok (parity8 (BitVec.ofFin b)).toNat := by decide +kernel
  exact this b.toFin

theorem toNat_xor (a b : Bool) : a.toNat ^^^ b.toNat = (xor a b).toNat := by cases a <;> cases b <;> rfl

theorem gloRow_ok (buf ms : List Byte) : ∀ (j : Nat) (c : Bool), j + ms.length ≤ buf.length →
    gloRow buf ms j c.toNat =
      .ok (xor c (xorUpTo (fun i => bitAt ms i && bitAt buf (8 * j + i)) (8 * ms.length))).toNat := by
  induction ms with
  | nil => intro j c _; simp [gloRow, xorUpTo]
  | cons m ms ih =>
    intro j c hl
    simp only [List.length_cons] at hl
    simp only [gloRow]
    rw [rd_ok (by omega), ok_bind, xor8_ok, ok_bind, toNat_xor, ih (j + 1) _ (by omega)]
    congr 2
    rw [show 8 * (m :: ms).length = 8 + 8 * ms.length by simp; omega, xorUpTo_add, Bool.xor_assoc]
    congr 1
    congr 1
    · unfold parity8
      apply xorUpTo_congr
      intro i hi
      rw [bitAt_lt (buf := m :: ms) (by simp; omega), bitAt_lt (buf := buf) (i := 8 * j + i) (by omega)]
      simp only [show i / 8 = 0 by omega, show (8 * j + i) / 8 = j by omega, show i % 8 = i by omega,
        show (8 * j + i) % 8 = i by omega, List.getElem_cons_zero, BitVec.getLsbD_and]
      exact Bool.and_comm _ _
    · apply xorUpTo_congr
      intro i hi
      have e1 : bitAt (m :: ms) (8 + i) = bitAt ms i := by
        unfold bitAt
        rw [show (8 + i) / 8 = i / 8 + 1 by omega, show (8 + i) % 8 = i % 8 by omega, List.getElem?_cons_succ]
      rw [e1, show 8 * (j + 1) + i = 8 * j + (8 + i) by omega]

theorem xorUpTo_rev (f : Nat → Bool) (n : Nat) : xorUpTo (fun i => f (n - 1 - i)) n = xorUpTo f n := by
  induction n generalizing f with
  | zero => rfl
  | succ n ih =>
    have h1 : xorUpTo (fun i => f (n + 1 - 1 - i)) (n + 1) = xorUpTo (fun i => f (n + 1 - 1 - i)) (1 + n) := by
      rw [Nat.add_comm]
    rw [h1, xorUpTo_add]
    have h2 : xorUpTo (fun i => f (n + 1 - 1 - (1 + i))) n = xorUpTo f n := by
      rw [← ih f]
      apply xorUpTo_congr
      intro i hi
      congr 1; omega
    rw [h2]
    simp only [xorUpTo]
    rw [Nat.sub_zero, Nat.add_sub_cancel]
    cases xorUpTo f n <;> cases f n <;> rfl

/-- Row `k` of the mask table is the ICD's set `k`. -/
theorem masks_ok : ∀ k : Fin 8, (hammingMask[k.val]?.getD []).length = 11 ∧
    ∀ p : Fin 88, bitAt (hammingMask[k.val]?.getD []) p.val =
      (decide (p.val < 85) && decide ((85 - p.val) ∈ checkSets[k.val]?.getD [])) := by
  decide +kernel

theorem sets_ok : ∀ s ∈ checkSets, s.Nodup ∧ ∀ b ∈ s, 1 ≤ b ∧ b < 86 := by decide +kernel

theorem row_checksum (buf : List Byte) (hl : 11 ≤ buf.length) (k : Nat) (hk : k < 8) :
    gloRow buf (hammingMask[k]?.getD []) 0 0 =
      .ok (checksum (strBit buf) (checkSets[k]?.getD [])).toNat := by
  obtain ⟨h1, h2⟩ := masks_ok ⟨k, hk⟩
  have h1 : (hammingMask[k]?.getD []).length = 11 := h1
  have := gloRow_ok buf (hammingMask[k]?.getD []) 0 false (by omega)
  rw [show false.toNat = 0 from rfl] at this
  rw [this, h1]
  refine congrArg (fun b : Bool => (Except.ok b.toNat : M Nat)) ?_
  rw [Bool.false_xor]
  have hmem : (checkSets[k]?.getD []) ∈ checkSets := by
    have : k < checkSets.length := hk
    rw [List.getElem?_eq_getElem this]
    exact List.getElem_mem _
  obtain ⟨nd, hb⟩ := sets_ok _ hmem
  rw [checksum_eq _ _ 86 (fun b hb' => (hb b hb').2) nd]
  rw [show 8 * 11 = 86 + 2 from rfl, xorUpTo_add]
  have z : xorUpTo (fun i => bitAt (hammingMask[k]?.getD []) (86 + i) && bitAt buf (8 * 0 + (86 + i))) 2 = false := by
    rw [xorUpTo_congr (g := fun _ => false), xorUpTo_false]
    intro i hi
    have := h2 ⟨86 + i, by omega⟩
    dsimp only at this
    rw [this, decide_eq_false (by omega)]
    rfl
  rw [z, Bool.xor_false, ← xorUpTo_rev]
  apply xorUpTo_congr
  intro i hi
  have := h2 ⟨86 - 1 - i, by omega⟩
  dsimp only at this
  rw [this]
  unfold strBit
  by_cases h0 : i = 0
  · subst h0
    have : ¬ (0 ∈ checkSets[k]?.getD []) := fun h => absurd (hb 0 h).1 (by omega)
    simp [this]
  · rw [decide_eq_true (show 86 - 1 - i < 85 by omega), show 85 - (86 - 1 - i) = i by omega,
      show 8 * 0 + (86 - 1 - i) = 85 - i by omega, Bool.true_and]

theorem gloRows_ok (buf : List Byte) (hl : 11 ≤ buf.length) : ∀ (j : Nat) (n c : Nat), j ≤ 8 →
    gloRows buf (hammingMask.drop j) n c =
      .ok (n + ((checksums (strBit buf)).drop j).countP id,
        ((((checksums (strBit buf)).drop j).getLast?).map Bool.toNat).getD c) := by
  suffices H : ∀ i j n c, j + i = 8 → gloRows buf (hammingMask.drop j) n c =
      .ok (n + ((checksums (strBit buf)).drop j).countP id,
        ((((checksums (strBit buf)).drop j).getLast?).map Bool.toNat).getD c) from
    fun j n c hj => H (8 - j) j n c (by omega)
  intro i
  induction i with
  | zero =>
    intro j n c hj
    have h1 : hammingMask.drop j = [] := by rw [show j = 8 by omega]; rfl
    have h2 : (checksums (strBit buf)).drop j = [] := by rw [show j = 8 by omega]; rfl
    rw [h1, h2]; rfl
  | succ i ih =>
    intro j n c hj
    have e1 : hammingMask.drop j = (hammingMask[j]?.getD []) :: hammingMask.drop (j + 1) := by
      have hlt : j < hammingMask.length := by show j < 8; omega
      rw [List.drop_eq_getElem_cons hlt, List.getElem?_eq_getElem hlt]; rfl
    have e2 : (checksums (strBit buf)).drop j = checksum (strBit buf) (checkSets[j]?.getD []) ::
        (checksums (strBit buf)).drop (j + 1) := by
      have hlt : j < checkSets.length := by show j < 8; omega
      unfold checksums
      rw [List.drop_eq_getElem_cons (by simpa using hlt), List.getElem_map, List.getElem?_eq_getElem hlt]; rfl
    rw [e1, e2]
    simp only [gloRows]
    rw [row_checksum buf hl j (by omega), ok_bind, ih (j + 1) _ _ (by omega)]
    congr 2
    · cases checksum (strBit buf) (checkSets[j]?.getD []) <;> simp
      omega
    · cases (checksums (strBit buf)).drop (j + 1) with
      | nil => simp
      | cons a l =>
        obtain ⟨x, hx⟩ : ∃ x, (a :: l).getLast? = some x := ⟨_, List.getLast?_eq_some_getLast (by simp)⟩
        rw [List.getLast?_cons_cons, hx]; rfl

/-- `gloTest` is the ICD's rule. -/
theorem gloTest_ok (buf : List Byte) (hl : 11 ≤ buf.length) : gloTest buf = .ok (usable (strBit buf)) := by
  have := gloRows_ok buf hl 0 0 0 (by omega)
  rw [List.drop_zero, List.drop_zero] at this
  unfold gloTest
  rw [this, ok_bind]
  refine congrArg (fun b : Bool => (Except.ok b : M Bool)) ?_
  unfold usable
  have hlen : (checksums (strBit buf)).length = 8 := by unfold checksums; rw [List.length_map]; rfl
  generalize checksums (strBit buf) = l at hlen
  match l, hlen with
  | [a, b, c, d, e, f, g, h], _ =>
    cases a <;> cases b <;> cases c <;> cases d <;> cases e <;> cases f <;> cases g <;> cases h <;> decide

theorem checksum_flip (bit : Nat → Bool) (q : Nat) (s : List Nat) (hs : s ∈ checkSets) :
    checksum (flip bit q) s = xor (checksum bit s) (decide (q ∈ s)) := by
  obtain ⟨nd, hb⟩ := sets_ok s hs
  rw [checksum_eq _ _ 86 (fun b h => (hb b h).2) nd, checksum_eq _ _ 86 (fun b h => (hb b h).2) nd]
  by_cases hq : q ∈ s
  · rw [decide_eq_true hq, ← xorUpTo_single 86 q (hb q hq).2 true, ← xorUpTo_xor]
    apply xorUpTo_congr
    intro i _
    unfold flip
    by_cases hi : i = q
    · subst hi; simp [hq]
    · simp [hi]
  · rw [decide_eq_false hq, Bool.xor_false]
    apply xorUpTo_congr
    intro i _
    unfold flip
    by_cases hi : i = q
    · subst hi; simp [hq]
    · simp [hi]

theorem checksums_flip (bit : Nat → Bool) (q : Nat) :
    checksums (flip bit q) = (checkSets.map fun s => xor (checksum bit s) (decide (q ∈ s))) := by
  unfold checksums
  apply List.map_congr_left
  intro s hs
  exact checksum_flip bit q s hs

end Ublox.Nav
