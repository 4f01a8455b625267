import Verif.Spec.Screen
import Verif.Props.Ubx

/-!
# C138: reading a configuration item
-/

namespace Ublox
namespace Ubx

theorem leU_skip (a b : List Byte) (n : Nat) : ∀ off, leU (a ++ b) (a.length + off) n = leU b off n := by
  induction n with
  | zero => intro off; rfl
  | succ n ih =>
    intro off
    show ((a ++ b).getD (a.length + off) 0).toNat + 256 * leU (a ++ b) (a.length + off + 1) n = _
    rw [Nat.add_assoc, ih]
    have : (a ++ b).getD (a.length + off) 0 = b.getD off 0 := by
      simp [List.getD_eq_getElem?_getD, List.getElem?_append_right]
    rw [this]
    rfl

theorem leU_drop (l : List Byte) (n k off : Nat) : leU (l.drop k) off n = leU l (k + off) n := by
  induction n generalizing off with
  | zero => rfl
  | succ n ih =>
    show ((l.drop k).getD off 0).toNat + 256 * leU (l.drop k) (off + 1) n = _
    rw [ih]
    have : (l.drop k).getD off 0 = l.getD (k + off) 0 := by simp [List.getD_eq_getElem?_getD]
    rw [this]
    rfl

theorem leU_cons (x : Byte) (b : List Byte) (n off : Nat) : leU (x :: b) (off + 1) n = leU b off n := by
  have := leU_skip [x] b n off
  rw [Nat.add_comm] at this
  exact this

theorem leU_value_long : ∀ (n w v : Nat) (r : List Byte), n ≤ w → leU (leBytes w v ++ r) 0 n = v % 256 ^ n
  | 0, _, v, _, _ => by rw [Nat.pow_zero, Nat.mod_one]; rfl
  | n + 1, 0, _, _, h => absurd h (by omega)
  | n + 1, w + 1, v, r, h => by
    show (BitVec.ofNat 8 v : Byte).toNat + 256 * leU (BitVec.ofNat 8 v :: (leBytes w (v / 256) ++ r)) (0 + 1) n = _
    rw [leU_cons, leU_value_long n w (v / 256) r (by omega), BitVec.toNat_ofNat, Nat.pow_succ (n := 256), Nat.mul_comm (256 ^ n),
      Nat.mod_mul]

theorem leU_value_short : ∀ (n w v : Nat) (r : List Byte), w ≤ n → v < 256 ^ w →
    leU (leBytes w v ++ r) 0 n = v + 256 ^ w * leU r 0 (n - w)
  | n, 0, v, r, _, hv => by
    have : v = 0 := by simpa using hv
    subst this
    show leU r 0 n = _
    simp
  | 0, w + 1, _, _, h, _ => absurd h (by omega)
  | n + 1, w + 1, v, r, h, hv => by
    show (BitVec.ofNat 8 v : Byte).toNat + 256 * leU (BitVec.ofNat 8 v :: (leBytes w (v / 256) ++ r)) (0 + 1) n = _
    have hq : v / 256 < 256 ^ w := Nat.div_lt_of_lt_mul (by rw [Nat.mul_comm, ← Nat.pow_succ]; exact hv)
    rw [leU_cons, leU_value_short n w (v / 256) r (by omega) hq, BitVec.toNat_ofNat, Nat.pow_succ (n := 256), Nat.add_sub_add_right]
    have := Nat.mod_add_div v 256
    generalize leU r 0 (n - w) = z
    rw [Nat.mul_add, ← Nat.add_assoc, Nat.mul_comm (256 ^ w) 256, Nat.mul_assoc]
    show v % 256 + _ + _ = _
    omega


/-- What the listeners are given when the receiver answers a poll. -/
theorem valget_msg {u u' : Ubx} {hist : List Byte} {outs : List Out} (h : Reach u hist) (hp : u.parsingMessage = false) (layer : Byte)
    (k w v : Nat) (hw : w ≤ 8) (hk : k < 2 ^ 32)
    (hf : feed u (ubxFrame 0x06 0x8B (valgetAnswer layer k w v)) = .ok (u', outs)) :
    ∀ o ∈ outs, ∀ d ∈ o.2, cfgValget.get "cfgDataKey" d.msg = k ∧
        cfgValget.get "cfgData" d.msg = leU (leBytes w v ++ u.inMsg.drop (8 + w)) 0 8 := by
  have hl : (valgetAnswer layer k w v).length = 8 + w := by simp [valgetAnswer, leBytes_length]; omega
  intro o ho d hd
  have e := c14_partial h hp 0x06 0x8B _ (by omega) (by omega) hf o ho d hd
  have f1 : cfgValget.find "cfgDataKey" = some (4, .u 4) := by decide +kernel
  have f2 : cfgValget.find "cfgData" = some (8, .u 8) := by decide +kernel
  unfold Layout.get
  rw [f1, f2]
  show ((leU d.msg (0 + 4) 4 : Nat) : Int) = _ ∧ ((leU d.msg (0 + 8) 8 : Nat) : Int) = _
  rw [e, hl]
  unfold valgetAnswer
  simp only [Nat.zero_add]
  constructor
  · have e3 := leU_skip [0x01, layer, 0x00, 0x00] (leBytes 4 k ++ (leBytes w v ++ u.inMsg.drop (8 + w))) 4 0
    rw [leU_value_long 4 4 k _ (Nat.le_refl _), Nat.mod_eq_of_lt (by omega)] at e3
    simp only [List.append_assoc] at e3 ⊢
    exact congrArg Nat.cast e3
  · have e3 := leU_skip ([0x01, layer, 0x00, 0x00] ++ leBytes 4 k) (leBytes w v ++ u.inMsg.drop (8 + w)) 8 0
    rw [List.length_append, leBytes_length] at e3
    simp only [List.append_assoc] at e3 ⊢
    exact congrArg Nat.cast e3

/-- The listeners interested in configuration answers. -/
def askers (u : Ubx) : List Nat := u.listeners.filter fun l => u.subscribed l 0x06 0x8B

/-- **C138, what holds.** If the receiver answers a poll with an eight-byte item, whatever was received before: the frame is
delivered, to every listener interested in configuration answers, and each reads from it the key and the value. -/
theorem c138_partial {u : Ubx} {hist : List Byte} (h : Reach u hist) (hp : u.parsingMessage = false) (layer : Byte)
    (k v : Nat) (hk : k < 2 ^ 32) (_hw : keyWidth k = some 8) (hv : v < 2 ^ 64) :
    ∃ u' outs, feed u (ubxFrame 0x06 0x8B (valgetAnswer layer k 8 v)) = .ok (u', outs) ∧
      (outs.flatMap (·.2)).map (·.listener) = askers u ∧
      ∀ o ∈ outs, ∀ d ∈ o.2, cfgValget.get "cfgDataKey" d.msg = k ∧ cfgValget.get "cfgData" d.msg = v := by
  have hl : (valgetAnswer layer k 8 v).length = 16 := by simp [valgetAnswer, leBytes_length]
  obtain ⟨c1, c2⟩ := c02_frame_is_delivered h hp 0x06 0x8B (valgetAnswer layer k 8 v) (by omega) (by omega)
  obtain ⟨u', outs, hf⟩ := c2 (by decide)
  refine ⟨u', outs, hf, ?_, fun o ho d hd => ?_⟩
  · obtain ⟨msg, -, -, ho, -⟩ := c1 u' outs hf
    rw [ho]
    simp [List.flatMap_append, askers, Function.comp_def]
  · obtain ⟨e1, e2⟩ := valget_msg h hp layer k 8 v (by omega) hk hf o ho d hd
    refine ⟨e1, ?_⟩
    rw [e2, leU_value_long 8 8 v _ (by omega), Nat.mod_eq_of_lt (by omega)]

/-- **C138, narrower items.** With an item of one, two or four bytes each listener reads the key, and a value whose low bytes are
those of the item; the bytes above are whatever earlier messages left in the buffer behind the answer.  So the value itself is
read if and only if those bytes happen to be zero; and a listener that knows the width gets the value from the low bytes. -/
theorem c138_narrow_partial {u : Ubx} {hist : List Byte} (h : Reach u hist) (hp : u.parsingMessage = false) (layer : Byte)
    (k w v : Nat) (hk : k < 2 ^ 32) (hw : keyWidth k = some w) (h4 : w < 8) (hv : v < 256 ^ w) :
    ∃ u' outs, feed u (ubxFrame 0x06 0x8B (valgetAnswer layer k w v)) = .ok (u', outs) ∧
      (outs.flatMap (·.2)).map (·.listener) = askers u ∧
      ∀ o ∈ outs, ∀ d ∈ o.2, cfgValget.get "cfgDataKey" d.msg = k ∧
        cfgValget.get "cfgData" d.msg = v + 256 ^ w * leU u.inMsg (8 + w) (8 - w) ∧
        cfgValget.get "cfgData" d.msg % 256 ^ w = v ∧
        (cfgValget.get "cfgData" d.msg = v ↔ ∀ j, 8 + w ≤ j → j < 16 → u.inMsg.getD j 0 = 0) := by
  have hl : (valgetAnswer layer k w v).length = 8 + w := by simp [valgetAnswer, leBytes_length]; omega
  obtain ⟨c1, c2⟩ := c02_frame_is_delivered h hp 0x06 0x8B (valgetAnswer layer k w v) (by omega) (by omega)
  obtain ⟨u', outs, hf⟩ := c2 (by decide)
  refine ⟨u', outs, hf, ?_, fun o ho d hd => ?_⟩
  · obtain ⟨msg, -, -, ho, -⟩ := c1 u' outs hf
    rw [ho]
    simp [List.flatMap_append, askers, Function.comp_def]
  · obtain ⟨e1, e2⟩ := valget_msg h hp layer k w v (by omega) hk hf o ho d hd
    rw [leU_value_short 8 w v _ (by omega) hv, leU_drop] at e2
    have hp : 0 < 256 ^ w := Nat.pow_pos (by omega)
    refine ⟨e1, by rw [e2, Int.natCast_add, Int.natCast_mul, Int.natCast_pow]; rfl, ?_, ?_⟩
    · rw [e2]
      have : (v + 256 ^ w * leU u.inMsg (8 + w + 0) (8 - w)) % 256 ^ w = v := by
        rw [Nat.add_mul_mod_self_left, Nat.mod_eq_of_lt hv]
      have h2 := congrArg (Nat.cast : Nat → Int) this
      rw [Int.natCast_emod, Int.natCast_pow] at h2
      exact h2
    · have hz : ∀ n off, leU u.inMsg off n = 0 ↔ ∀ j, off ≤ j → j < off + n → u.inMsg.getD j 0 = 0 := by
        intro n
        induction n with
        | zero => intro off; exact ⟨fun _ j _ _ => by omega, fun _ => rfl⟩
        | succ n ih =>
          intro off
          show (u.inMsg.getD off 0).toNat + 256 * leU u.inMsg (off + 1) n = 0 ↔ _
          constructor
          · intro h0 j hj hj2
            by_cases hje : j = off
            · subst hje
              exact BitVec.eq_of_toNat_eq ((show (u.inMsg.getD j 0).toNat = 0 by omega).trans rfl)
            · exact (ih (off + 1)).1 (by omega) j (by omega) (by omega)
          · intro hj
            rw [hj off (by omega) (by omega), (ih (off + 1)).2 fun j h1 h2 => hj j (by omega) (by omega)]
            rfl
      have hz := hz (8 - w) (8 + w)
      rw [show 8 + w + (8 - w) = 16 by omega] at hz
      rw [← hz, e2, Nat.add_zero]
      constructor
      · intro h0
        have h0 : v + 256 ^ w * leU u.inMsg (8 + w) (8 - w) = v := Int.ofNat.inj h0
        rcases Nat.mul_eq_zero.1 (show 256 ^ w * leU u.inMsg (8 + w) (8 - w) = 0 by omega) with h0 | h0
        · omega
        · exact h0
      · intro h0
        rw [h0]; simp

/-- The measurement rate (two bytes), the baud rate (four) and the dynamic model (one) are items of the receiver, and there are
keys of eight-byte items. -/
example : keyWidth 0x30210001 = some 2 ∧ keyWidth 0x40520001 = some 4 ∧ keyWidth 0x20110021 = some 1 ∧
    keyWidth 0x50FF0001 = some 8 := by decide

/-- Listener 0 interested in configuration answers. -/
def exAsk : Ubx := ((exU.registerListener 0).subscribe 0 0x06 0x8B)

theorem exAsk_reach : Reach exAsk [] := (exU_reach.register 0).subscribe 0 0x06 0x8B

theorem exAsk_idle : exAsk.parsingMessage = false := by decide

/-- What the listeners read from the answers in a stream. -/
def readings (bs : List Byte) : Option (List (Int × Int)) :=
  match feed exAsk bs with
  | .ok (_, outs) => some ((outs.flatMap (·.2)).map fun d => (cfgValget.get "cfgDataKey" d.msg, cfgValget.get "cfgData" d.msg))
  | .error _ => none

/-- **C138 is false of the code**: the answer "dynamic model 8" (one byte), after a message with other bytes at that place, is
read as another number; so is the baud rate 921600 (four bytes). -/
theorem c138_refuted :
    readings (ubxFrame 0x02 0x02 (List.replicate 12 9) ++ ubxFrame 0x06 0x8B (valgetAnswer 0 0x20110021 1 8)) =
      some [(0x20110021, 0x09090908)] ∧
    readings (ubxFrame 0x02 0x02 (List.replicate 14 1) ++ ubxFrame 0x06 0x8B (valgetAnswer 0 0x40520001 4 921600)) =
      some [(0x40520001, 921600 + 2 ^ 32 * 0x0101)] := by decide +kernel

/-- Two answers after each other: the value of the first is read, with garbage in its upper bytes. -/
example : askers exAsk = [0] ∧ readings (ubxFrame 0x06 0x8B (valgetAnswer 0 0x50FF0001 8 (2 ^ 63 + 5)) ++
    ubxFrame 0x06 0x8B (valgetAnswer 0 0x30210001 2 200)) = some [(0x50FF0001, 2 ^ 63 + 5), (0x30210001, 2 ^ 63 + 200)] := by
  decide +kernel

end Ubx
end Ublox
