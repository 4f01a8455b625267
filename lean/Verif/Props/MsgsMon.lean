import Verif.Model.MsgsMon
import Verif.Spec.MsgsMon
import Verif.Props.Msgs

/-!
# C78 for the monitoring structures; C110: the flag constants
-/

namespace Ublox

open MsgSpec (Field Bits)

/-- **C78, ACK-ACK and ACK-NAK.** -/
theorem c78_ack (f : Field) (hf : f ∈ MsgSpec.ack) (payload : List Byte) :
    ackAck.get f.name payload = f.value payload ∧ ackAck.size = 2 :=
  ⟨all_get (by decide +kernel) f hf payload, by decide⟩

/-- **C78, MON-TXBUF.** -/
theorem c78_mon_txbuf (f : Field) (hf : f ∈ MsgSpec.monTxbuf) (payload : List Byte) :
    monTxbuf.get f.name payload = f.value payload ∧ monTxbuf.size = 28 :=
  ⟨all_get (by decide +kernel) f hf payload, by decide⟩

/-- **C78, MON-COMMS (partial).** All fixed fields, and all fields of the first five ports.  Missing: further ports. -/
theorem c78_mon_comms_partial (payload : List Byte) :
    (∀ f ∈ MsgSpec.monComms, monComms.get f.name payload = f.value payload) ∧
    (∀ i < 5, ∀ f ∈ MsgSpec.commsBlock i, commsGet payload i f.name = .ok (f.value payload)) ∧
    (∀ i ≥ 5, ∀ name, commsGet payload i name = .error .oobRead) := by
  refine ⟨fun f hf => all_get (by decide +kernel) f hf payload, fun i hi f hf => ?_, fun i hi name => ?_⟩
  · unfold commsGet
    rw [if_pos hi]
    congr 1
    refine get_eq_value ?_ payload
    have : monComms.size + i * commsBlock.size = 8 + 40 * i := by
      rw [show monComms.size = 8 by decide, show commsBlock.size = 40 by decide]; omega
    rw [this]
    simp only [MsgSpec.commsBlock, List.mem_cons, List.not_mem_nil, or_false] at hf
    rcases hf with rfl | rfl | rfl | rfl | rfl | rfl | rfl | rfl | rfl | rfl | rfl | rfl | rfl | rfl | rfl <;>
    · simp [matchesB, commsBlock, Layout.find, Ty.size, tyOf]
      try omega
  · unfold commsGet
    rw [if_neg (show ¬ i < 5 by omega)]

/-- **C78 refuted for MON-VER.** The strings of the version report: the characters of the first extension are shown (as far as
the declared ten go), those of every other one are taken from elsewhere in the message: the array has its dimensions the wrong
way round. -/
theorem c78_mon_ver_refuted (payload : List Byte) (i k : Nat) (hi : i < 30) (hk : k < 10) :
    ∃ off, extensionGet payload i k = .ok (payload.getD off 0) ∧ (off = MsgSpec.extensionAt i k ↔ i = 0) := by
  refine ⟨30 + 10 + 10 * i + k, ?_, ?_⟩
  · unfold extensionGet
    rw [if_pos ⟨hi, hk⟩]
  · unfold MsgSpec.extensionAt
    omega

/-! ## C110 -/

/-- The constant tests the flag: `x & c` is true exactly if the bit is set, in every `x`. -/
def Tests (c bit : Nat) : Prop := ∀ x : Nat, x &&& c ≠ 0 ↔ x.testBit bit = true

/-- The constant stands for the value `v` of the field: comparing the field's bits of `x` with it is right for every `x`. -/
def Selects (c : Nat) (b : Bits) (v : Nat) : Prop := ∀ x : Nat, x &&& ((2 ^ b.width - 1) * 2 ^ b.lo) = c ↔ b.of x = v

theorem and_mask (x lo w : Nat) : x &&& ((2 ^ w - 1) * 2 ^ lo) = x / 2 ^ lo % 2 ^ w * 2 ^ lo := by
  apply Nat.eq_of_testBit_eq
  intro i
  rw [Nat.testBit_and, ← Nat.shiftLeft_eq, ← Nat.shiftLeft_eq, Nat.testBit_shiftLeft, Nat.testBit_shiftLeft,
    Nat.testBit_two_pow_sub_one, Nat.testBit_mod_two_pow, ← Nat.shiftRight_eq_div_pow, Nat.testBit_shiftRight]
  by_cases h : lo ≤ i
  · have : lo + (i - lo) = i := by omega
    simp [h, this, Bool.and_comm]
  · simp [h]

theorem tests_two_pow (bit : Nat) : Tests (2 ^ bit) bit := by
  intro x
  have h := and_mask x bit 1
  rw [show (2 ^ 1 - 1) * 2 ^ bit = 2 ^ bit by omega] at h
  rw [h, Nat.testBit_eq_decide_div_mod_eq]
  have hp := Nat.two_pow_pos bit
  rcases Nat.mod_two_eq_zero_or_one (x / 2 ^ bit) with e | e <;> simp [e]

theorem selects_shift (b : Bits) (v : Nat) : Selects (v * 2 ^ b.lo) b v := by
  intro x
  rw [and_mask]
  exact ⟨fun h => Nat.eq_of_mul_eq_mul_right (Nat.two_pow_pos _) h, fun h => by unfold Bits.of at h; rw [h]⟩

/-- **C110, single flags.** For every value of the field, testing a flag constant of NAV-PVT, NAV-RELPOSNED, RXM-RAWX, MON-COMMS,
CFG-NAV5, CFG-PRT or CFG-TMODE3 tells whether the documented flag is set. -/
theorem c110_flags_partial :
    (∀ p ∈ MsgSpec.pvtFlags, Tests (navPvtC.get p.1) p.2) ∧ (∀ p ∈ MsgSpec.relposFlags, Tests (navRelposnedC.get p.1) p.2) ∧
    (∀ p ∈ MsgSpec.rawxFlags, Tests (rxmRawxC.get p.1) p.2) ∧ (∀ p ∈ MsgSpec.commsFlags, Tests (monCommsC.get p.1) p.2) ∧
    (∀ p ∈ MsgSpec.nav5Flags, Tests (cfgNav5C.get p.1) p.2) ∧ (∀ p ∈ MsgSpec.prtFlags, Tests (cfgPrtC.get p.1) p.2) ∧
    (∀ p ∈ MsgSpec.tmode3Flags, Tests (cfgTmode3C.get p.1) p.2) := by
  have key : ∀ (l : Consts) (fs : List (String × Nat)), (∀ p ∈ fs, l.get p.1 = 2 ^ p.2) → ∀ p ∈ fs, Tests (l.get p.1) p.2 := by
    intro l fs h p hp
    rw [h p hp]
    exact tests_two_pow p.2
  exact ⟨key _ _ (by decide +kernel), key _ _ (by decide +kernel), key _ _ (by decide +kernel), key _ _ (by decide +kernel),
    key _ _ (by decide +kernel), key _ _ (by decide +kernel), key _ _ (by decide +kernel)⟩

/-- **C110, states.** For every value of the field, the constants for power save state, carrier solution, character length,
parity, stop bits and (but for the fixed mode) receiver mode stand for the documented values.  Missing: MON-TXBUF and the fixed
mode. -/
theorem c110_states_partial :
    (∀ p ∈ MsgSpec.pvtStates, Selects (navPvtC.get p.1) p.2.1 p.2.2) ∧
    (∀ p ∈ MsgSpec.relposStates, Selects (navRelposnedC.get p.1) p.2.1 p.2.2) ∧
    (∀ p ∈ MsgSpec.prtStates, Selects (cfgPrtC.get p.1) p.2.1 p.2.2) ∧
    (∀ p ∈ MsgSpec.tmode3States, p.1 ≠ "FIXED" → Selects (cfgTmode3C.get p.1) p.2.1 p.2.2) := by
  have key : ∀ (l : Consts) (fs : List (String × Bits × Nat)), (∀ p ∈ fs, l.get p.1 = p.2.2 * 2 ^ p.2.1.lo) →
      ∀ p ∈ fs, Selects (l.get p.1) p.2.1 p.2.2 := by
    intro l fs h p hp
    rw [h p hp]
    exact selects_shift p.2.1 p.2.2
  refine ⟨key _ _ (by decide +kernel), key _ _ (by decide +kernel), key _ _ (by decide +kernel), fun p hp hne => ?_⟩
  exact key cfgTmode3C (MsgSpec.tmode3States.filter fun p => p.1 ≠ "FIXED") (by decide +kernel) p
    (List.mem_filter.2 ⟨hp, by simpa using hne⟩)

/-- A tested bit is no other bit. -/
theorem tests_unique {c b b' : Nat} (h : Tests c b) (h' : Tests c b') : b = b' := by
  have h1 := (h (2 ^ b)).2 (by rw [Nat.testBit_two_pow_self])
  have h2 := (h' (2 ^ b)).1 h1
  rw [Nat.testBit_two_pow] at h2
  simpa using h2

/-- **C110 refuted: transmit buffer.** The error constants of MON-TXBUF: "allocation" tests the memory flag, "memory" the limit
flag of target 5, and "limit" that of target 4 only; none tests what it is called. -/
theorem c110_txbuf_refuted :
    Tests (monTxbufC.get "ALLOC") 6 ∧ Tests (monTxbufC.get "MEM") 5 ∧ Tests (monTxbufC.get "LIMIT") 4 ∧
    (∀ p ∈ MsgSpec.txbufFlags, ¬ Tests (monTxbufC.get p.1) p.2) ∧
    (∃ x, x &&& monTxbufC.get "LIMIT" = 0 ∧ MsgSpec.txbufLimit.of x ≠ 0) := by
  have h1 : Tests (monTxbufC.get "ALLOC") 6 := tests_two_pow 6
  have h2 : Tests (monTxbufC.get "MEM") 5 := tests_two_pow 5
  refine ⟨h1, h2, tests_two_pow 4, fun p hp h => ?_, 1, by decide +kernel, by decide +kernel⟩
  simp only [MsgSpec.txbufFlags, List.mem_cons, List.not_mem_nil, or_false] at hp
  rcases hp with rfl | rfl
  · exact absurd (tests_unique h h2) (by decide)
  · exact absurd (tests_unique h h1) (by decide)

/-- **C110 refuted: fixed mode.** The constant for the fixed position mode is a reserved value. -/
theorem c110_fixed_refuted :
    ∃ p ∈ MsgSpec.tmode3States, p.1 = "FIXED" ∧ p.2.1.of (cfgTmode3C.get p.1) = 3 ∧ ¬ Selects (cfgTmode3C.get p.1) p.2.1 p.2.2 := by
  refine ⟨("FIXED", ⟨0, 8⟩, 2), by simp [MsgSpec.tmode3States], rfl, by decide +kernel, fun h => ?_⟩
  have := (h 2).2 (by decide +kernel)
  exact absurd this (by decide +kernel)

/-- NAV-RELPOSNED with flags 0x137: among others a valid, fixed solution of a moving base. -/
example : Tests (navRelposnedC.get "FLAGS_isMoving") 5 ∧ (0x137 : Nat) &&& navRelposnedC.get "FLAGS_isMoving" ≠ 0 ∧
    (⟨3, 2⟩ : Bits).of 0x137 = 2 := ⟨tests_two_pow 5, by decide +kernel, by decide +kernel⟩

end Ublox
