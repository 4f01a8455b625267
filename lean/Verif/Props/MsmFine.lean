import Verif.Model.Msm
import Verif.Spec.Bits
import Mathlib.Tactic.Ring
import Mathlib.Tactic.Positivity

/-!
# C96: the signed fields of an MSM5 message
-/

namespace Ublox.Msm

/-- RTCM 10403: a signed field of `len` bits; the most negative number means "no data". -/
def transmitted (len v : Nat) : Option Int :=
  if twosComp len v = -2 ^ (len - 1) then none else some (twosComp len v)

theorem fine_aux {len v : Nat} (hl : 1 ≤ len) (hv : v < 2 ^ len) : some (v : Int) = transmitted len v ↔ v < 2 ^ (len - 1) := by
  obtain ⟨k, rfl⟩ : ∃ k, len = k + 1 := ⟨len - 1, by omega⟩
  have e : (2 : Int) ^ (k + 1) = 2 * 2 ^ k := by ring
  have e' : ((2 ^ k : Nat) : Int) = 2 ^ k := by norm_cast
  have hp : (0 : Int) < 2 ^ k := by positivity
  unfold transmitted twosComp
  rw [Nat.add_sub_cancel]
  split
  · rename_i h
    rw [if_neg (by omega)]
    exact ⟨fun _ => h, fun _ => rfl⟩
  · rename_i h
    rw [e]
    constructor
    · intro hs
      split at hs
      · cases hs
      · have := Option.some.inj hs
        omega
    · omega

/-- **C96, the true part.** The four signed fields are stored as transmitted exactly if they are not negative. -/
theorem c96_fine_partial (v : Nat) :
    (v < 2 ^ 14 → (storeRate v = transmitted 14 v ↔ v < 2 ^ 13)) ∧
    (v < 2 ^ 15 → (storeFineRange v = transmitted 15 v ↔ v < 2 ^ 14)) ∧
    (v < 2 ^ 22 → (storeFinePhase v = transmitted 22 v ↔ v < 2 ^ 21)) ∧
    (v < 2 ^ 15 → (storeFineRate v = transmitted 15 v ↔ v < 2 ^ 14)) := by
  unfold storeRate storeFineRange storeFinePhase storeFineRate
  refine ⟨fun h => ?_, fun h => ?_, fun h => ?_, fun h => ?_⟩ <;> rw [if_pos (by omega)] <;> exact fine_aux (by decide) h

/-- **C96 refuted.** "No data" is stored as a number, and a fine pseudorange of -1 unit as 32767 units. -/
theorem c96_refuted : transmitted 15 16384 = none ∧ storeFineRange 16384 = some 16384 ∧
    transmitted 15 32767 = some (-1) ∧ storeFineRange 32767 = some 32767 ∧
    transmitted 14 8192 = none ∧ storeRate 8192 = some 8192 := by decide

end Ublox.Msm
