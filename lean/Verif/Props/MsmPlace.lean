import Verif.Model.Msm
import Verif.Spec.Msm

/-!
# C106: where the observations of an MSM5 message are read
-/

namespace Ublox.Msm
open MsmSpec

/-- **C106, the true part.** The ten blocks are read in the documented order, with the documented field widths and counts,
and without gaps: each lies as far behind the first as documented.  Missing: where the first one begins. -/
theorem c106_order_partial (nsat nsig ncell : Nat) :
    (blocks5 nsat nsig ncell).map (fun b => (b.1, b.2.2)) = (body5 nsat ncell).map (fun b => (b.2.1, b.2.2)) ∧
    ∀ k < 10, ((blocks5 nsat nsig ncell)[k]?.map (·.2.1)).getD 0 + startOf nsat nsig ncell 0 =
      24 + 169 * (nsat * nsig) + startOf nsat nsig ncell k := by
  refine ⟨rfl, fun k hk => ?_⟩
  have : k = 0 ∨ k = 1 ∨ k = 2 ∨ k = 3 ∨ k = 4 ∨ k = 5 ∨ k = 6 ∨ k = 7 ∨ k = 8 ∨ k = 9 := by omega
  have e : 169 * nsat * nsig = 169 * (nsat * nsig) := Nat.mul_assoc _ _ _
  rcases this with rfl | rfl | rfl | rfl | rfl | rfl | rfl | rfl | rfl | rfl <;>
    simp [blocks5, startOf, body5, e] <;> omega

/-- **C106 refuted.** For no number of satellites and signals is any block of observations read at its documented place: the
code multiplies the length of the header by the size of the cell mask instead of adding the two. -/
theorem c106_refuted (nsat nsig ncell : Nat) (k : Nat) (hk : k < 10) :
    ∃ b, (blocks5 nsat nsig ncell)[k]? = some b ∧ b.2.1 ≠ startOf nsat nsig ncell k := by
  have h := (c106_order_partial nsat nsig ncell).2 k hk
  have hl : (blocks5 nsat nsig ncell).length = 10 := rfl
  have h0 : startOf nsat nsig ncell 0 = 193 + nsat * nsig := rfl
  cases hb : (blocks5 nsat nsig ncell)[k]? with
  | none => exact absurd (List.getElem?_eq_none_iff.mp hb) (by omega)
  | some b =>
    refine ⟨b, rfl, fun hc => ?_⟩
    rw [hb] at h
    simp only [Option.map_some, Option.getD_some] at h
    omega

/-- **C106 refuted: outside.** From 49 satellite-signal pairs on, all the observations are read beyond the end of the longest
possible RTCM frame. -/
theorem c106_outside_refuted (nsat nsig ncell : Nat) (h : 49 ≤ nsat * nsig) :
    ∀ b ∈ blocks5 nsat nsig ncell, maxFrameBits ≤ b.2.1 := by
  have e : 169 * nsat * nsig = 169 * (nsat * nsig) := Nat.mul_assoc _ _ _
  intro b hb
  unfold blocks5 at hb
  unfold maxFrameBits
  rw [e] at hb
  simp only [List.mem_cons, List.not_mem_nil, or_false] at hb
  rcases hb with rfl | rfl | rfl | rfl | rfl | rfl | rfl | rfl | rfl | rfl <;> dsimp only <;> omega

/-- Twelve satellites with two signals: documented from bit 217 on, read from bit 4080 on. -/
example : startOf 12 2 20 0 = 217 ∧ (blocks5 12 2 20).head? = some (8, 4080, 12) := by decide

end Ublox.Msm
