import Verif.Spec.RosSignal
import Verif.Model.Ros

/-!
# C142: the published signal numbers
-/

namespace Ublox.Ros

open RosSpec

theorem signal_eq (m : Meas) : (obsOf m).signal = u8 (sigId m.gnssId m.sigId) := rfl

theorem signal_listed {m : Meas} {n : Int} (h : (m.gnssId, m.sigId, n) ∈ signalNumbers) : (obsOf m).signal = n - 1 := by
  rw [signal_eq]
  simp only [signalNumbers, List.mem_cons, Prod.mk.injEq, List.not_mem_nil, or_false] at h
  rcases h with ⟨h1, h2, rfl⟩ | ⟨h1, h2, rfl⟩ | ⟨h1, h2, rfl⟩ | ⟨h1, h2, rfl⟩ | ⟨h1, h2, rfl⟩ | ⟨h1, h2, rfl⟩ | ⟨h1, h2, rfl⟩ |
    ⟨h1, h2, rfl⟩ | ⟨h1, h2, rfl⟩ | ⟨h1, h2, rfl⟩ | ⟨h1, h2, rfl⟩ | ⟨h1, h2, rfl⟩ | ⟨h1, h2, rfl⟩ | ⟨h1, h2, rfl⟩ <;>
    rw [h1, h2] <;> decide

theorem signal_unlisted {m : Meas} (h : ¬ Listed m.gnssId m.sigId) : (obsOf m).signal = 255 := by
  rw [signal_eq]
  have hn : ∀ n, (m.gnssId, m.sigId, n) ∉ signalNumbers := fun n hn => h ⟨n, hn⟩
  have q : ∀ g s n, (g, s, n) ∈ signalNumbers → ¬ (m.gnssId = g ∧ m.sigId = s) := by
    rintro g s n hm ⟨rfl, rfl⟩
    exact hn n hm
  unfold sigId
  rw [if_neg (q 0 0 1 (by decide)), if_neg (q 0 3 2 (by decide)), if_neg (q 0 4 3 (by decide)), if_neg (q 2 0 4 (by decide)),
    if_neg (q 2 1 5 (by decide)), if_neg (q 2 5 6 (by decide)), if_neg (q 2 6 7 (by decide)), if_neg (q 3 0 8 (by decide)),
    if_neg (q 3 1 9 (by decide)), if_neg (q 3 2 10 (by decide)), if_neg (q 3 3 11 (by decide)), if_neg (q 5 0 12 (by decide)),
    if_neg (q 6 0 13 (by decide)), if_neg (q 6 2 14 (by decide))]
  decide

theorem numbers_inj : ∀ a ∈ signalNumbers, ∀ b ∈ signalNumbers, a.2.2 = b.2.2 → a = b := by decide

theorem numbers_range : ∀ a ∈ signalNumbers, 1 ≤ a.2.2 ∧ a.2.2 ≤ 14 := by decide

/-- **C142, what holds.** Two measurements on different signals the message knows are published with different signal numbers;
a measurement on any other signal is published with 255, which is none of the message's numbers and is given to no signal the
message knows. -/
theorem c142_partial (m k : Meas) :
    (Listed m.gnssId m.sigId → Listed k.gnssId k.sigId → (obsOf m).signal = (obsOf k).signal →
      m.gnssId = k.gnssId ∧ m.sigId = k.sigId) ∧
    (¬ Listed m.gnssId m.sigId ↔ (obsOf m).signal = 255) ∧ ∀ a ∈ signalNumbers, a.2.2 ≠ 255 := by
  refine ⟨?_, ⟨signal_unlisted, ?_⟩, fun a ha h => ?_⟩
  · rintro ⟨n, hn⟩ ⟨l, hl⟩ h
    rw [signal_listed hn, signal_listed hl] at h
    have := numbers_inj _ hn _ hl (by dsimp only; omega)
    simp only [Prod.mk.injEq] at this
    exact ⟨this.1, this.2.1⟩
  · rintro h ⟨n, hn⟩
    rw [signal_listed hn] at h
    have := numbers_range _ hn
    dsimp only at this
    omega
  · have := numbers_range _ ha
    omega

/-- **C142 is false of the code**: every measurement on a signal the message knows is published with a wrong number, the one
before the right one (so with the number of another signal, except for GPS L1 C/A, which gets 0). -/
theorem c142_refuted (m : Meas) (n : Int) (h : (m.gnssId, m.sigId, n) ∈ signalNumbers) :
    (obsOf m).signal ≠ n ∧ (obsOf m).signal = n - 1 := by
  rw [signal_listed h]
  omega

/-- A measurement on Galileo E1 B, and one on SBAS. -/
def exMeas (g s : Int) : Meas :=
  { prMeas := 0, cpMeas := 0, doMeas := 0, gnssId := g, svId := 1, sigId := s, freqId := 0, locktime := 0, cno := 0, prStdev := 0,
    cpStdev := 0, doStdev := 0, trkStat := 0 }

example : Listed (exMeas 2 1).gnssId (exMeas 2 1).sigId ∧ ¬ Listed (exMeas 1 0).gnssId (exMeas 1 0).sigId := by
  refine ⟨⟨5, by decide⟩, ?_⟩
  rintro ⟨n, h⟩
  simp [signalNumbers, exMeas] at h

end Ublox.Ros
