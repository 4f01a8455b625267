import Verif.Spec.Settings
import Verif.Spec.ConfigItems
import Verif.Lemmas.UbxCmd
import Verif.Props.ConfigItems

/-!
# C103: what the settings the driver makes mean to the receiver
-/

namespace Ublox
open Ubx

/-- C103, what holds of `disable_nmea` on a receiver with the old protocol: one CFG-PRT message for the USB port, which
allows UBX and RTCM3 and forbids NMEA in both directions, at 921600 baud.  Missing: the character format. -/
theorem c103_port_partial {u : Ubx} (hu : u.outMsg.length = 2048) (hm : u.major ≤ 23) :
    ∃ u' p, Command.disableNmea.run u = .ok (u', wireBytes [(0x06, 0x00, p)]) ∧ p.length = 20 ∧
      portSettings p = { wantedPort 3 with dataBits := 5, parity := .even } := by
  obtain ⟨u', e⟩ := c21_partial hu .disableNmea (by simp)
  simp only [expectedMessages] at e
  rw [if_pos hm] at e
  exact ⟨u', _, e, by decide, by decide⟩

/-- C103 is false of the code: `disable_nmea` on a receiver with the old protocol asks for 5 data bits and even parity,
whatever the port, because the character format is written to the wrong field. -/
theorem c103_format_refuted {u : Ubx} (hu : u.outMsg.length = 2048) (hm : u.major ≤ 23) :
    ∃ u' p, Command.disableNmea.run u = .ok (u', wireBytes [(0x06, 0x00, p)]) ∧
      (portSettings p).dataBits = 5 ∧ (portSettings p).parity = .even ∧ ∀ port, portSettings p ≠ wantedPort port := by
  obtain ⟨u', p, e, -, h⟩ := c103_port_partial hu hm
  refine ⟨u', p, e, ?_, ?_, ?_⟩
  · rw [h]
  · rw [h]
  · intro port hp
    rw [h] at hp
    have h5 : (5 : Nat) = 8 := congrArg PortSettings.dataBits hp
    exact absurd h5 (by decide)

/-- C103, the dynamic model on a receiver with the old protocol: one CFG-NAV5 message changing nothing but the model, to
airborne with at most 4 g. -/
theorem c103_model_old_partial {u : Ubx} (hu : u.outMsg.length = 2048) (hm : u.major ≤ 23) :
    ∃ u' p, Command.setDynamicMode.run u = .ok (u', wireBytes [(0x06, 0x24, p)]) ∧ p.length = 36 ∧
      fieldAt p 0 2 = 1 ∧ airborneG (fieldAt p 2 1) = some 4 := by
  obtain ⟨u', e⟩ := c21_partial hu .setDynamicMode (by simp)
  simp only [expectedMessages] at e
  rw [if_pos hm] at e
  exact ⟨u', _, e, by decide, by decide, by decide⟩

/-- C103 is false of the code: on a receiver with the new protocol `set_dynamic_mode` asks for another model, airborne with
at most 1 g. -/
theorem c103_model_new_refuted {u : Ubx} (hu : u.outMsg.length = 2048) (hm : 23 < u.major) :
    ∃ u' p, Command.setDynamicMode.run u = .ok (u', wireBytes [(0x06, 0x8A, p)]) ∧ fieldAt p 4 4 = 0x20110021 ∧
      airborneG (fieldAt p 8 1) = some 1 := by
  obtain ⟨u', e⟩ := c21_partial hu .setDynamicMode (by simp)
  simp only [expectedMessages] at e
  rw [if_neg (by omega)] at e
  exact ⟨u', _, e, by decide, by decide⟩

theorem leNum_leBytes : ∀ k n, n < 256 ^ k → leNum (leBytes k n) = n
  | 0, n, h => by simp at h; simp [leBytes, leNum, h]
  | k + 1, n, h => by
    rw [leBytes, leNum, leNum_leBytes k (n / 256) (by rw [Nat.pow_succ] at h; omega), BitVec.toNat_ofNat]
    omega

theorem fieldAt_mid (a b c : List Byte) {off n : Nat} (ha : a.length = off) (hb : b.length = n) :
    fieldAt (a ++ b ++ c) off n = leNum b := by
  unfold fieldAt
  rw [List.append_assoc, ← ha, List.drop_left, ← hb, List.take_left]

/-- C103, the survey-in request: whatever was sent before, `start_survey_in` asks for at least 60 s and an accuracy of
0.3 mm (three units of 0.1 mm). -/
theorem c103_survey_partial {u : Ubx} (hu : u.outMsg.length = 2048) :
    ∃ u' p, Command.startSurveyIn.run u = .ok (u', wireBytes [(0x06, 0x71, p)]) ∧ p.length = 40 ∧
      surveyLimits p = (3, 60) := by
  obtain ⟨u', e⟩ := c21_survey_partial hu
  refine ⟨u', (u.outMsg.take 2 ++ leBytes 2 1 ++ (u.outMsg.drop 4).take 20 ++ leBytes 4 60 ++ leBytes 4 3 ++
        (u.outMsg.drop 32).take 8), ?_, ?_, ?_⟩
  · rw [e]
    show _ = Except.ok (u', ubxFrame _ _ _ ++ [])
    rw [List.append_nil]
  · simp only [List.length_append, List.length_take, List.length_drop, leBytes_length, hu]; rfl
  · have h1 : (u.outMsg.take 2 ++ leBytes 2 1 ++ (u.outMsg.drop 4).take 20).length = 24 := by
      simp only [List.length_append, List.length_take, List.length_drop, leBytes_length, hu]; rfl
    unfold surveyLimits
    refine Prod.ext ?_ ?_
    · refine (fieldAt_mid _ (leBytes 4 3) _ (off := 28) (by rw [List.length_append, h1, leBytes_length])
        (leBytes_length _ _)).trans ?_
      exact leNum_leBytes 4 3 (by decide)
    · show fieldAt _ 24 4 = 60
      rw [List.append_assoc _ (leBytes 4 3)]
      refine (fieldAt_mid _ (leBytes 4 60) _ (off := 24) h1 (leBytes_length _ _)).trans ?_
      exact leNum_leBytes 4 60 (by decide)

/-- C103 is false of the code: the limit is not the documented 3 cm (300 units of 0.1 mm), and it is not the limit
`config_base` has just configured (50 m, 119 s). -/
theorem c103_survey_refuted {u : Ubx} (hu : u.outMsg.length = 2048) :
    ∃ u' p, Command.startSurveyIn.run u = .ok (u', wireBytes [(0x06, 0x71, p)]) ∧
      (surveyLimits p).1 ≠ 300 ∧ surveyLimits p ≠ (500000, 119) := by
  obtain ⟨u', p, e, -, h⟩ := c103_survey_partial hu
  exact ⟨u', p, e, by rw [h]; decide, by rw [h]; decide⟩

/-- The hypotheses are met by a fresh parser talking to a receiver with protocol 18. -/
example : ∃ u' p, Command.disableNmea.run { exU with major := 18 } = .ok (u', wireBytes [(0x06, 0x00, p)]) ∧
    p.length = 20 ∧ portSettings p = { wantedPort 3 with dataBits := 5, parity := .even } :=
  c103_port_partial (u := { exU with major := 18 }) exU_out (by decide)

/-- The wanted settings are expressible: `mode` = 0x8C0. -/
example : portSettings ([3, 0, 0, 0] ++ leBytes 4 0x8C0 ++ leBytes 4 921600 ++ leBytes 2 0x21 ++ leBytes 2 0x21 ++
    [0, 0, 0, 0]) = wantedPort 3 := by decide

end Ublox
