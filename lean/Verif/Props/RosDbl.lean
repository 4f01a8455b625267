import Verif.Model.RosDbl
import Verif.Lemmas.Double
import Verif.Props.Ros

/-!
# C93: the published numbers are right to double precision
-/

namespace Ublox.Ros

open Dbl64 MsgSpec RosSpec

/-- `v` is `q` up to `j` times the unit roundoff. -/
def Within (j : ℚ) (v q : ℚ) : Prop := |v - q| ≤ |q| * (j / 2 ^ 53)

theorem within_mul {a a0 b b0 j : ℚ} (ha : Within j a a0) (hj0 : 0 ≤ j) (hj : j ≤ 50) (hb : Within 1 b b0)
    (hbig : a0 = 0 ∨ (2 : ℚ) ^ (-1000 : ℤ) ≤ |a0 * b0|) : Within (j + 3) (mulD a b) (a0 * b0) := by
  unfold mulD
  unfold Within at *
  rcases hbig with h0 | hbig
  · subst h0
    have : a = 0 := by
      rw [abs_zero, zero_mul, sub_zero] at ha
      exact abs_eq_zero.1 (le_antisymm ha (abs_nonneg a))
    rw [this, zero_mul, zero_mul, rne_zero]
    simp
  · have hu : (0 : ℚ) < 1 / 2 ^ 53 := by norm_num
    have hu' : (1 : ℚ) / 2 ^ 53 ≤ 1 / 1000000000000000 := by norm_num
    have e1 : (j : ℚ) / 2 ^ 53 = j * (1 / 2 ^ 53) := by ring
    have e2 : (j + 3 : ℚ) / 2 ^ 53 = (j + 3) * (1 / 2 ^ 53) := by ring
    have e3 : (2 : ℚ) ^ (-53 : ℤ) = 1 / 2 ^ 53 := by norm_num
    rw [e1] at ha
    rw [e2]
    generalize hue : (1 : ℚ) / 2 ^ 53 = u at *
    -- the exact product of the rounded factors
    have hab : |a * b - a0 * b0| ≤ |a0 * b0| * ((j + 1) * u + j * u * u) := by
      have : a * b - a0 * b0 = (a - a0) * b0 + a0 * (b - b0) + (a - a0) * (b - b0) := by ring
      rw [this]
      have hA := abs_nonneg a0
      have hB := abs_nonneg b0
      have h1 : |(a - a0) * b0| ≤ |a0| * (j * u) * |b0| := by
        rw [abs_mul]; exact mul_le_mul_of_nonneg_right ha hB
      have h2 : |a0 * (b - b0)| ≤ |a0| * (|b0| * u) := by
        rw [abs_mul]; exact mul_le_mul_of_nonneg_left hb hA
      have h3 : |(a - a0) * (b - b0)| ≤ |a0| * (j * u) * (|b0| * u) := by
        rw [abs_mul]
        exact mul_le_mul ha hb (abs_nonneg _) (mul_nonneg hA (mul_nonneg hj0 hu.le))
      have h4 := abs_add_le ((a - a0) * b0 + a0 * (b - b0)) ((a - a0) * (b - b0))
      have h5 := abs_add_le ((a - a0) * b0) (a0 * (b - b0))
      rw [abs_mul a0 b0]
      nlinarith
    have hP := abs_nonneg (a0 * b0)
    have hsmall : (j + 1) * u + j * u * u ≤ 1 / 2 := by nlinarith
    have hlow : (2 : ℚ) ^ (-1022 : ℤ) ≤ |a * b| := by
      have h6 := abs_sub_abs_le_abs_sub (a0 * b0) (a * b)
      rw [abs_sub_comm] at h6
      have h7 : |a0 * b0| * ((j + 1) * u + j * u * u) ≤ |a0 * b0| * (1 / 2) := mul_le_mul_of_nonneg_left hsmall hP
      have h8 : (2 : ℚ) ^ (-1022 : ℤ) ≤ 2 ^ (-1000 : ℤ) * (1 / 2) := by
        have : (2 : ℚ) ^ (-1000 : ℤ) * (1 / 2) = 2 ^ (-1001 : ℤ) := by
          rw [show (-1001 : ℤ) = -1000 + -1 by norm_num, zpow_add₀ (by norm_num)]; norm_num
        rw [this]
        exact zpow_le_zpow_right₀ (by norm_num) (by norm_num)
      linarith
    have hr := rne_rel hlow
    rw [e3] at hr
    have h9 := abs_add_le (rne (a * b) - a * b) (a * b - a0 * b0)
    have e4 : rne (a * b) - a * b + (a * b - a0 * b0) = rne (a * b) - a0 * b0 := by ring
    rw [e4] at h9
    have h10 : |a * b| ≤ |a0 * b0| * (1 + ((j + 1) * u + j * u * u)) := by
      have := abs_sub_abs_le_abs_sub (a * b) (a0 * b0)
      linarith
    have h11 : (1 + ((j + 1) * u + j * u * u)) * u + ((j + 1) * u + j * u * u) ≤ (j + 3) * u := by nlinarith
    have h12 : |a * b| * u ≤ |a0 * b0| * ((1 + ((j + 1) * u + j * u * u)) * u) := by
      calc |a * b| * u ≤ |a0 * b0| * (1 + ((j + 1) * u + j * u * u)) * u := mul_le_mul_of_nonneg_right h10 hu.le
        _ = _ := by ring
    calc |rne (a * b) - a0 * b0| ≤ |a0 * b0| * ((1 + ((j + 1) * u + j * u * u)) * u + ((j + 1) * u + j * u * u)) := by
          linarith
      _ ≤ |a0 * b0| * ((j + 3) * u) := mul_le_mul_of_nonneg_left h11 hP

theorem within_lit {k : ℚ} (hk : (2 : ℚ) ^ (-1022 : ℤ) ≤ |k|) : Within 1 (rne k) k := by
  have := rne_rel hk
  have e3 : (2 : ℚ) ^ (-53 : ℤ) = 1 / 2 ^ 53 := by norm_num
  rw [e3] at this
  exact this

theorem within_int (n : ℤ) : Within 0 (n : ℚ) n := by
  unfold Within; simp

theorem big_small {k : ℚ} (hk : 1 / 2 ^ 60 ≤ k) : (2 : ℚ) ^ (-1000 : ℤ) ≤ k := by
  refine le_trans ?_ hk
  have : (1 : ℚ) / 2 ^ 60 = 2 ^ (-60 : ℤ) := by norm_num
  rw [this]
  exact zpow_le_zpow_right₀ (by norm_num) (by norm_num)

theorem int_big (n : ℤ) {k : ℚ} (hk : 1 / 2 ^ 60 ≤ k) : (n : ℚ) = 0 ∨ (2 : ℚ) ^ (-1000 : ℤ) ≤ |n * k| := by
  by_cases h : n = 0
  · left; rw [h]; norm_num
  · right
    have h1 : (1 : ℚ) ≤ |(n : ℚ)| := by
      rw [← Int.cast_abs]
      exact_mod_cast Int.one_le_abs h
    have h2 := big_small hk
    have hk0 : 0 < k := lt_of_lt_of_le (by norm_num) hk
    rw [abs_mul, abs_of_pos hk0]
    nlinarith

theorem lit_ok {k : ℚ} (hk : 1 / 2 ^ 60 ≤ k) : Within 1 (rne k) k := by
  refine within_lit ?_
  have hk0 : 0 < k := lt_of_lt_of_le (by norm_num) hk
  rw [abs_of_pos hk0]
  exact le_trans (zpow_le_zpow_right₀ (by norm_num) (by norm_num)) (big_small hk)

theorem within_scaled (n : ℤ) {k : ℚ} (hk : 1 / 2 ^ 60 ≤ k) : Within 3 (mulD n (rne k)) (n * k) := by
  have := within_mul (within_int n) (le_refl 0) (by norm_num) (lit_ok hk) (int_big n hk)
  simpa using this

/-- `v` is `q` to double precision: relative error at most 2^-50. -/
def Close (v q : ℚ) : Prop := |v - q| ≤ |q| / 2 ^ 50

theorem close_of {j v q : ℚ} (h : Within j v q) (hj : j ≤ 8) : Close v q := by
  unfold Within at h
  unfold Close
  refine le_trans h ?_
  have := abs_nonneg q
  have e : |q| / 2 ^ 50 = |q| * (8 / 2 ^ 53) := by ring
  rw [e]
  exact mul_le_mul_of_nonneg_left (by linarith) this

theorem near7 (n : ℤ) : Close (mulD n (rne 1e-7)) (n / 10 ^ 7) := by
  have := close_of (within_scaled n (k := 1e-7) (by norm_num)) (by norm_num)
  rwa [show (n : ℚ) * 1e-7 = n / 10 ^ 7 by norm_num; ring] at this

theorem near5 (n : ℤ) : Close (mulD n (rne 1e-5)) (n / 10 ^ 5) := by
  have := close_of (within_scaled n (k := 1e-5) (by norm_num)) (by norm_num)
  rwa [show (n : ℚ) * 1e-5 = n / 10 ^ 5 by norm_num; ring] at this

theorem near3 (n : ℤ) : Close (mulD n (rne 1e-3)) (n / 10 ^ 3) := by
  have := close_of (within_scaled n (k := 1e-3) (by norm_num)) (by norm_num)
  rwa [show (n : ℚ) * 1e-3 = n / 10 ^ 3 by norm_num; ring] at this

theorem near2 (n : ℤ) : Close (mulD n (rne 0.01)) (n / 100) := by
  have := close_of (within_scaled n (k := 0.01) (by norm_num)) (by norm_num)
  rwa [show (n : ℚ) * 0.01 = n / 100 by norm_num; ring] at this

theorem near4 (n : ℤ) : Close (tenthMm n) (n / 10 ^ 4) := by
  have h1 := within_scaled n (k := 1e-3) (by norm_num)
  have h2 := within_mul h1 (by norm_num) (by norm_num) (lit_ok (k := 0.1) (by norm_num)) (by
    rcases int_big n (k := 1e-4) (by norm_num) with h | h
    · left; rw [h, zero_mul]
    · right; rwa [show (n : ℚ) * 1e-3 * 0.1 = n * 1e-4 by norm_num; ring])
  have := close_of h2 (by norm_num)
  rwa [show (n : ℚ) * 1e-3 * 0.1 = n / 10 ^ 4 by norm_num; ring] at this

/-- The constant `M_PI / 180.0` is the exact quotient up to one rounding error. -/
theorem deg_const : Within 1 (rne (rne M_PI / 180)) (M_PI / 180) := by
  have : rne (rne M_PI / 180) = 5030569068109113 / 2 ^ 58 := by decide +kernel
  rw [this]
  unfold Within M_PI
  norm_num [abs_le]

theorem within_heading (n : ℤ) : Within 6 (deg2radD (mulD n (rne 1e-5))) (n / 10 ^ 5 * (M_PI / 180)) := by
  have h1 := within_scaled n (k := 1e-5) (by norm_num)
  have h2 := within_mul h1 (by norm_num) (by norm_num) deg_const (by
    rcases int_big n (k := 1e-5 * (M_PI / 180)) (by unfold M_PI; norm_num) with h | h
    · left; rw [h, zero_mul]
    · right; rwa [mul_assoc])
  unfold deg2radD
  rw [show (n : ℚ) / 10 ^ 5 = n * 1e-5 by norm_num; ring]
  unfold mulD at h2 ⊢
  rw [mul_comm (rne (rne M_PI / 180))]
  have e : (3 : ℚ) + 3 = 6 := by norm_num
  rw [e] at h2
  exact h2

/-- **C93.** In the IEEE arithmetic of the target every floating-point number of a published PositionVelocityTime is the
documented value of the field to double precision (relative error at most 2^-50). -/
theorem c93_pvt (p : List Byte) : 
    Close (pvtMsgD p).lla.x (doc MsgSpec.navPvt "lat" p / 10 ^ 7) ∧
    Close (pvtMsgD p).lla.y (doc MsgSpec.navPvt "lon" p / 10 ^ 7) ∧
    Close (pvtMsgD p).lla.z (doc MsgSpec.navPvt "height" p / 10 ^ 3) ∧
    Close (pvtMsgD p).hMSL (doc MsgSpec.navPvt "hMSL" p / 10 ^ 3) ∧
    Close (pvtMsgD p).hAcc (doc MsgSpec.navPvt "hAcc" p / 10 ^ 3) ∧
    Close (pvtMsgD p).vAcc (doc MsgSpec.navPvt "vAcc" p / 10 ^ 3) ∧
    Close (pvtMsgD p).velNED.x (doc MsgSpec.navPvt "velN" p / 10 ^ 3) ∧
    Close (pvtMsgD p).velNED.y (doc MsgSpec.navPvt "velE" p / 10 ^ 3) ∧
    Close (pvtMsgD p).velNED.z (doc MsgSpec.navPvt "velD" p / 10 ^ 3) ∧
    Close (pvtMsgD p).gSpeed (doc MsgSpec.navPvt "gSpeed" p / 10 ^ 3) ∧
    Close (pvtMsgD p).headMot (doc MsgSpec.navPvt "headMot" p / 10 ^ 5) ∧
    Close (pvtMsgD p).sAcc (doc MsgSpec.navPvt "sAcc" p / 10 ^ 3) ∧
    Close (pvtMsgD p).headAcc (doc MsgSpec.navPvt "headAcc" p / 10 ^ 5) ∧
    Close (pvtMsgD p).pDOP (doc MsgSpec.navPvt "pDOP" p / 100) ∧
    Close (pvtMsgD p).headVeh (doc MsgSpec.navPvt "headVeh" p / 10 ^ 5) := by
  have q := fun (name : String) (f : Field) (h : MsgSpec.navPvt.find? (fun f => f.name = name) = some f) =>
    doc_pvt h p
  exact ⟨by rw [← q "lat" _ rfl]; exact near7 _, by rw [← q "lon" _ rfl]; exact near7 _, by rw [← q "height" _ rfl]; exact near3 _, by rw [← q "hMSL" _ rfl]; exact near3 _, by rw [← q "hAcc" _ rfl]; exact near3 _, by rw [← q "vAcc" _ rfl]; exact near3 _, by rw [← q "velN" _ rfl]; exact near3 _, by rw [← q "velE" _ rfl]; exact near3 _, by rw [← q "velD" _ rfl]; exact near3 _, by rw [← q "gSpeed" _ rfl]; exact near3 _, by rw [← q "headMot" _ rfl]; exact near5 _, by rw [← q "sAcc" _ rfl]; exact near3 _, by rw [← q "headAcc" _ rfl]; exact near5 _, by rw [← q "pDOP" _ rfl]; exact near2 _, by rw [← q "headVeh" _ rfl]; exact near5 _⟩

theorem near2' (n : ℤ) : Close (mulD n (rne 1e-2)) (n / 100) := by
  have := close_of (within_scaled n (k := 1e-2) (by norm_num)) (by norm_num)
  rwa [show (n : ℚ) * 1e-2 = n / 100 by norm_num; ring] at this

/-- The same for RelPos; the heading accuracy is the integral part of a number with that precision. -/
theorem c93_relpos (p : List Byte) :
    Close (relposMsgD p).relPosNED.x (doc MsgSpec.navRelposned "relPosN" p / 100) ∧
    Close (relposMsgD p).relPosNED.y (doc MsgSpec.navRelposned "relPosE" p / 100) ∧
    Close (relposMsgD p).relPosNED.z (doc MsgSpec.navRelposned "relPosD" p / 100) ∧
    Close (relposMsgD p).relPosLength (doc MsgSpec.navRelposned "relPosLength" p / 100) ∧
    Close (relposMsgD p).relPosHPNED.x (doc MsgSpec.navRelposned "relPosHPN" p / 10 ^ 4) ∧
    Close (relposMsgD p).relPosHPNED.y (doc MsgSpec.navRelposned "relPosHPE" p / 10 ^ 4) ∧
    Close (relposMsgD p).relPosHPNED.z (doc MsgSpec.navRelposned "relPosHPD" p / 10 ^ 4) ∧
    Close (relposMsgD p).relPosHPLength (doc MsgSpec.navRelposned "relPosHPLength" p / 10 ^ 4) ∧
    Close (relposMsgD p).accNED.x (doc MsgSpec.navRelposned "accN" p / 10 ^ 4) ∧
    Close (relposMsgD p).accNED.y (doc MsgSpec.navRelposned "accE" p / 10 ^ 4) ∧
    Close (relposMsgD p).accNED.z (doc MsgSpec.navRelposned "accD" p / 10 ^ 4) ∧
    Close (relposMsgD p).accLength (doc MsgSpec.navRelposned "accLength" p / 10 ^ 4) ∧
    Close (relposMsgD p).relPosHeading (doc MsgSpec.navRelposned "relPosHeading" p / 10 ^ 5 * (M_PI / 180)) ∧
    (0 ≤ doc MsgSpec.navRelposned "accHeading" p →
      ∃ v, Close v (doc MsgSpec.navRelposned "accHeading" p / 10 ^ 5 * (M_PI / 180)) ∧ (relposMsgD p).accHeading = ⌊v⌋) := by
  have q := fun (name : String) (f : Field) (h : MsgSpec.navRelposned.find? (fun f => f.name = name) = some f) =>
    doc_rel h p
  refine ⟨by rw [← q "relPosN" _ rfl]; exact near2' _,
    by rw [← q "relPosE" _ rfl]; exact near2' _,
    by rw [← q "relPosD" _ rfl]; exact near2' _,
    by rw [← q "relPosLength" _ rfl]; exact near2' _,
    by rw [← q "relPosHPN" _ rfl]; exact near4 _,
    by rw [← q "relPosHPE" _ rfl]; exact near4 _,
    by rw [← q "relPosHPD" _ rfl]; exact near4 _,
    by rw [← q "relPosHPLength" _ rfl]; exact near4 _,
    by rw [← q "accN" _ rfl]; exact near4 _,
    by rw [← q "accE" _ rfl]; exact near4 _,
    by rw [← q "accD" _ rfl]; exact near4 _,
    by rw [← q "accLength" _ rfl]; exact near4 _, ?_, fun h => ⟨deg2radD (mulD (navRelposned.get "accHeading" p) (rne 1e-5)), ?_, ?_⟩⟩
  · rw [← q "relPosHeading" _ rfl]; exact close_of (within_heading _) (by norm_num)
  · rw [← q "accHeading" _ rfl]; exact close_of (within_heading _) (by norm_num)
  · rw [← q "accHeading" _ rfl] at h
    show trunc _ = _
    unfold trunc
    rw [if_pos]
    unfold deg2radD mulD
    have h' : (0 : ℚ) ≤ navRelposned.get "accHeading" p := by exact_mod_cast h
    exact rne_nonneg (mul_nonneg (rne_nonneg (div_nonneg (rne_nonneg (by unfold M_PI; norm_num)) (by norm_num)))
      (rne_nonneg (mul_nonneg h' (rne_nonneg (by norm_num)))))

/-- The same for the mean position of SurveyStatus (as far as it is right at all, C81). -/
theorem c93_survey (p : List Byte) :
    (0 ≤ doc MsgSpec.navSvin "meanX" p → Close (surveyMsgD p).meanXYZ.x (doc MsgSpec.navSvin "meanX" p / 100)) ∧
    (0 ≤ doc MsgSpec.navSvin "meanY" p → Close (surveyMsgD p).meanXYZ.y (doc MsgSpec.navSvin "meanY" p / 100)) ∧
    (0 ≤ doc MsgSpec.navSvin "meanZ" p → Close (surveyMsgD p).meanXYZ.z (doc MsgSpec.navSvin "meanZ" p / 100)) := by
  refine ⟨fun h => ?_, fun h => ?_, fun h => ?_⟩
  · rw [← doc_svin (name := "meanX") rfl p (fun _ => h)]; exact near2' _
  · rw [← doc_svin (name := "meanY") rfl p (fun _ => h)]; exact near2' _
  · rw [← doc_svin (name := "meanZ") rfl p (fun _ => h)]; exact near2' _

theorem near3' (n : ℤ) : Close (mulD n (rne 1e-3)) (10 * (n / 10 ^ 4)) := by
  have := close_of (within_scaled n (k := 1e-3) (by norm_num)) (by norm_num)
  rwa [show (n : ℚ) * 1e-3 = 10 * (n / 10 ^ 4) by norm_num; ring] at this

/-- The high-precision parts of SurveyStatus, to double precision: ten times what is documented (tenths of a millimetre), as
C81 says. -/
theorem c93_survey_hp (p : List Byte) :
    (0 ≤ doc MsgSpec.navSvin "meanXHP" p →
      Close (surveyMsgD p).meanXYZHP.x (10 * (doc MsgSpec.navSvin "meanXHP" p / 10 ^ 4))) ∧
    (0 ≤ doc MsgSpec.navSvin "meanYHP" p →
      Close (surveyMsgD p).meanXYZHP.y (10 * (doc MsgSpec.navSvin "meanYHP" p / 10 ^ 4))) ∧
    (0 ≤ doc MsgSpec.navSvin "meanZHP" p →
      Close (surveyMsgD p).meanXYZHP.z (10 * (doc MsgSpec.navSvin "meanZHP" p / 10 ^ 4))) := by
  refine ⟨fun h => ?_, fun h => ?_, fun h => ?_⟩
  · rw [← doc_svin (name := "meanXHP") rfl p (fun _ => h)]; exact near3' _
  · rw [← doc_svin (name := "meanYHP") rfl p (fun _ => h)]; exact near3' _
  · rw [← doc_svin (name := "meanZHP") rfl p (fun _ => h)]; exact near3' _

/-- Nothing is lost: multiplying the published number by the documented resolution and rounding to the nearest integer gives
back the integer the receiver sent, for every 32-bit value. -/
theorem c93_lossless (v : ℚ) (n : ℤ) (k : ℕ) (hn : |n| ≤ 2 ^ 32) (h : Close v (n / 10 ^ k)) :
    ⌊v * 10 ^ k + 1 / 2⌋ = n := by
  unfold Close at h
  have hp : (0 : ℚ) < 10 ^ k := by positivity
  have h1 : |v * 10 ^ k - n| ≤ |(n : ℚ)| / 2 ^ 50 := by
    have e : v * 10 ^ k - n = (v - n / 10 ^ k) * 10 ^ k := by field_simp
    rw [e, abs_mul, abs_of_pos hp]
    have e2 : |(n : ℚ)| / 2 ^ 50 = |(n : ℚ) / 10 ^ k| / 2 ^ 50 * 10 ^ k := by
      rw [abs_div, abs_of_pos hp]; field_simp
    rw [e2]
    exact mul_le_mul_of_nonneg_right h hp.le
  have h2 : |(n : ℚ)| ≤ 2 ^ 32 := by rw [← Int.cast_abs]; exact_mod_cast hn
  have h3 : |(n : ℚ)| / 2 ^ 50 ≤ 1 / 4 := by
    rw [div_le_iff₀ (by norm_num)]
    refine le_trans h2 (by norm_num)
  rw [abs_le] at h1
  rw [Int.floor_eq_iff]
  constructor <;> linarith

/-- A concrete message: latitude 52.0123456 degrees, as the hardware computes it. -/
example : mulD 520123456 (rne 1e-7) = 7320086883213295 / 140737488355328 := by decide +kernel

end Ublox.Ros
