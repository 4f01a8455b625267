import Mathlib.Tactic
import Verif.Model.MsmDbl
import Verif.Lemmas.Double

/-!
# C125: the units of the MSM5 observations

The specification is the standard's scaling (RTCM 10403, DF397 to DF408): a rough range is a whole number of light-milliseconds
plus 1/1024-ths of one, a fine pseudorange is in units of 2^-24 and a fine phase range in units of 2^-29 light-milliseconds, a
rough rate in metres per second, a fine rate in 0.0001 metres per second, the carrier-to-noise ratio in dB-Hz.
-/

namespace Ublox.MsmScale

/-- A light-millisecond, in metres. -/
def lightMs : ℚ := 299792.458
/-- `a` is `b` to one part in 2^50 (a tenth of a micrometre in a satellite range). -/
def Close (a b : ℚ) : Prop := |a - b| ≤ |b| / 2 ^ 50

end Ublox.MsmScale

namespace Ublox.Msm

open Dbl64 MsmScale

/-- Relative error bound. -/
def Near (ε a b : ℚ) : Prop := |a - b| ≤ ε * |b|

theorem Near.refl (a : ℚ) : Near 0 a a := by simp [Near]

theorem Near.trans {ε δ a b c : ℚ} (h : Near ε a b) (g : Near δ b c) (hε : 0 ≤ ε) : Near (ε + δ + ε * δ) a c := by
  unfold Near at *
  have hb : |b| ≤ |c| + δ * |c| := by
    have : |b| ≤ |b - c| + |c| := by simpa using abs_add_le (b - c) c
    linarith
  have : |a - c| ≤ |a - b| + |b - c| := by simpa using abs_add_le (a - b) (b - c)
  have h2 : ε * |b| ≤ ε * (|c| + δ * |c|) := mul_le_mul_of_nonneg_left hb hε
  calc |a - c| ≤ ε * (|c| + δ * |c|) + δ * |c| := by linarith
    _ = _ := by ring

theorem Near.mul {ε a b : ℚ} (h : Near ε a b) (c : ℚ) : Near ε (a * c) (b * c) := by
  unfold Near at *
  rw [← sub_mul, abs_mul, abs_mul, ← mul_assoc]
  exact mul_le_mul_of_nonneg_right h (abs_nonneg c)

theorem Near.mono {ε δ a b : ℚ} (h : Near ε a b) (g : ε ≤ δ) : Near δ a b :=
  le_trans h (mul_le_mul_of_nonneg_right g (abs_nonneg b))

/-- Sum of two nonnegative quantities. -/
theorem Near.add {ε a b c d : ℚ} (h : Near ε a b) (g : Near ε c d) (hb : 0 ≤ b) (hd : 0 ≤ d) : Near ε (a + c) (b + d) := by
  unfold Near at *
  rw [abs_of_nonneg hb] at h
  rw [abs_of_nonneg hd] at g
  rw [abs_of_nonneg (add_nonneg hb hd)]
  have : |a + c - (b + d)| ≤ |a - b| + |c - d| := by
    have e : a + c - (b + d) = (a - b) + (c - d) := by ring
    rw [e]; exact abs_add_le _ _
  linarith

theorem near_rne {q : ℚ} (h : q = 0 ∨ 2 ^ (-1022 : ℤ) ≤ |q|) : Near (2 ^ (-53 : ℤ)) (rne q) q := by
  rcases h with h | h
  · subst h; simp [Near, rne_zero]
  · have := rne_rel h
    unfold Near; linarith

theorem small : (2 : ℚ) ^ (-1022 : ℤ) ≤ 1 / 10 ^ 20 := by
  calc (2 : ℚ) ^ (-1022 : ℤ) ≤ 2 ^ (-100 : ℤ) := zpow_le_zpow_right₀ (by norm_num) (by norm_num)
    _ ≤ _ := by norm_num

theorem near_rne' {q : ℚ} (h : q = 0 ∨ 1 / 10 ^ 20 ≤ |q|) : Near (2 ^ (-53 : ℤ)) (rne q) q :=
  near_rne (h.imp id small.trans)

theorem p10 : P2_10 = 1 / 2 ^ 10 := by decide +kernel
theorem p24 : P2_24 = 1 / 2 ^ 24 := by decide +kernel
theorem p29 : P2_29 = 1 / 2 ^ 29 := by decide +kernel
theorem rms : Near (2 ^ (-53 : ℤ)) RANGE_MS lightMs := by
  have : |RANGE_MS - lightMs| ≤ (1 / 2 ^ 53) * |lightMs| := by decide +kernel
  unfold Near; norm_num at this ⊢; exact this

theorem Near.ne_zero {ε a b : ℚ} (h : Near ε a b) (hε : ε ≤ 1 / 2) (hb : b ≠ 0) : |b| / 2 ≤ |a| := by
  unfold Near at h
  have h1 : |b| ≤ |a - b| + |a| := by
    have := abs_add_le (b - a) a
    rw [abs_sub_comm b a] at this
    simpa using this
  have h2 : ε * |b| ≤ 1 / 2 * |b| := mul_le_mul_of_nonneg_right hε (abs_nonneg b)
  linarith

/-- The two roundings of an integer times a power of two times the light-millisecond. -/
theorem scaled {x : ℚ} (hx : x = 0 ∨ 1 / 10 ^ 12 ≤ |x|) : Near (1 / 2 ^ 51) (rne (rne x * RANGE_MS)) (x * lightMs) := by
  have h1 : Near (2 ^ (-53 : ℤ)) (rne x) x := near_rne' (hx.imp id fun h => le_trans (by norm_num) h)
  have h2 : Near (2 ^ (-53 : ℤ) + 2 ^ (-53 : ℤ) + 2 ^ (-53 : ℤ) * 2 ^ (-53 : ℤ)) (rne x * RANGE_MS) (x * lightMs) := by
    refine (h1.mul RANGE_MS).trans ?_ (by positivity)
    have := rms.mul x
    rwa [mul_comm RANGE_MS, mul_comm lightMs] at this
  have h3 : Near (2 ^ (-53 : ℤ)) (rne (rne x * RANGE_MS)) (rne x * RANGE_MS) := by
    apply near_rne'
    rcases hx with hx | hx
    · left; rw [hx, rne_zero, zero_mul]
    · right
      have hne : x ≠ 0 := fun h => by rw [h] at hx; norm_num at hx
      have hl : (0 : ℚ) < lightMs := by unfold lightMs; norm_num
      have := h2.ne_zero (by norm_num) (mul_ne_zero hne hl.ne')
      rw [abs_mul x lightMs, abs_of_pos hl] at this
      have h4 : (1 : ℚ) / 10 ^ 12 * 1 ≤ |x| * lightMs := mul_le_mul hx (by unfold lightMs; norm_num) (by norm_num) (abs_nonneg x)
      refine le_trans ?_ (le_trans (div_le_div_of_nonneg_right h4 (by norm_num)) this)
      norm_num
  exact (h3.trans h2 (by positivity)).mono (by norm_num)

theorem unit_small (v : Int) (u : ℚ) (hu : 1 / 10 ^ 12 ≤ u) : (v : ℚ) * u = 0 ∨ 1 / 10 ^ 12 ≤ |(v : ℚ) * u| := by
  rcases eq_or_ne v 0 with h | h
  · left; simp [h]
  · right
    have h1 : (1 : ℚ) ≤ |(v : ℚ)| := by exact_mod_cast Int.one_le_abs h
    have hu0 : 0 ≤ u := le_trans (by norm_num) hu
    rw [abs_mul, abs_of_nonneg hu0]
    calc (1 : ℚ) / 10 ^ 12 ≤ 1 * u := by linarith
      _ ≤ _ := mul_le_mul_of_nonneg_right h1 hu0

theorem Near.close {a b : ℚ} (h : Near (1 / 2 ^ 51) a b) : Close a b := by
  have := h.mono (δ := 1 / 2 ^ 50) (by norm_num)
  unfold Near at this; unfold Close; linarith

/-- C125. For every integer read from the message: the fine pseudorange stored is that many 2^-24-ths of a light-millisecond in
metres, the fine phase range that many 2^-29-ths, the fine rate that many tenths of a millimetre per second, each to one part in
2^50. -/
theorem c125_fine (v : Int) :
    Close (pseudorange v) (v / 2 ^ 24 * lightMs) ∧ Close (phaserange v) (v / 2 ^ 29 * lightMs) ∧
    Close (fineRate v) (v / 10 ^ 4) := by
  refine ⟨?_, ?_, ?_⟩
  · have := (scaled (unit_small v (1 / 2 ^ 24) (by norm_num))).close
    unfold pseudorange; rw [p24]
    rwa [mul_one_div] at *
  · have := (scaled (unit_small v (1 / 2 ^ 29) (by norm_num))).close
    unfold phaserange; rw [p29]
    rwa [mul_one_div] at *
  · have h1 : Near (2 ^ (-53 : ℤ)) (v * rne 0.0001) (v / 10 ^ 4) := by
      have := (near_rne' (q := 0.0001) (Or.inr (by norm_num))).mul (v : ℚ)
      rw [mul_comm] at this
      have e : (0.0001 : ℚ) * v = v / 10 ^ 4 := by ring
      rwa [e] at this
    have h2 : Near (2 ^ (-53 : ℤ)) (rne (v * rne 0.0001)) (v * rne 0.0001) :=
      near_rne' ((unit_small v (rne 0.0001) (by decide +kernel)).imp id fun h => le_trans (by norm_num) h)
    exact ((h2.trans h1 (by positivity)).mono (by norm_num)).close

/-- C125. The rough rate (14 bits) and the carrier-to-noise ratio (6 bits) are stored exactly. -/
theorem c125_whole (v : Int) (hv : |v| < 2 ^ 53) (n : Nat) (hn : n < 2 ^ 53) : phaserangerate v = v ∧ cnr n = n := by
  unfold phaserangerate cnr
  rw [mul_one, mul_one]
  refine ⟨rne_dbl (isDbl_int hv), ?_⟩
  have := rne_dbl (isDbl_int (m := (n : Int)) (by rw [abs_of_nonneg (by positivity)]; exact_mod_cast hn))
  simpa using this

/-- C125. A rough range of 1 to 254 light-milliseconds: whatever the member held before, it ends as the whole milliseconds plus
the 1/1024-ths read from the message, in metres, to one part in 2^50. -/
theorem c125_range_partial (old : ℚ) (r m : Nat) (h1 : 1 ≤ r) (h2 : r ≠ 255) :
    Close (addModulo (roughRange old r) m) ((r + m / 1024) * lightMs) := by
  have hl : (0 : ℚ) < lightMs := by unfold lightMs; norm_num
  have hr : (1 : ℚ) ≤ r := by exact_mod_cast h1
  unfold roughRange
  rw [if_pos h2]
  have a1 : Near (1 / 2 ^ 51) (rne (r * RANGE_MS)) (r * lightMs) := by
    by_cases hb : r < 2 ^ 53
    · have := scaled (x := r) (Or.inr (by rw [abs_of_pos (by linarith)]; refine le_trans ?_ hr; norm_num))
      have e : rne (r : ℚ) = r := by
        have := rne_dbl (isDbl_int (m := (r : Int)) (by rw [abs_of_nonneg (by positivity)]; exact_mod_cast hb))
        simpa using this
      rwa [e] at this
    · have h3 : Near (2 ^ (-53 : ℤ)) (r * RANGE_MS) (r * lightMs) := by
        have := rms.mul r
        rwa [mul_comm RANGE_MS, mul_comm lightMs] at this
      have h4 : Near (2 ^ (-53 : ℤ)) (rne (r * RANGE_MS)) (r * RANGE_MS) := by
        refine near_rne' (Or.inr ?_)
        have := h3.ne_zero (by norm_num) (mul_ne_zero (by linarith) hl.ne')
        rw [abs_of_pos (by positivity)] at this
        refine le_trans ?_ this
        have : (1 : ℚ) * 1 ≤ r * lightMs := mul_le_mul hr (by unfold lightMs; norm_num) (by norm_num) (by linarith)
        have e : (1 : ℚ) / 10 ^ 20 ≤ 1 * 1 / 2 := by norm_num
        linarith
      exact (h4.trans h3 (by positivity)).mono (by norm_num)
  have hne : r * lightMs ≠ 0 := mul_ne_zero (by linarith) hl.ne'
  have hge := a1.ne_zero (by norm_num) hne
  have hrough : rne (r * RANGE_MS) ≠ 0 := by
    intro h0
    rw [h0, abs_zero, abs_of_pos (by positivity)] at hge
    have : 0 < (r : ℚ) * lightMs := by positivity
    linarith
  unfold addModulo
  rw [if_pos hrough]
  have a2 : Near (1 / 2 ^ 51) (rne (rne (m * P2_10) * RANGE_MS)) (m / 1024 * lightMs) := by
    have := scaled (unit_small (m : Int) (1 / 2 ^ 10) (by norm_num))
    rw [p10]
    have e : ((m : Int) : ℚ) * (1 / 2 ^ 10) = m / 1024 := by push_cast; ring
    have e' : (m : ℚ) * (1 / 2 ^ 10) = m / 1024 := by ring
    rw [e] at this; rw [e']; exact this
  have a3 := a1.add a2 (by positivity) (by positivity)
  rw [← add_mul] at a3
  have hpos : (0 : ℚ) < (r + m / 1024) * lightMs := by positivity
  have a4 := a3.ne_zero (by norm_num) hpos.ne'
  rw [abs_of_pos hpos] at a4
  have hone : (1 : ℚ) * 1 ≤ (r + m / 1024) * lightMs := by
    refine mul_le_mul ?_ (by unfold lightMs; norm_num) (by norm_num) (by positivity)
    have : (0 : ℚ) ≤ m / 1024 := by positivity
    linarith
  have a5 := near_rne' (q := rne (r * RANGE_MS) + rne (rne (m * P2_10) * RANGE_MS)) (Or.inr (by
    have e : (1 : ℚ) / 10 ^ 20 ≤ 1 * 1 / 2 := by norm_num
    linarith))
  have a6 := (a5.trans a3 (by positivity)).mono (δ := 1 / 2 ^ 50) (by norm_num)
  unfold Near at a6
  unfold Close
  linarith

/-- C125, why only in part: with 0 whole milliseconds the 1/1024-ths are dropped, whatever they are; with 255, which means "no
range", the stored range is what the never-initialised member held, to which the 1/1024-ths are then added. -/
theorem c125_range_refuted :
    (∀ (old : ℚ) (m : Nat), addModulo (roughRange old 0) m = 0) ∧ ¬ Close (addModulo (roughRange 0 0) 512) ((0 + 512 / 1024) * lightMs) ∧
    (∀ old : ℚ, roughRange old 255 = old) ∧ addModulo (roughRange 1 255) 1024 = rne (1 + RANGE_MS) := by
  have h0 : ∀ (old : ℚ) (m : Nat), addModulo (roughRange old 0) m = 0 := by
    intro old m
    have : roughRange old 0 = 0 := by
      unfold roughRange
      rw [if_pos (by decide), Nat.cast_zero, zero_mul, rne_zero]
    rw [this]
    exact if_neg (fun h => h rfl)
  refine ⟨h0, ?_, fun old => if_neg (fun h => h rfl), ?_⟩
  · rw [h0]
    unfold Close lightMs
    norm_num
  · decide +kernel

/-- A case: 77 ms and 512/1024, and a fine pseudorange of -12345. -/
example : Close (addModulo (roughRange 0 77) 512) ((77 + (512 : Nat) / 1024) * lightMs) := c125_range_partial 0 77 512 (by decide) (by decide)
example : Close (pseudorange (-12345)) (((-12345 : Int) : ℚ) / 2 ^ 24 * lightMs) := (c125_fine (-12345)).1

end Ublox.Msm
