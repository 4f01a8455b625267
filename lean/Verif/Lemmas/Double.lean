import Verif.Model.Double
import Mathlib.Tactic.Linarith
import Mathlib.Tactic.Ring
import Mathlib.Tactic.NormNum
import Mathlib.Tactic.Positivity
import Mathlib.Tactic.FieldSimp

/-!
# Facts about IEEE rounding
-/

namespace Ublox.Dbl64

theorem roundEven_err (z : ℚ) : |(roundEven z : ℚ) - z| ≤ 1 / 2 := by
  have h0 := Int.floor_le z
  have h1 := Int.lt_floor_add_one z
  unfold roundEven
  rw [abs_le]
  split
  · constructor <;> linarith
  split
  · push_cast; constructor <;> linarith
  · split
    · constructor <;> linarith
    · push_cast; constructor <;> linarith

theorem roundEven_int (k : ℤ) : roundEven (k : ℚ) = k := by
  unfold roundEven
  rw [Int.floor_intCast, if_pos (by simp)]

theorem roundEven_ge {z : ℚ} {k : ℤ} (h : (k : ℚ) ≤ z) : k ≤ roundEven z := by
  have := Int.le_floor.2 h
  unfold roundEven
  split_ifs <;> omega

theorem roundEven_le {z : ℚ} {k : ℤ} (h : z ≤ (k : ℚ)) : roundEven z ≤ k := by
  have h0 := Int.floor_le z
  have h2 : ⌊z⌋ ≤ k := by
    have : (⌊z⌋ : ℚ) ≤ k := by linarith
    exact_mod_cast this
  by_cases h3 : ⌊z⌋ = k
  · have : z = k := le_antisymm h (by rw [← h3]; exact h0)
    rw [this, roundEven_int]
  · unfold roundEven
    split_ifs <;> omega

theorem two_zpow_pos (e : ℤ) : (0 : ℚ) < 2 ^ e := zpow_pos (by norm_num) e

theorem rne_err (q : ℚ) : |rne q - q| ≤ 2 ^ ulpExp q / 2 := by
  have hp := two_zpow_pos (ulpExp q)
  have h := roundEven_err (q / 2 ^ ulpExp q)
  have : rne q - q = (roundEven (q / 2 ^ ulpExp q) - q / 2 ^ ulpExp q) * 2 ^ ulpExp q := by
    unfold rne; field_simp
  rw [this, abs_mul, abs_of_pos hp]
  nlinarith

/-- Values on the grid of `q` are not crossed by rounding. -/
theorem rne_ge {q : ℚ} {k : ℤ} (h : (k : ℚ) * 2 ^ ulpExp q ≤ q) : (k : ℚ) * 2 ^ ulpExp q ≤ rne q := by
  have hp := two_zpow_pos (ulpExp q)
  have := roundEven_ge (z := q / 2 ^ ulpExp q) (k := k) (by rw [le_div_iff₀ hp]; exact h)
  unfold rne
  have h2 : (k : ℚ) ≤ roundEven (q / 2 ^ ulpExp q) := by exact_mod_cast this
  nlinarith

theorem rne_le {q : ℚ} {k : ℤ} (h : q ≤ (k : ℚ) * 2 ^ ulpExp q) : rne q ≤ (k : ℚ) * 2 ^ ulpExp q := by
  have hp := two_zpow_pos (ulpExp q)
  have := roundEven_le (z := q / 2 ^ ulpExp q) (k := k) (by rw [div_le_iff₀ hp]; exact h)
  unfold rne
  have h2 : (roundEven (q / 2 ^ ulpExp q) : ℚ) ≤ k := by exact_mod_cast this
  nlinarith

/-- A double is not changed by rounding. -/
theorem rne_dbl {q : ℚ} (h : IsDbl q) : rne q = q := by
  obtain ⟨m, hm⟩ := h
  have h1 := rne_ge (q := q) (k := m) (by rw [← hm])
  have h2 := rne_le (q := q) (k := m) (by rw [← hm])
  rw [← hm] at h1 h2
  exact le_antisymm h2 h1

theorem ulpExp_ge (q : ℚ) : -1074 ≤ ulpExp q := by
  unfold ulpExp
  split
  · exact le_refl _
  · exact le_max_right _ _

theorem ulpExp_le {q : ℚ} {n : ℤ} (hq : |q| < 2 ^ n) (hn : -1021 ≤ n := by decide) : ulpExp q ≤ n - 53 := by
  unfold ulpExp
  split
  · omega
  · rename_i h0
    refine max_le ?_ (by omega)
    have : Int.log 2 |q| < n := by
      rw [← Int.lt_zpow_iff_log_lt (by norm_num) (abs_pos.2 h0)]
      exact_mod_cast hq
    omega

/-- A number is below 2^53 units in its last place. -/
theorem lt_ulp (q : ℚ) : |q| < 2 ^ (ulpExp q + 53) := by
  by_cases h0 : q = 0
  · subst h0
    rw [abs_zero]
    exact two_zpow_pos _
  · have h := Int.lt_zpow_succ_log_self (b := 2) (by norm_num) |q|
    refine lt_of_lt_of_le h ?_
    push_cast
    refine zpow_le_zpow_right₀ (by norm_num) ?_
    unfold ulpExp
    rw [if_neg h0]
    have := le_max_left (Int.log 2 |q| - 52) (-1074)
    omega

/-- A normal number is at least 2^52 units in its last place: relative rounding error at most 2^-53. -/
theorem rne_rel {q : ℚ} (hq : (2 : ℚ) ^ (-1022 : ℤ) ≤ |q|) : |rne q - q| ≤ |q| * 2 ^ (-53 : ℤ) := by
  have h0 : 0 < |q| := lt_of_lt_of_le (two_zpow_pos _) hq
  have h0' : q ≠ 0 := abs_pos.1 h0
  refine le_trans (rne_err q) ?_
  have h1 := Int.zpow_log_le_self (b := 2) (by norm_num) h0
  have h2 : -1022 ≤ Int.log 2 |q| := by
    rw [← Int.zpow_le_iff_le_log (by norm_num) h0]
    exact_mod_cast hq
  have h3 : ulpExp q = Int.log 2 |q| - 52 := by
    unfold ulpExp
    rw [if_neg h0', max_eq_left (by omega)]
  rw [h3]
  have h4 : (2 : ℚ) ^ (Int.log 2 |q| - 52) / 2 = 2 ^ (Int.log 2 |q|) * 2 ^ (-53 : ℤ) := by
    rw [← zpow_add₀ (by norm_num), show Int.log 2 |q| + -53 = Int.log 2 |q| - 52 - 1 by ring, zpow_sub_one₀ (by norm_num)]
    ring
  rw [h4]
  have h5 := two_zpow_pos (-53)
  push_cast at h1
  nlinarith

theorem zpow_nonneg_cast {d : ℤ} (h : 0 ≤ d) : ((2 ^ d.toNat : ℤ) : ℚ) = 2 ^ d := by
  obtain ⟨n, rfl⟩ := Int.eq_ofNat_of_zero_le h
  push_cast
  simp

/-- Up to 53 significant bits and not too small: a double. -/
theorem isDbl_of {m e : ℤ} (hm : |m| < 2 ^ 53) (he : -1074 ≤ e) : IsDbl (m * 2 ^ e) := by
  have h : |(m : ℚ) * 2 ^ e| < 2 ^ (e + 53) := by
    rw [abs_mul, abs_of_pos (two_zpow_pos e), zpow_add₀ (by norm_num), mul_comm]
    refine mul_lt_mul_of_pos_left ?_ (two_zpow_pos e)
    rw [← Int.cast_abs]
    have : ((|m| : ℤ) : ℚ) < ((2 ^ 53 : ℤ) : ℚ) := by exact_mod_cast hm
    refine lt_of_lt_of_eq this ?_
    norm_num
  have hu := ulpExp_le h (by omega)
  refine ⟨m * 2 ^ (e - ulpExp ((m : ℚ) * 2 ^ e)).toNat, ?_⟩
  rw [Int.cast_mul, zpow_nonneg_cast (by omega), mul_assoc, ← zpow_add₀ (by norm_num), sub_add_cancel]

/-- Integers of up to 53 bits are doubles. -/
theorem isDbl_int {m : ℤ} (hm : |m| < 2 ^ 53) : IsDbl m := by
  have := isDbl_of hm (e := 0) (by decide)
  simpa using this

/-- Every finite bit pattern is a double. -/
theorem isDbl_ofBits {b : Nat} {q : ℚ} (h : ofBits b = some q) : IsDbl q := by
  unfold ofBits at h
  dsimp only at h
  have hf : b % 2 ^ 52 < 2 ^ 52 := Nat.mod_lt _ (by decide)
  generalize b % 2 ^ 52 = f at *
  generalize b / 2 ^ 52 % 2 ^ 11 = e at *
  obtain ⟨s, hs, hs'⟩ : ∃ s : ℤ, (if b.testBit 63 = true then (-1 : ℚ) else 1) = s ∧ |s| = 1 := by
    split
    · exact ⟨-1, by norm_num, by decide⟩
    · exact ⟨1, by norm_num, by decide⟩
  rw [hs] at h
  split at h
  · cases h
  split at h
  · rw [← Option.some.inj h]
    have := isDbl_of (m := s * (f : ℤ)) (e := -1074) (by
      rw [abs_mul, hs', one_mul]; have : |(f : ℤ)| = f := abs_of_nonneg (by omega)
      rw [this]; omega) (by omega)
    push_cast at this
    exact this
  · rw [← Option.some.inj h]
    have := isDbl_of (m := s * ((2 ^ 52 + f : Nat) : ℤ)) (e := (e : ℤ) - 1075) (by
      rw [abs_mul, hs', one_mul]; have : |((2 ^ 52 + f : Nat) : ℤ)| = (2 ^ 52 + f : Nat) := abs_of_nonneg (by omega)
      rw [this]; omega) (by omega)
    push_cast at this
    push_cast
    exact this

theorem ge_ulp {q : ℚ} (h : -1074 < ulpExp q) : (2 : ℚ) ^ (ulpExp q + 52) ≤ |q| := by
  unfold ulpExp at h ⊢
  split at h
  · omega
  · rename_i h0
    rw [if_neg h0]
    have h1 : max (Int.log 2 |q| - 52) (-1074) = Int.log 2 |q| - 52 := by
      rcases max_choice (Int.log 2 |q| - 52) (-1074) with h2 | h2
      · exact h2
      · omega
    rw [h1, sub_add_cancel]
    exact_mod_cast Int.zpow_log_le_self (b := 2) (by norm_num) (abs_pos.2 h0)

/-- Numbers up to -1 are rounded to numbers up to -1. -/
theorem rne_le_neg_one {q : ℚ} (h : q ≤ -1) : rne q ≤ -1 := by
  by_cases hE : ulpExp q ≤ 0
  · have hg : (-1 : ℚ) = ((-(2 ^ (-ulpExp q).toNat) : ℤ) : ℚ) * 2 ^ ulpExp q := by
      rw [Int.cast_neg, zpow_nonneg_cast (by omega), neg_mul, ← zpow_add₀ (by norm_num)]
      simp
    rw [hg]
    exact rne_le (by rw [← hg]; exact h)
  · have h1 := ge_ulp (q := q) (by omega)
    rw [abs_of_nonpos (by linarith)] at h1
    have h2 := rne_err q
    rw [abs_le] at h2
    have h3 : (2 : ℚ) ^ (ulpExp q + 52) = 2 ^ ulpExp q * 2 ^ (52 : ℤ) := zpow_add₀ (by norm_num) _ _
    have h4 : (1 : ℚ) ≤ 2 ^ ulpExp q := one_le_zpow₀ (by norm_num) (by omega)
    have h5 : (2 : ℚ) ^ (52 : ℤ) = 4503599627370496 := by norm_num
    rw [h3, h5] at h1
    linarith

theorem roundEven_neg (z : ℚ) : roundEven (-z) = -roundEven z := by
  have h0 := Int.floor_le z
  have h1 := Int.lt_floor_add_one z
  by_cases hz : z = ⌊z⌋
  · rw [hz, ← Int.cast_neg, roundEven_int, roundEven_int]
  · have hlt : (⌊z⌋ : ℚ) < z := lt_of_le_of_ne h0 (fun h => hz h.symm)
    have hf : ⌊-z⌋ = -⌊z⌋ - 1 := by
      rw [Int.floor_eq_iff]
      push_cast
      constructor <;> linarith
    unfold roundEven
    rw [hf]
    push_cast
    by_cases c1 : z - ⌊z⌋ < 1 / 2
    · rw [if_neg (by linarith), if_pos (by linarith), if_pos c1]; omega
    · by_cases c2 : 1 / 2 < z - ⌊z⌋
      · rw [if_pos (by linarith), if_neg c1, if_pos c2]; omega
      · rw [if_neg (by linarith), if_neg (by linarith), if_neg c1, if_neg c2]
        split_ifs <;> omega

theorem ulpExp_neg (q : ℚ) : ulpExp (-q) = ulpExp q := by
  unfold ulpExp
  rw [abs_neg]
  simp only [neg_eq_zero]

theorem rne_neg (q : ℚ) : rne (-q) = -rne q := by
  unfold rne
  rw [ulpExp_neg, neg_div, roundEven_neg]
  push_cast
  ring

theorem rne_zero : rne 0 = 0 := by
  have := rne_dbl (q := 0) ⟨0, by simp⟩
  exact this

theorem rne_nonneg {q : ℚ} (h : 0 ≤ q) : 0 ≤ rne q := by
  have := rne_ge (q := q) (k := 0) (by simpa using h)
  simpa using this

theorem ulpExp_mono {a b : ℚ} (h : |a| ≤ |b|) : ulpExp a ≤ ulpExp b := by
  by_cases ha : a = 0
  · have h1 : ulpExp a = -1074 := by unfold ulpExp; rw [if_pos ha]
    rw [h1]
    exact ulpExp_ge b
  · have hb : b ≠ 0 := fun hb => ha (by rw [hb, abs_zero] at h; exact abs_eq_zero.1 (le_antisymm h (abs_nonneg a)))
    unfold ulpExp
    rw [if_neg ha, if_neg hb]
    have := Int.log_mono_right (b := 2) (abs_pos.2 ha) h
    exact max_le_max (by omega) (le_refl _)

theorem roundEven_mono {a b : ℚ} (h : a ≤ b) : roundEven a ≤ roundEven b := by
  by_cases hab : roundEven a ≤ ⌊b⌋
  · exact le_trans hab (roundEven_ge (Int.floor_le b))
  · -- then `a` and `b` lie in the same unit interval
    have hfa : ⌊a⌋ ≤ ⌊b⌋ := Int.floor_le_floor h
    have h1 : roundEven a ≤ ⌊a⌋ + 1 := roundEven_le (by push_cast; exact (Int.lt_floor_add_one a).le)
    have hf : ⌊a⌋ = ⌊b⌋ := by omega
    unfold roundEven at hab ⊢
    rw [hf] at hab ⊢
    split_ifs at hab ⊢ <;> first | omega | (exfalso; linarith)

theorem rne_mono_nonneg {a b : ℚ} (h0 : 0 ≤ a) (h : a ≤ b) : rne a ≤ rne b := by
  have hE := ulpExp_mono (a := a) (b := b) (by rw [abs_of_nonneg h0, abs_of_nonneg (le_trans h0 h)]; exact h)
  rcases hE.lt_or_eq with hE | hE
  · -- a power of two separates them
    have hg := ulpExp_ge a
    have hb := ge_ulp (q := b) (by omega)
    rw [abs_of_nonneg (le_trans h0 h)] at hb
    have ha := lt_ulp a
    rw [abs_of_nonneg h0] at ha
    have h1 : (2 : ℚ) ^ (ulpExp a + 53) ≤ 2 ^ (ulpExp b + 52) := zpow_le_zpow_right₀ (by norm_num) (by omega)
    have e1 : (2 : ℚ) ^ (ulpExp a + 53) = ((2 ^ 53 : ℤ) : ℚ) * 2 ^ ulpExp a := by
      rw [add_comm, zpow_add₀ (by norm_num)]; norm_num
    have e2 : (2 : ℚ) ^ (ulpExp b + 52) = ((2 ^ 52 : ℤ) : ℚ) * 2 ^ ulpExp b := by
      rw [add_comm, zpow_add₀ (by norm_num)]; norm_num
    have p := rne_le (q := a) (k := 2 ^ 53) (by rw [← e1]; exact ha.le)
    have q := rne_ge (q := b) (k := 2 ^ 52) (by rw [← e2]; exact hb)
    rw [← e1] at p
    rw [← e2] at q
    linarith
  · unfold rne
    rw [hE]
    have hp := two_zpow_pos (ulpExp b)
    have : roundEven (a / 2 ^ ulpExp b) ≤ roundEven (b / 2 ^ ulpExp b) :=
      roundEven_mono ((div_le_div_iff_of_pos_right hp).2 h)
    have : (roundEven (a / 2 ^ ulpExp b) : ℚ) ≤ roundEven (b / 2 ^ ulpExp b) := by exact_mod_cast this
    nlinarith

/-- Rounding is monotone. -/
theorem rne_mono {a b : ℚ} (h : a ≤ b) : rne a ≤ rne b := by
  by_cases ha : 0 ≤ a
  · exact rne_mono_nonneg ha h
  · by_cases hb : 0 ≤ b
    · have h1 := rne_nonneg (q := -a) (by linarith)
      rw [rne_neg] at h1
      have := rne_nonneg hb
      linarith
    · have := rne_mono_nonneg (a := -b) (b := -a) (by linarith) (by linarith)
      rw [rne_neg, rne_neg] at this
      linarith

/-- A rounded number is a double. -/
theorem isDbl_rne (q : ℚ) : IsDbl (rne q) := by
  have hlt := lt_ulp q
  have hp := two_zpow_pos (ulpExp q)
  rw [add_comm, zpow_add₀ (by norm_num)] at hlt
  have hb : |roundEven (q / 2 ^ ulpExp q)| ≤ 2 ^ 53 := by
    rw [abs_lt] at hlt
    have e : (2 : ℚ) ^ (53 : ℤ) = ((2 ^ 53 : ℤ) : ℚ) := by norm_num
    rw [e] at hlt
    rw [abs_le]
    constructor
    · refine roundEven_ge ?_
      rw [le_div_iff₀ hp]; push_cast at hlt ⊢; linarith
    · refine roundEven_le ?_
      rw [div_le_iff₀ hp]; exact hlt.2.le
  have hE := ulpExp_ge q
  unfold rne
  rcases hb.lt_or_eq with hb | hb
  · exact isDbl_of hb hE
  · obtain ⟨s, hs, hs'⟩ : ∃ s : ℤ, |s| = 1 ∧ roundEven (q / 2 ^ ulpExp q) = s * 2 ^ 53 := by
      rcases abs_eq (by decide : (0 : ℤ) ≤ 2 ^ 53) |>.1 hb with h | h
      · exact ⟨1, by decide, by rw [h, one_mul]⟩
      · exact ⟨-1, by decide, by rw [h]; ring⟩
    rw [hs']
    have := isDbl_of (m := s) (e := ulpExp q + 53) (by rw [hs]; decide) (by omega)
    rw [add_comm, zpow_add₀ (by norm_num), ← mul_assoc] at this
    push_cast
    have e : (2 : ℚ) ^ (53 : ℤ) = 2 ^ 53 := by norm_num
    rw [e] at this
    exact this

end Ublox.Dbl64
