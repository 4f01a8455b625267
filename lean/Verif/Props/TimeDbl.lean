import Verif.Model.TimeDbl
import Verif.Lemmas.Double
import Verif.Props.Time
import Verif.Lemmas.Base

/-!
# C71 and C91: `UTCTime` and `double`, with IEEE rounding
-/

namespace Ublox.UTCTime

open Dbl64

theorem E9_pow : (2 : ℚ) ^ (29 : ℤ) < 1000000000 ∧ (1000000000 : ℚ) < 2 ^ (30 : ℤ) := by
  constructor <;> norm_num

/-- The product with 10^9 of a double is rounded by less than the distance of the double to the next whole second, so the
truncated product lies in the right second. -/
theorem nanos_second {x : ℚ} (hx : IsDbl x) (h0 : 0 ≤ x) (h1 : x * 1000000000 < 2 ^ (62 : ℤ)) :
    (⌊x⌋ : ℚ) * 1000000000 ≤ rne (x * 1000000000) ∧ rne (x * 1000000000) < (⌊x⌋ + 1) * 1000000000 := by
  have hy0 : 0 ≤ x * 1000000000 := by linarith
  constructor
  · -- whole seconds are on the grid
    have hE : ulpExp (x * 1000000000) ≤ 9 := by
      have := ulpExp_le (q := x * 1000000000) (n := 62) (by rw [abs_of_nonneg hy0]; exact h1)
      omega
    have hg : (⌊x⌋ : ℚ) * 1000000000 =
        ((⌊x⌋ * 1953125 * 2 ^ (9 - ulpExp (x * 1000000000)).toNat : ℤ) : ℚ) * 2 ^ ulpExp (x * 1000000000) := by
      rw [Int.cast_mul, zpow_nonneg_cast (by omega), mul_assoc, ← zpow_add₀ (by norm_num), sub_add_cancel]
      push_cast
      norm_num
      ring
    rw [hg]
    refine rne_ge ?_
    rw [← hg]
    have := Int.floor_le x
    linarith
  · obtain ⟨m, hm⟩ := hx
    have hxlt := lt_ulp x
    have hb : x < 2 ^ (33 : ℤ) := by
      have : (2 : ℚ) ^ (62 : ℤ) = 2 ^ (33 : ℤ) * 2 ^ (29 : ℤ) := by norm_num
      have h29 := E9_pow.1
      rw [this] at h1
      nlinarith [two_zpow_pos 33]
    have he : ulpExp x ≤ -20 := by
      have := ulpExp_le (q := x) (n := 33) (by rw [abs_of_nonneg h0]; exact hb)
      omega
    generalize hue : ulpExp x = e at *
    have hep := two_zpow_pos e
    -- distance to the next second
    have hgap : x + 2 ^ e ≤ ⌊x⌋ + 1 := by
      have hint : ((⌊x⌋ : ℚ) + 1) = (((⌊x⌋ + 1) * 2 ^ (-e).toNat : ℤ) : ℚ) * 2 ^ e := by
        rw [Int.cast_mul, zpow_nonneg_cast (by omega), mul_assoc, ← zpow_add₀ (by norm_num)]
        simp
      have hlt := Int.lt_floor_add_one x
      rw [hint] at hlt ⊢
      generalize (⌊x⌋ + 1) * 2 ^ (-e).toNat = k at *
      have hmk : m < k := by
        have : (m : ℚ) * 2 ^ e < k * 2 ^ e := by rw [← hm]; exact hlt
        exact_mod_cast lt_of_mul_lt_mul_right this hep.le
      have hmk' : (m : ℚ) + 1 ≤ k := by exact_mod_cast hmk
      rw [hm]
      nlinarith
    -- rounding error of the product
    have hE : ulpExp (x * 1000000000) ≤ e + 30 := by
      have hge := ulpExp_ge x
      rw [hue] at hge
      have := ulpExp_le (q := x * 1000000000) (n := e + 83) (by
        rw [abs_of_nonneg hy0]
        rw [abs_of_nonneg h0] at hxlt
        have h30 := E9_pow.2
        have : (2 : ℚ) ^ (e + 83) = 2 ^ (e + 53) * 2 ^ (30 : ℤ) := by
          rw [← zpow_add₀ (by norm_num)]; congr 1; ring
        rw [this]
        have hp := two_zpow_pos (e + 53)
        nlinarith) (by omega)
      omega
    have herr := rne_err (x * 1000000000)
    rw [abs_le] at herr
    have h2 : (2 : ℚ) ^ ulpExp (x * 1000000000) ≤ 2 ^ (e + 30) := zpow_le_zpow_right₀ (by norm_num) hE
    have h3 : (2 : ℚ) ^ (e + 30) = 2 ^ e * 2 ^ (29 : ℤ) * 2 := by
      rw [zpow_add₀ (by norm_num)]; norm_num; ring
    have h29 := E9_pow.1
    nlinarith

theorem trunc_nonneg {q : ℚ} (h : 0 ≤ q) : trunc q = ⌊q⌋ := by
  unfold trunc; rw [if_pos h]

theorem trunc_int (k : ℤ) : trunc (k : ℚ) = k := by
  unfold trunc
  split
  · exact Int.floor_intCast k
  · rw [← Int.cast_neg, Int.floor_intCast]; omega

theorem toI64_int {k : ℤ} (h : |k| < 2 ^ 53) : toI64 (k : ℚ) = .ok k := by
  unfold toI64
  rw [trunc_int, if_pos (by rw [abs_lt] at h; omega)]

theorem rne_int {k : ℤ} (h : |k| < 2 ^ 53) : rne (k : ℚ) = k := rne_dbl (isDbl_int h)

/-- The number of nanoseconds the code sees in `x` seconds. -/
def seen (x : ℚ) : ℤ := ⌊rne (x * 1000000000)⌋

theorem seen_div {x : ℚ} (hx : IsDbl x) (h0 : 0 ≤ x) (h1 : x * 1000000000 < 2 ^ (62 : ℤ)) :
    seen x / 1000000000 = ⌊x⌋ ∧ 0 ≤ seen x ∧ seen x < 2 ^ 63 := by
  obtain ⟨a, b⟩ := nanos_second hx h0 h1
  have hf : 0 ≤ ⌊x⌋ := Int.floor_nonneg.2 h0
  have ha : ⌊x⌋ * 1000000000 ≤ seen x := Int.le_floor.2 (by push_cast; exact a)
  have hb : seen x < (⌊x⌋ + 1) * 1000000000 := Int.floor_lt.2 (by push_cast; exact b)
  have hl : ⌊x⌋ < 2 ^ 33 := by
    refine Int.floor_lt.2 ?_
    have : (2 : ℚ) ^ (62 : ℤ) = 4611686018427387904 := by norm_num
    rw [this] at h1
    push_cast
    linarith
  omega

theorem fracNanos_ok {x : ℚ} (hx : IsDbl x) (h0 : 0 ≤ x) (h1 : x * 1000000000 < 2 ^ (62 : ℤ)) :
    fracNanos x = .ok (seen x % 1000000000) := by
  obtain ⟨a, b, c⟩ := seen_div hx h0 h1
  have hr : 0 ≤ rne (x * 1000000000) := by
    have := Int.floor_le (rne (x * 1000000000))
    have hb : (0 : ℚ) ≤ (seen x : ℚ) := by exact_mod_cast b
    unfold seen at hb
    linarith
  have ht : trunc (rne (x * 1000000000)) = seen x := trunc_nonneg hr
  unfold fracNanos toU64
  rw [ht, if_pos (by omega)]
  rfl

/-- What is seen is right to the nanosecond for 104 days, and to 256 ns for 146 years. -/
theorem seen_near {x : ℚ} (h0 : 0 ≤ x) :
    (x * 1000000000 < 2 ^ (53 : ℤ) → |(seen x : ℚ) - x * 1000000000| < 1) ∧
    (x * 1000000000 < 2 ^ (62 : ℤ) → |(seen x : ℚ) - x * 1000000000| ≤ 256) := by
  have hy0 : 0 ≤ x * 1000000000 := by linarith
  unfold seen
  generalize x * 1000000000 = y at *
  have hsmall : ulpExp y ≤ 0 → |(⌊rne y⌋ : ℚ) - y| < 1 := by
    intro hE
    have hgrid : ∀ k : ℤ, (k : ℚ) = ((k * 2 ^ (-ulpExp y).toNat : ℤ) : ℚ) * 2 ^ ulpExp y := by
      intro k
      rw [Int.cast_mul, zpow_nonneg_cast (by omega), mul_assoc, ← zpow_add₀ (by norm_num)]
      simp
    have hlo : (⌊y⌋ : ℚ) ≤ rne y := by
      rw [hgrid ⌊y⌋]
      exact rne_ge (by rw [← hgrid]; exact Int.floor_le y)
    have hhi : rne y ≤ (⌈y⌉ : ℚ) := by
      rw [hgrid ⌈y⌉]
      exact rne_le (by rw [← hgrid]; exact Int.le_ceil y)
    have a : ⌊y⌋ ≤ ⌊rne y⌋ := Int.le_floor.2 hlo
    have b : (⌊rne y⌋ : ℚ) ≤ ⌈y⌉ := le_trans (Int.floor_le _) hhi
    have a' : (⌊y⌋ : ℚ) ≤ ⌊rne y⌋ := by exact_mod_cast a
    have c := Int.lt_floor_add_one y
    have d := Int.ceil_lt_add_one y
    rw [abs_lt]
    constructor <;> linarith
  refine ⟨fun h => hsmall ?_, fun h => ?_⟩
  · have := ulpExp_le (q := y) (n := 53) (by rw [abs_of_nonneg hy0]; exact h)
    omega
  · by_cases hE : ulpExp y ≤ 0
    · have := hsmall hE
      linarith
    · have hE9 := ulpExp_le (q := y) (n := 62) (by rw [abs_of_nonneg hy0]; exact h)
      have hint : rne y = ((roundEven (y / 2 ^ ulpExp y) * 2 ^ (ulpExp y).toNat : ℤ) : ℚ) := by
        rw [Int.cast_mul, zpow_nonneg_cast (by omega)]; rfl
      have hfl : (⌊rne y⌋ : ℚ) = rne y := by rw [hint, Int.floor_intCast]
      rw [hfl]
      refine le_trans (rne_err y) ?_
      have : (2 : ℚ) ^ ulpExp y ≤ 2 ^ (9 : ℤ) := zpow_le_zpow_right₀ (by norm_num) (by omega)
      have h9 : (2 : ℚ) ^ (9 : ℤ) = 512 := by norm_num
      linarith

/-- **C71 (partial), with IEEE rounding.** For every double `x` of 0 to 146 years (`x · 10^9 < 2^62`) and every time `t`
(seconds below 2^52), `t + x`, `t - x` and `UTCTime(x)` are the instants `t ± x` and `x` up to 256 ns, and to the nanosecond
for every `x` below 104 days (`x · 10^9 < 2^53`); a time constructed from a double is normalised.  Missing: negative `x`
(`c71_refuted`). -/
theorem c71_ieee_partial (t : UTCTime) (x : ℚ) (hx : IsDbl x) (h0 : 0 ≤ x) (h1 : x * 1000000000 < 2 ^ (62 : ℤ))
    (ht : |t.sec| < 2 ^ 52) :
    ∃ a b c, t.plusDbl x = .ok a ∧ t.minusDbl x = .ok b ∧ ofDbl x = .ok c ∧ c.Norm ∧
      (|(a.ns : ℚ) - (t.ns + x * 1000000000)| ≤ 256 ∧ |(b.ns : ℚ) - (t.ns - x * 1000000000)| ≤ 256 ∧
        |(c.ns : ℚ) - x * 1000000000| ≤ 256) ∧
      (x * 1000000000 < 2 ^ (53 : ℤ) → |(a.ns : ℚ) - (t.ns + x * 1000000000)| < 1 ∧
        |(b.ns : ℚ) - (t.ns - x * 1000000000)| < 1 ∧ |(c.ns : ℚ) - x * 1000000000| < 1) := by
  obtain ⟨q1, q2, q3⟩ := seen_div hx h0 h1
  obtain ⟨n1, n2⟩ := seen_near h0
  have n2 := n2 h1
  have hf := fracNanos_ok hx h0 h1
  have hfl : 0 ≤ ⌊x⌋ ∧ ⌊x⌋ < 2 ^ 34 := by omega
  rw [abs_lt] at ht
  have e1 : rne (rne t.sec + (⌊x⌋ : ℤ)) = ((t.sec + ⌊x⌋ : ℤ) : ℚ) := by
    rw [rne_int (by rw [abs_lt]; omega), ← Int.cast_add, rne_int (by rw [abs_lt]; omega)]
  have e2 : rne (rne t.sec - (⌊x⌋ : ℤ)) = ((t.sec - ⌊x⌋ : ℤ) : ℚ) := by
    rw [rne_int (by rw [abs_lt]; omega), ← Int.cast_sub, rne_int (by rw [abs_lt]; omega)]
  have ra : t.plusDbl x = .ok (wrapNsec ⟨t.sec + ⌊x⌋, t.nsec + seen x % 1000000000⟩) := by
    unfold plusDbl
    rw [hf, ok_bind, e1, toI64_int (by rw [abs_lt]; omega)]
    rfl
  have rb : t.minusDbl x = .ok (wrapNsec ⟨t.sec - ⌊x⌋, t.nsec - seen x % 1000000000⟩) := by
    unfold minusDbl
    rw [hf, ok_bind, e2, toI64_int (by rw [abs_lt]; omega)]
    rfl
  have rc : ofDbl x = .ok (wrapNsec ⟨⌊x⌋, seen x % 1000000000⟩) := by
    unfold ofDbl
    rw [toI64_int (by rw [abs_lt]; omega), ok_bind, hf]
    rfl
  have a1 : (wrapNsec ⟨t.sec + ⌊x⌋, t.nsec + seen x % 1000000000⟩).ns = t.ns + seen x := by
    rw [wrap_ns]; simp only [ns]; omega
  have b1 : (wrapNsec ⟨t.sec - ⌊x⌋, t.nsec - seen x % 1000000000⟩).ns = t.ns - seen x := by
    rw [wrap_ns]; simp only [ns]; omega
  have c1 : (wrapNsec ⟨⌊x⌋, seen x % 1000000000⟩).ns = seen x := by
    rw [wrap_ns]; simp only [ns]; omega
  refine ⟨_, _, _, ra, rb, rc, ?_, ⟨?_, ?_, ?_⟩, fun h => ⟨?_, ?_, ?_⟩⟩
  · rcases wrap_cases ⌊x⌋ (seen x % 1000000000) with ⟨h1, e⟩ | ⟨h1, e⟩ | ⟨h1, h2, e⟩ <;> rw [e] <;> unfold Norm <;>
      simp only <;> omega
  · rw [a1]; push_cast; rw [show (t.ns : ℚ) + seen x - (t.ns + x * 1000000000) = seen x - x * 1000000000 by ring]
    exact n2
  · rw [b1]; push_cast
    rw [show (t.ns : ℚ) - seen x - (t.ns - x * 1000000000) = -(seen x - x * 1000000000) by ring, abs_neg]
    exact n2
  · rw [c1]; exact n2
  · rw [a1]; push_cast; rw [show (t.ns : ℚ) + seen x - (t.ns + x * 1000000000) = seen x - x * 1000000000 by ring]
    exact n1 h
  · rw [b1]; push_cast
    rw [show (t.ns : ℚ) - seen x - (t.ns - x * 1000000000) = -(seen x - x * 1000000000) by ring, abs_neg]
    exact n1 h
  · rw [c1]; exact n1 h

/-- **C71 refuted** for negative numbers of seconds: from one nanosecond down, all three operations convert a negative double
to an unsigned integer, which is undefined; and adding -2^-31 s (half a nanosecond) moves the time by a whole second. -/
theorem c71_ieee_refuted :
    (∀ (t : UTCTime) (x : ℚ), x * 1000000000 ≤ -1 →
      t.plusDbl x = .error .overflow ∧ t.minusDbl x = .error .overflow ∧ ofDbl x ≠ .ok t) ∧
    plusDbl ⟨10, 0⟩ (-1 / 2 ^ 31) = .ok ⟨9, 0⟩ := by
  refine ⟨fun t x hx => ?_, by decide +kernel⟩
  have h := rne_le_neg_one hx
  have hf : fracNanos x = .error .overflow := by
    unfold fracNanos toU64
    have : trunc (rne (x * 1000000000)) ≤ -1 := by
      unfold trunc
      rw [if_neg (by linarith)]
      have : (1 : ℤ) ≤ ⌊-rne (x * 1000000000)⌋ := Int.le_floor.2 (by push_cast; linarith)
      omega
    rw [if_neg (by omega)]
    rfl
  refine ⟨by unfold plusDbl; rw [hf]; rfl, by unfold minusDbl; rw [hf]; rfl, fun h => ?_⟩
  unfold ofDbl at h
  rw [bind_ok] at h
  obtain ⟨s, -, h⟩ := h
  rw [hf] at h
  cases h

/-- The hypotheses of `c71_ieee_partial` are met: a quarter second is a double, and the theorem gives the exact sum. -/
example : IsDbl (1 / 4) ∧ plusDbl ⟨1600000000, 900000000⟩ (1 / 4) = .ok ⟨1600000001, 150000000⟩ ∧
    minusDbl ⟨1600000000, 100000000⟩ (1 / 4) = .ok ⟨1599999999, 850000000⟩ ∧ ofDbl (5 / 4) = .ok ⟨1, 250000000⟩ := by
  refine ⟨?_, by decide +kernel, by decide +kernel, by decide +kernel⟩
  have := isDbl_of (m := 1) (e := -2) (by decide) (by decide)
  have e : ((1 : ℤ) : ℚ) * 2 ^ (-2 : ℤ) = 1 / 4 := by norm_num
  rwa [e] at this

/-! ## C91: `toSec` -/

theorem nano_const : rne (1 / 1000000000) = 4835703278458517 / 2 ^ 82 := by decide +kernel

/-- The rounded product `nsec * 1e-9`. -/
theorem nsec_part {n : ℤ} (h0 : 0 ≤ n) (h1 : n ≤ 1000000000) :
    0 ≤ rne (n * rne (1 / 1000000000)) ∧ rne (n * rne (1 / 1000000000)) ≤ 1 ∧
    |rne (n * rne (1 / 1000000000)) - n / 1000000000| ≤ 1 / 2 ^ 50 := by
  have hn0 : (0 : ℚ) ≤ n := by exact_mod_cast h0
  have hn1 : (n : ℚ) ≤ 1000000000 := by exact_mod_cast h1
  rw [nano_const]
  have hle : rne (n * (4835703278458517 / 2 ^ 82)) ≤ 1 := by
    have := rne_mono (a := n * (4835703278458517 / 2 ^ 82)) (b := 1000000000 * (4835703278458517 / 2 ^ 82)) (by
      refine mul_le_mul_of_nonneg_right hn1 (by norm_num))
    have e : rne (1000000000 * (4835703278458517 / 2 ^ 82)) = 1 := by decide +kernel
    rw [e] at this
    exact this
  refine ⟨rne_nonneg (mul_nonneg hn0 (by norm_num)), hle, ?_⟩
  have h2 := rne_err (n * (4835703278458517 / 2 ^ 82))
  have hE := ulpExp_le (q := n * (4835703278458517 / 2 ^ 82)) (n := 1) (by
    rw [abs_of_nonneg (mul_nonneg hn0 (by norm_num))]
    calc (n : ℚ) * (4835703278458517 / 2 ^ 82) ≤ 1000000000 * (4835703278458517 / 2 ^ 82) :=
          mul_le_mul_of_nonneg_right hn1 (by norm_num)
      _ < 2 ^ (1 : ℤ) := by norm_num)
  have h3 : (2 : ℚ) ^ ulpExp (n * (4835703278458517 / 2 ^ 82)) ≤ 2 ^ (-52 : ℤ) := zpow_le_zpow_right₀ (by norm_num) (by omega)
  have h4 : (2 : ℚ) ^ (-52 : ℤ) = 1 / 2 ^ 52 := by norm_num
  rw [h4] at h3
  rw [abs_le] at h2 ⊢
  norm_num at h2 h3 ⊢
  constructor <;> linarith

/-- **C91.** For every normalised time whose seconds fit 31 bits (1970 to 2038), the double returned by `toSec` is within
2^-23 + 2^-50 seconds (120 ns) of the exact number of seconds, ... -/
theorem c91_accurate (t : UTCTime) (hn : t.Norm) (h0 : 0 ≤ t.sec) (h1 : t.sec < 2 ^ 31) :
    |t.toSec - t.ns / 1000000000| ≤ 1 / 2 ^ 23 + 1 / 2 ^ 50 ∧
    ∃ r, ofDbl t.toSec = .ok r ∧ r.Norm ∧ |(r.ns : ℚ) - t.ns| ≤ 376 := by
  obtain ⟨hn0, hn1⟩ := hn
  obtain ⟨p0, p1, p2⟩ := nsec_part hn0 (by omega)
  have es : rne (t.sec : ℚ) = t.sec := rne_int (by rw [abs_lt]; omega)
  have en : rne (t.nsec : ℚ) = t.nsec := rne_int (by rw [abs_lt]; omega)
  have hns : (t.ns : ℚ) / 1000000000 = t.sec + t.nsec / 1000000000 := by
    unfold ns; push_cast; ring
  have hs0 : (0 : ℚ) ≤ t.sec := by exact_mod_cast h0
  have hs1 : (t.sec : ℚ) ≤ 2 ^ 31 - 1 := by
    have : t.sec ≤ 2 ^ 31 - 1 := by omega
    exact_mod_cast this
  have hts : t.toSec = rne (t.sec + rne (t.nsec * rne (1 / 1000000000))) := by unfold toSec; rw [es, en]
  generalize rne (t.nsec * rne (1 / 1000000000)) = p at *
  have hle : t.toSec ≤ 2 ^ 31 := by
    have := rne_mono (a := t.sec + p) (b := ((2 ^ 31 : ℤ) : ℚ)) (by push_cast; linarith)
    rw [rne_int (by decide)] at this
    rw [hts]
    push_cast at this
    exact this
  have hacc : |t.toSec - t.ns / 1000000000| ≤ 1 / 2 ^ 23 + 1 / 2 ^ 50 := by
    rw [hns, hts]
    by_cases hb : t.sec + p < 2 ^ 31
    · have hE := ulpExp_le (q := t.sec + p) (n := 31) (by rw [abs_of_nonneg (by linarith)]; exact_mod_cast hb)
      have h3 : (2 : ℚ) ^ ulpExp (t.sec + p) ≤ 2 ^ (-22 : ℤ) := zpow_le_zpow_right₀ (by norm_num) (by omega)
      have h4 : (2 : ℚ) ^ (-22 : ℤ) = 1 / 2 ^ 22 := by norm_num
      have h2 := rne_err (t.sec + p)
      rw [h4] at h3
      rw [abs_le] at h2 p2 ⊢
      norm_num at h2 h3 p2 ⊢
      constructor <;> linarith
    · have : (t.sec : ℚ) + p = ((2 ^ 31 : ℤ) : ℚ) := by push_cast; linarith
      rw [this, rne_int (by decide), ← this]
      rw [abs_le] at p2 ⊢
      norm_num at p2 ⊢
      constructor <;> linarith
  have hd : IsDbl t.toSec := by rw [hts]; exact isDbl_rne _
  have hnn : 0 ≤ t.toSec := by rw [hts]; exact rne_nonneg (by linarith)
  obtain ⟨a, b, c, -, -, hc, hcn, ⟨-, -, hce⟩, -⟩ := c71_ieee_partial ⟨0, 0⟩ t.toSec hd hnn (by
    have : (2 : ℚ) ^ (62 : ℤ) = 4611686018427387904 := by norm_num
    rw [this]; linarith) (by decide)
  refine ⟨hacc, c, hc, hcn, ?_⟩
  rw [abs_le] at hacc hce ⊢
  norm_num at hacc hce ⊢
  constructor <;> linarith

/-- ... and never reverses the order of two times. -/
theorem c91_monotone (a b : UTCTime) (ha : a.Norm) (hb : b.Norm) (ha' : |a.sec| < 2 ^ 52) (hb' : |b.sec| < 2 ^ 52)
    (h : a.ns ≤ b.ns) : a.toSec ≤ b.toSec := by
  obtain ⟨a0, a1⟩ := ha
  obtain ⟨b0, b1⟩ := hb
  rw [abs_lt] at ha' hb'
  unfold toSec
  rw [rne_int (k := a.sec) (by rw [abs_lt]; omega), rne_int (k := a.nsec) (by rw [abs_lt]; omega),
    rne_int (k := b.sec) (by rw [abs_lt]; omega), rne_int (k := b.nsec) (by rw [abs_lt]; omega)]
  refine rne_mono ?_
  unfold ns at h
  by_cases hs : a.sec = b.sec
  · rw [hs]
    have : (a.nsec : ℚ) ≤ b.nsec := by
      have : a.nsec ≤ b.nsec := by omega
      exact_mod_cast this
    have := rne_mono (a := a.nsec * rne (1 / 1000000000)) (b := b.nsec * rne (1 / 1000000000))
      (mul_le_mul_of_nonneg_right this (by rw [nano_const]; norm_num))
    linarith
  · have hlt : a.sec + 1 ≤ b.sec := by omega
    have hlt : (a.sec : ℚ) + 1 ≤ b.sec := by exact_mod_cast hlt
    have p := (nsec_part a0 (by omega)).2.1
    have q := (nsec_part b0 (by omega)).1
    linarith

example : Norm ⟨1600000000, 123456789⟩ ∧ toSec ⟨1600000000, 123456789⟩ = 6710886400517815 / 4194304 ∧
    toSec ⟨0, 500000000⟩ = 1 / 2 := by
  refine ⟨by decide, by decide +kernel, by decide +kernel⟩

end Ublox.UTCTime
