import Verif.Spec.Time
import Mathlib.Tactic.SplitIfs
import Mathlib.Data.Rat.Floor
import Mathlib.Tactic.Linarith

/-! # Properties C41 – C47: `UTCTime` -/

namespace Ublox.UTCTime

theorem wrap_ns (t : UTCTime) : (wrapNsec t).ns = t.ns := by
  unfold wrapNsec ns E9; split_ifs <;> simp only <;> omega

theorem wrap_cases (s n : Int) :
    (n < 0 ∧ wrapNsec ⟨s, n⟩ = ⟨s - 1, n + 1000000000⟩) ∨
    (n > 1000000000 ∧ wrapNsec ⟨s, n⟩ = ⟨s + 1, n - 1000000000⟩) ∨
    (0 ≤ n ∧ n ≤ 1000000000 ∧ wrapNsec ⟨s, n⟩ = ⟨s, n⟩) := by
  unfold wrapNsec E9
  by_cases h : n < 0
  · left; simp [h]
  · by_cases h2 : n > 1000000000
    · right; left; simp [h, h2]
    · right; right; simp [h, h2]; omega

/-! ## C41 -/

/-- C41: sums and differences are exact, for all times. -/
theorem c41_exact (a b : UTCTime) :
    (a.add b).ns = a.ns + b.ns ∧ (a.sub b).ns = a.ns - b.ns := by
  unfold add sub
  rw [wrap_ns, wrap_ns]
  unfold ns; constructor <;> simp only <;> omega

/-- C41: `(a + b) - b` and `(a - b) + b` denote `a`, and `a - a` is the zero time. -/
theorem c41_inverse (a b : UTCTime) :
    ((a.add b).sub b).ns = a.ns ∧ ((a.sub b).add b).ns = a.ns ∧ a.sub a = ⟨0, 0⟩ := by
  refine ⟨?_, ?_, ?_⟩
  · rw [(c41_exact _ _).2, (c41_exact _ _).1]; omega
  · rw [(c41_exact _ _).1, (c41_exact _ _).2]; omega
  · simp [sub, wrapNsec, E9]

/-- C41 at the level of representations (so that `==` agrees too): `(a + b) - b` is the same normalised time
as `a` unless the nanoseconds of the sum are exactly `10^9`, and `(a - b) + b` unless `a` is a whole second and
`b` is not; in those cases the intermediate or final value keeps `nsec = 10^9` (C42). -/
theorem c41_repr (a b : UTCTime) (ha : a.Norm) (hb : b.Norm) :
    (a.nsec + b.nsec ≠ 1000000000 → (a.add b).sub b = a) ∧
    (a.nsec ≠ 0 ∨ b.nsec = 0 → (a.sub b).add b = a) := by
  unfold Norm at ha hb
  obtain ⟨as, an⟩ := a; obtain ⟨bs, bn⟩ := b
  simp only at ha hb
  constructor
  · intro h
    simp only [add, sub]
    simp only at h
    rcases wrap_cases (as + bs) (an + bn) with ⟨h1, e⟩ | ⟨h1, e⟩ | ⟨h1, h2, e⟩ <;> rw [e]
    · omega
    · rcases wrap_cases (as + bs + 1 - bs) (an + bn - 1000000000 - bn) with ⟨h1, e⟩ | ⟨h1, e⟩ | ⟨h1, h2, e⟩ <;>
        rw [e, UTCTime.mk.injEq] <;> omega
    · rcases wrap_cases (as + bs - bs) (an + bn - bn) with ⟨h1, e⟩ | ⟨h1, e⟩ | ⟨h1, h2, e⟩ <;>
        rw [e, UTCTime.mk.injEq] <;> omega
  · intro h
    simp only [add, sub]
    simp only at h
    rcases wrap_cases (as - bs) (an - bn) with ⟨h1, e⟩ | ⟨h1, e⟩ | ⟨h1, h2, e⟩ <;> rw [e]
    · rcases wrap_cases (as - bs - 1 + bs) (an - bn + 1000000000 + bn) with ⟨h1, e⟩ | ⟨h1, e⟩ | ⟨h1, h2, e⟩ <;>
        rw [e, UTCTime.mk.injEq] <;> omega
    · omega
    · rcases wrap_cases (as - bs + bs) (an - bn + bn) with ⟨h1, e⟩ | ⟨h1, e⟩ | ⟨h1, h2, e⟩ <;>
        rw [e, UTCTime.mk.injEq] <;> omega

example : (⟨5, 999999999⟩ : UTCTime).Norm ∧ (⟨7, 3⟩ : UTCTime).Norm ∧
    (⟨5, 999999999⟩ : UTCTime).add ⟨7, 3⟩ = ⟨13, 2⟩ := by decide

/-! ## C42 -/

/-- C42, the true part: sums and differences of normalised times have `0 ≤ nsec ≤ 10^9`; differences are always
normalised, and a sum is normalised unless the nanoseconds add up to exactly `10^9`.  Missing: that last
case, where the code leaves `nsec = 10^9` (`c42_refuted`). -/
theorem c42_normal_partial (a b : UTCTime) (ha : a.Norm) (hb : b.Norm) :
    (a.sub b).Norm ∧ 0 ≤ (a.add b).nsec ∧ (a.add b).nsec ≤ 1000000000 ∧
    ((a.add b).Norm ↔ a.nsec + b.nsec ≠ 1000000000) := by
  unfold Norm at *
  simp only [add, sub]
  rcases wrap_cases (a.sec - b.sec) (a.nsec - b.nsec) with ⟨h1, e⟩ | ⟨h1, e⟩ | ⟨h1, h2, e⟩ <;>
    rcases wrap_cases (a.sec + b.sec) (a.nsec + b.nsec) with ⟨h1', e'⟩ | ⟨h1', e'⟩ | ⟨h1', h2', e'⟩ <;>
    rw [e, e'] <;> simp only <;> omega

/-- C42, two-argument constructor: normalised exactly for `-10^9 ≤ nsec < 2·10^9`, `nsec ≠ 10^9`. -/
theorem c42_ctor_partial (s n : Int) :
    (ofInts s n).Norm ↔ (-1000000000 ≤ n ∧ n < 2000000000 ∧ n ≠ 1000000000) := by
  unfold Norm ofInts
  rcases wrap_cases s n with ⟨h1, e⟩ | ⟨h1, e⟩ | ⟨h1, h2, e⟩ <;> rw [e] <;> simp only <;> omega

/-- C42 is false: half a second plus half a second leaves `nsec = 10^9`, which is not even `==` to one second. -/
theorem c42_refuted : ∃ a b : UTCTime, a.Norm ∧ b.Norm ∧ ¬ (a.add b).Norm ∧
    (a.add b).ns = (⟨1, 0⟩ : UTCTime).ns ∧ (a.add b).eq ⟨1, 0⟩ = false :=
  ⟨⟨0, 500000000⟩, ⟨0, 500000000⟩, by decide⟩

/-! ## C43 -/

/-- C43: the comparison operators on normalised times compare instants. -/
theorem c43_order (a b : UTCTime) (ha : a.Norm) (hb : b.Norm) :
    (a.lt b = true ↔ a.ns < b.ns) ∧ (a.gt b = true ↔ a.ns > b.ns) ∧ (a.eq b = true ↔ a.ns = b.ns) := by
  unfold Norm at *
  simp only [lt, gt, eq, ns, Bool.and_eq_true, beq_iff_eq]
  refine ⟨?_, ?_, ?_⟩
  · split_ifs <;> simp <;> omega
  · split_ifs <;> simp <;> omega
  · constructor <;> (intro h; omega)

/-- C43: `<` is a strict total order on all times, with `==` as its equality and `>` as its converse. -/
theorem c43_strict_total (a b c : UTCTime) :
    a.lt a = false ∧ (a.lt b = true → b.lt c = true → a.lt c = true) ∧
    (a.lt b = true ∨ a.eq b = true ∨ b.lt a = true) ∧ (a.gt b = b.lt a) ∧
    (a.eq b = true ↔ a = b) := by
  obtain ⟨as, an⟩ := a; obtain ⟨bs, bn⟩ := b; obtain ⟨cs, cn⟩ := c
  simp only [lt, gt, eq, Bool.and_eq_true, beq_iff_eq, UTCTime.mk.injEq]
  refine ⟨by simp, ?_, ?_, trivial, by simp⟩
  · intro h1 h2; split_ifs at * <;> simp_all <;> omega
  · by_cases h1 : as < bs
    · simp [h1]
    · by_cases h2 : bs < as
      · simp [h2]
      · have : as = bs := by omega
        subst this
        simp; omega

example : (⟨3, 5⟩ : UTCTime).lt ⟨3, 6⟩ = true ∧ (⟨4, 0⟩ : UTCTime).lt ⟨3, 6⟩ = false := by decide

/-! ## C44 -/

/-- What `fromGPS` really computes, for every week 0..3549 and time of week: the milliseconds are taken for
seconds. -/
theorem fromGPS_value (w tow : Int) (hw : 0 ≤ w) (hw' : w ≤ 3549) (h0 : 0 ≤ tow) (h1 : tow < 604800000) :
    ∃ t, fromGPS w tow = .ok t ∧
      t.ns = (315964818 + w * 604800 + tow / 1000 + tow % 1000) * 1000000000 := by
  have e1 : tow.tdiv 1000 = tow / 1000 := Int.tdiv_eq_ediv_of_nonneg h0
  have e2 : tow.tmod 1000 = tow % 1000 := Int.tmod_eq_emod_of_nonneg h0
  have b1 : int32 (w * SEC_IN_WEEK) = .ok (w * SEC_IN_WEEK) := by
    unfold int32 SEC_IN_WEEK; rw [if_pos (by omega)]
  have b2 : int32 (w * SEC_IN_WEEK + tow / 1000) = .ok (w * SEC_IN_WEEK + tow / 1000) := by
    unfold int32 SEC_IN_WEEK; rw [if_pos (by omega)]
  refine ⟨wrapNsec ⟨w * SEC_IN_WEEK + tow / 1000 + GPS_UTC_OFFSET, tow % 1000 * E9⟩, ?_, ?_⟩
  · simp only [fromGPS, b1, b2, e1, e2, bind, Except.bind]
  · rw [wrap_ns]; simp only [ns, SEC_IN_WEEK, GPS_UTC_OFFSET, E9]; omega

/-- C44, the true part: for whole seconds (`tow_ms` a multiple of 1000, as in every call of the ephemeris decoders) the
instant is exact, the result is normalised, nothing overflows and `GpsWeek()` inverts it.
Missing: times of week that are not whole seconds, for which the property is false (`c44_refuted`). -/
theorem c44_fromGPS_partial (w s : Int) (hw : 0 ≤ w) (hw' : w ≤ 3549) (h0 : 0 ≤ s) (h1 : s < 604800) :
    ∃ t, fromGPS w (s * 1000) = .ok t ∧ t.Norm ∧
      t.ns = (315964818 + w * 604800 + s) * 1000000000 ∧ t.gpsWeek = w := by
  have e1 : (s * 1000).tdiv 1000 = s := by rw [Int.tdiv_eq_ediv_of_nonneg (by omega)]; omega
  have e2 : (s * 1000).tmod 1000 = 0 := by rw [Int.tmod_eq_emod_of_nonneg (by omega)]; omega
  have b1 : int32 (w * SEC_IN_WEEK) = .ok (w * SEC_IN_WEEK) := by
    unfold int32 SEC_IN_WEEK; rw [if_pos (by omega)]
  have b2 : int32 (w * SEC_IN_WEEK + s) = .ok (w * SEC_IN_WEEK + s) := by
    unfold int32 SEC_IN_WEEK; rw [if_pos (by omega)]
  refine ⟨⟨w * SEC_IN_WEEK + s + GPS_UTC_OFFSET, 0⟩, ?_, ?_, ?_, ?_⟩
  · simp only [fromGPS, b1, b2, e1, e2, bind, Except.bind, wrapNsec, E9]; simp
  · simp [Norm]
  · simp only [ns, SEC_IN_WEEK, GPS_UTC_OFFSET]; omega
  · simp only [gpsWeek, SEC_IN_WEEK, GPS_UTC_OFFSET]
    rw [Int.tdiv_eq_ediv_of_nonneg (by omega)]; omega

/-- C44 is false: one millisecond becomes one second, and half a second moves the instant by 500 s. -/
theorem c44_refuted :
    (∃ t, fromGPS 2000 1 = .ok t ∧ t.ns = (315964818 + 2000 * 604800 + 1) * 1000000000) ∧
    (∃ t, fromGPS 2000 500 = .ok t ∧ t.ns = (315964818 + 2000 * 604800 + 500) * 1000000000 ∧ ¬ t.Norm) :=
  ⟨⟨_, rfl, by decide⟩, ⟨_, rfl, by decide, by decide⟩⟩

/-- The `int` arithmetic overflows from week 3551 on. -/
theorem c44_overflow (w tow : Int) (hw : 3551 ≤ w) : fromGPS w tow = .error .overflow := by
  have : int32 (w * SEC_IN_WEEK) = .error .overflow := by
    unfold int32 SEC_IN_WEEK; rw [if_neg (by omega)]
  simp only [fromGPS, this, bind, Except.bind]

example : (0 : Int) ≤ 2062 ∧ (2062 : Int) ≤ 3549 := by decide

/-! ## C45 -/

/-- C45, the true part: whole seconds.  The weeks covered are all those the Moscow-time week number can take
from the epoch (1970) until the 32-bit product overflows. -/
theorem c45_fromGlonass_partial (w s : Int) (hw : 0 ≤ w) (hw' : w ≤ 3550) (h0 : 0 ≤ s) (h1 : s < 604800) :
    ∃ t, fromGlonass w (s * 1000) = .ok t ∧ t.Norm ∧
      t.ns = (w * 604800 + s - 10800) * 1000000000 ∧ t.glonassWeek = w ∧ t.glonassDayOfWeek = s / 86400 := by
  have e1 : (s * 1000).tdiv 1000 = s := by rw [Int.tdiv_eq_ediv_of_nonneg (by omega)]; omega
  have e2 : (s * 1000).tmod 1000 = 0 := by rw [Int.tmod_eq_emod_of_nonneg (by omega)]; omega
  have b1 : int32 (w * SEC_IN_WEEK) = .ok (w * SEC_IN_WEEK) := by
    unfold int32 SEC_IN_WEEK; rw [if_pos (by omega)]
  refine ⟨⟨w * SEC_IN_WEEK + s + GLO_UTC_OFFSET, 0⟩, ?_, ?_, ?_, ?_, ?_⟩
  · simp only [fromGlonass, b1, e1, e2, bind, Except.bind, wrapNsec, E9]; simp
  · simp [Norm]
  · simp only [ns, SEC_IN_WEEK, GLO_UTC_OFFSET]; omega
  · simp only [glonassWeek, SEC_IN_WEEK, GLO_UTC_OFFSET]
    rw [Int.tdiv_eq_ediv_of_nonneg (by omega)]; omega
  · simp only [glonassDayOfWeek, SEC_IN_WEEK, GLO_UTC_OFFSET, SEC_IN_DAY]
    rw [Int.tmod_eq_emod_of_nonneg (by omega), Int.tdiv_eq_ediv_of_nonneg (by omega)]; omega

/-- C45 is false for other milliseconds. -/
theorem c45_refuted :
    ∃ t, fromGlonass 2000 1 = .ok t ∧ t.ns = (2000 * 604800 + 1 - 10800) * 1000000000 :=
  ⟨_, rfl, by decide⟩

/-! ## C46 -/

/-- C46, the true part: for a whole-second time of day the result has that Moscow time of day, lies on the
reference's Moscow day, hence within 24 h of the reference.
Missing: it is not always the closest such instant (`c46_refuted`). -/
theorem c46_tod_partial (ref : UTCTime) (tod : Int) (hr : 0 ≤ ref.sec) (hr' : ref.sec ≤ 2147000000)
    (h0 : 0 ≤ tod) (h1 : tod < 86400) :
    ∃ t, fromGlonassTimeOfDay ref (tod * 1000) = .ok t ∧ t.nsec = 0 ∧ moscowTod t.sec = tod ∧
      (t.sec + 10800) / 86400 = (ref.sec + 10800) / 86400 ∧
      -86400 < t.sec - ref.sec ∧ t.sec - ref.sec < 86400 := by
  have hw : ref.glonassWeek = (ref.sec + 10800) / 604800 := by
    simp only [glonassWeek, SEC_IN_WEEK, GLO_UTC_OFFSET]
    rw [Int.tdiv_eq_ediv_of_nonneg (by omega)]; omega
  have hd : ref.glonassDayOfWeek = (ref.sec + 10800) % 604800 / 86400 := by
    simp only [glonassDayOfWeek, SEC_IN_WEEK, GLO_UTC_OFFSET, SEC_IN_DAY]
    rw [Int.tmod_eq_emod_of_nonneg (by omega), Int.tdiv_eq_ediv_of_nonneg (by omega)]; omega
  have hb : (ref.glonassDayOfWeek * SEC_IN_DAY * 1000 + tod * 1000).bmod (2 ^ 32)
      = (ref.glonassDayOfWeek * 86400 + tod) * 1000 := by
    rw [hd, Int.bmod_eq_of_le]
    all_goals simp only [SEC_IN_DAY]
    all_goals omega
  obtain ⟨t, e, hn, hv, -, -⟩ := c45_fromGlonass_partial ref.glonassWeek (ref.glonassDayOfWeek * 86400 + tod)
    (by omega) (by omega) (by omega) (by omega)
  refine ⟨t, ?_, ?_⟩
  · simp only [fromGlonassTimeOfDay]; rw [hb]; exact e
  · unfold Norm at hn
    unfold ns at hv
    have hs : t.nsec = 0 := by omega
    have hs' : t.sec = ref.glonassWeek * 604800 + (ref.glonassDayOfWeek * 86400 + tod) - 10800 := by omega
    unfold moscowTod
    rw [hw, hd] at hs'
    refine ⟨hs, ?_⟩
    generalize ref.sec = r at *
    omega

/-- C46 is false: at 01:00 Moscow time, 23:00 resolves to the coming evening although last night's 23:00 is two
hours away. -/
theorem c46_refuted : ∃ ref : UTCTime, ref.Norm ∧ ∃ t, fromGlonassTimeOfDay ref (82800 * 1000) = .ok t ∧
    t.sec - ref.sec = 22 * 3600 ∧
    moscowTod (t.sec - 86400) = moscowTod t.sec ∧ ref.sec - (t.sec - 86400) = 2 * 3600 :=
  ⟨⟨1563919200, 0⟩, by decide, _, rfl, by decide⟩

example : (0 : Int) ≤ (⟨1563919200, 0⟩ : UTCTime).sec ∧ (⟨1563919200, 0⟩ : UTCTime).sec ≤ 2147000000 := by decide

/-! ## C47 -/

/-- C47, the true part: the whole seconds agree, and the results are equal exactly when `t` has no sub-second part.
Missing: `t + n` and `t - n` drop the nanoseconds. -/
theorem c47_int_partial (t : UTCTime) (n : Int) :
    (t.addInt n).sec = (t.addIntAssign n).sec ∧ (t.subInt n).sec = (t.subIntAssign n).sec ∧
    (t.addIntAssign n).ns = t.ns + n * 1000000000 ∧ (t.subIntAssign n).ns = t.ns - n * 1000000000 ∧
    (t.addInt n = t.addIntAssign n ↔ t.nsec = 0) ∧ (t.subInt n = t.subIntAssign n ↔ t.nsec = 0) := by
  simp only [addInt, addIntAssign, subInt, subIntAssign, ns, UTCTime.mk.injEq]
  refine ⟨trivial, trivial, by omega, by omega, ?_, ?_⟩ <;> simp <;> omega

/-- C47 is false: adding zero seconds to half past loses the half second. -/
theorem c47_refuted : ∃ t : UTCTime, t.Norm ∧ (t.addInt 0).ns ≠ (t.addIntAssign 0).ns :=
  ⟨⟨10, 500000000⟩, by decide⟩

/-! ## C71 -/

theorem floor_nanos (q : Rat) : (⌊q * 1000000000⌋ : Int) / 1000000000 = ⌊q⌋ := by
  apply Int.le_antisymm
  · apply Int.le_floor.mpr
    have h1 : ((⌊q * 1000000000⌋ : Int) : Rat) ≤ q * 1000000000 := Int.floor_le _
    have h2 : (⌊q * 1000000000⌋ : Int) / 1000000000 * 1000000000 ≤ ⌊q * 1000000000⌋ := Int.ediv_mul_le _ (by decide)
    have h3 : (((⌊q * 1000000000⌋ : Int) / 1000000000 : Int) : Rat) * 1000000000 ≤ ((⌊q * 1000000000⌋ : Int) : Rat) := by
      exact_mod_cast h2
    linarith
  · apply Int.le_ediv_of_mul_le (by decide)
    apply Int.le_floor.mpr
    have h1 : ((⌊q⌋ : Int) : Rat) ≤ q := Int.floor_le _
    push_cast
    linarith

/-- C71, the true part (exact arithmetic in place of `double`): adding or subtracting a non-negative number of
seconds moves the instant by exactly its whole number of nanoseconds, and constructing a time from it
denotes it to the nanosecond.  Missing: negative arguments (`c71_refuted`), and IEEE rounding of
`sec_ * E9`, which is outside the model. -/
theorem c71_double_partial (t : UTCTime) (q : Rat) (hq : 0 ≤ q) :
    (∃ r, t.addDouble ⌊q⌋ ⌊q * 1000000000⌋ = .ok r ∧ r.ns = t.ns + ⌊q * 1000000000⌋) ∧
    (∃ r, t.subDouble ⌊q⌋ ⌊q * 1000000000⌋ = .ok r ∧ r.ns = t.ns - ⌊q * 1000000000⌋) ∧
    (∃ r, ofDouble ⌊q⌋ ⌊q * 1000000000⌋ = .ok r ∧ r.ns = ⌊q * 1000000000⌋ ∧ r.Norm) := by
  have h := floor_nanos q
  have h0 : 0 ≤ ⌊q * 1000000000⌋ := Int.floor_nonneg.mpr (by linarith)
  generalize ⌊q * 1000000000⌋ = n at *
  rw [← h]
  refine ⟨⟨wrapNsec _, by rw [addDouble, if_neg (by omega)], ?_⟩, ⟨wrapNsec _, by rw [subDouble, if_neg (by omega)], ?_⟩,
    ⟨wrapNsec _, by rw [ofDouble, if_neg (by omega)], ?_, ?_⟩⟩
  · rw [wrap_ns]; simp only [ns, E9]; omega
  · rw [wrap_ns]; simp only [ns, E9]; omega
  · rw [wrap_ns]; simp only [ns, E9]; omega
  · unfold Norm
    rcases wrap_cases (n / 1000000000) (n % E9) with ⟨h1, e⟩ | ⟨h1, e⟩ | ⟨h1, h2, e⟩ <;> rw [e] <;>
      simp only [E9] at * <;> omega

/-- C71 is false for negative arguments: `t + (-0.5)` converts a negative double to `uint64_t`. -/
theorem c71_refuted : ∃ (t : UTCTime) (q : Rat), q = -1 / 2 ∧
    t.addDouble ⌊q⌋ (-500000000) = .error .overflow := ⟨⟨10, 0⟩, -1 / 2, rfl, rfl⟩

end Ublox.UTCTime
