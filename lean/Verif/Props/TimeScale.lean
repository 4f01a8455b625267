import Verif.Spec.TimeScale
import Verif.Model.TimeWeek
import Verif.Props.Time

/-!
# C128, C129: one time scale for GPS, Galileo, GLONASS and the clock; week and day numbers
-/

namespace Ublox.UTCTime

open TimeScale

theorem gpsToUtc_eq (w s : Int) : gpsToUtc w s = 315964782 + w * 604800 + s := by
  have : gpsStart.posix = 315964800 := by decide
  unfold gpsToUtc gpsLead; omega

/-! ## C128 -/

/-- C128, GLONASS: for whole seconds the time made from a week and a time of week in GLONASS time is the UTC instant. -/
theorem c128_glonass_partial (w s : Int) (hw : 0 ≤ w) (hw' : w ≤ 3550) (h0 : 0 ≤ s) (h1 : s < 604800) :
    fromGlonass w (s * 1000) = .ok (now (moscowToUtc w s) 0) := by
  obtain ⟨t, e, hn, hv, -, -⟩ := c45_fromGlonass_partial w s hw hw' h0 h1
  rw [e]
  unfold Norm at hn
  unfold ns at hv
  unfold now moscowToUtc
  obtain ⟨a, b⟩ := t
  dsimp only at hn hv
  rw [show a = w * 604800 + s - 3 * 3600 by omega, show b = 0 by omega]

/-- C128 is false for GPS and Galileo, always: the time made from a week and a time of week in GPS time is 36 s later than the
UTC instant (the 18 leap seconds are added instead of subtracted). -/
theorem c128_gps_refuted (w s : Int) (hw : 0 ≤ w) (hw' : w ≤ 3549) (h0 : 0 ≤ s) (h1 : s < 604800) :
    fromGPS w (s * 1000) = .ok (now (gpsToUtc w s + 36) 0) ∧ fromGalileo w (s * 1000) = .ok (now (gpsToUtc w s + 36) 0) := by
  obtain ⟨t, e, hn, hv, -⟩ := c44_fromGPS_partial w s hw hw' h0 h1
  have : fromGPS w (s * 1000) = .ok (now (gpsToUtc w s + 36) 0) := by
    rw [e, gpsToUtc_eq]
    unfold Norm at hn
    unfold ns at hv
    unfold now
    obtain ⟨a, b⟩ := t
    dsimp only at hn hv
    rw [show a = 315964782 + w * 604800 + s + 36 by omega, show b = 0 by omega]
  exact ⟨this, this⟩

/-- C128, what is true of GPS and Galileo: the constant error of 36 s cancels in differences, so times of the two systems are
consistent with each other. -/
theorem c128_difference_partial (w s w' s' : Int) (hw : 0 ≤ w ∧ w ≤ 3549) (hs : 0 ≤ s ∧ s < 604800) (hw' : 0 ≤ w' ∧ w' ≤ 3549)
    (hs' : 0 ≤ s' ∧ s' < 604800) :
    ∃ t t', fromGPS w (s * 1000) = .ok t ∧ fromGalileo w' (s' * 1000) = .ok t' ∧
      (t.sub t').ns = (gpsToUtc w s - gpsToUtc w' s') * 1000000000 := by
  refine ⟨_, _, (c128_gps_refuted w s hw.1 hw.2 hs.1 hs.2).1, (c128_gps_refuted w' s' hw'.1 hw'.2 hs'.1 hs'.2).2, ?_⟩
  rw [(c41_exact _ _).2]
  unfold ns now
  dsimp only
  omega

/-- C128, the clock: `now()` is the instant the clock shows, normalised (POSIX: `0 ≤ tv_nsec < 10^9`). -/
theorem c128_clock (p n : Int) (h : 0 ≤ n ∧ n < 1000000000) : (now p n).Norm ∧ (now p n).ns = p * 1000000000 + n :=
  ⟨h, rfl⟩

/-! ## C129 -/

theorem int32_ok {x : Int} (h : -2147483648 ≤ x) (h' : x ≤ 2147483647) : floorToInt x = .ok x := if_pos ⟨h, h'⟩

theorem tdiv_iff {a d w : Int} (hd : 0 < d) (ha : 0 ≤ a) : a.tdiv d = w ↔ w * d ≤ a ∧ a < (w + 1) * d := by
  rw [Int.tdiv_eq_ediv_of_nonneg ha]
  constructor
  · rintro rfl
    exact ⟨Int.ediv_mul_le _ (by omega), Int.lt_ediv_add_one_mul_self _ hd⟩
  · rintro ⟨h1, h2⟩
    exact le_antisymm (Int.lt_add_one_iff.1 ((Int.ediv_lt_iff_lt_mul hd).2 h2)) ((Int.le_ediv_iff_mul_le hd).2 h1)

/-- C129, weeks since 1970: for every time from 1970 on (to the year 41 million) `week()` is the number of whole weeks passed. -/
theorem c129_week_partial (t : UTCTime) (h : 0 ≤ t.sec) (h' : t.sec < 2147483648 * 604800) (w : Int) :
    t.weekInt = .ok w ↔ w * 604800 ≤ t.sec ∧ t.sec < (w + 1) * 604800 := by
  have hi := tdiv_iff (a := t.sec) (d := 604800) (w := w) (by omega) h
  have hx := (tdiv_iff (a := t.sec) (d := 604800) (w := t.sec.tdiv 604800) (by omega) h).1 rfl
  unfold weekInt week SEC_IN_WEEK
  rw [int32_ok (by omega) (by omega)]
  exact Iff.trans ⟨fun e => Except.ok.inj e, fun e => congrArg _ e⟩ hi

/-- C129, Moscow time: for every time from Thursday, 1 January 1970, 0:00 Moscow time on `GlonassWeek()` and `GlonassDayOfWeek()`
are the numbers of the week and the day. -/
theorem c129_glonass_partial (t : UTCTime) (h : -10800 ≤ t.sec) (h' : t.sec < 2147483647 * 604800) (w d : Int) :
    (t.glonassWeekInt = .ok w ∧ t.glonassDayInt = .ok d) ↔ InMoscowDay w d t.sec := by
  have ha : 0 ≤ t.sec + 10800 := by omega
  have hx := (tdiv_iff (a := t.sec + 10800) (d := 604800) (w := (t.sec + 10800).tdiv 604800) (by omega) ha).1 rfl
  have hm : (t.sec + 10800).tmod 604800 = (t.sec + 10800) % 604800 := Int.tmod_eq_emod_of_nonneg ha
  have hd : (t.sec + 10800).tdiv 604800 = (t.sec + 10800) / 604800 := Int.tdiv_eq_ediv_of_nonneg ha
  have hq : ((t.sec + 10800) % 604800).tdiv 86400 = (t.sec + 10800) % 604800 / 86400 := Int.tdiv_eq_ediv_of_nonneg (by omega)
  unfold glonassWeekInt glonassDayInt glonassWeek glonassDayOfWeek SEC_IN_WEEK SEC_IN_DAY GLO_UTC_OFFSET
  rw [Int.sub_neg, hm, hq, hd, int32_ok (by omega) (by omega), int32_ok (by omega) (by omega)]
  unfold InMoscowDay moscowToUtc
  constructor
  · rintro ⟨e, f⟩
    have e := Except.ok.inj e
    have f := Except.ok.inj f
    omega
  · rintro ⟨h1, h2, h3, h4⟩
    constructor
    · congr 1; omega
    · congr 1; omega

/-- C129, GPS: `GpsWeek()` inverts `fromGPS` and `fromGalileo`; at a UTC instant from the start of GPS time on it is the GPS week
number, except during the first 36 seconds of each week (when it still is that of the week before). -/
theorem c129_gps_partial (t : UTCTime) (h : 315964818 ≤ t.sec) (h' : t.sec < 2147483648 * 604800) (w : Int) (hw : InGpsWeek w t.sec) :
    t.gpsWeekInt = .ok (if t.sec < gpsToUtc w 36 then w - 1 else w) := by
  unfold InGpsWeek at hw
  simp only [gpsToUtc_eq] at hw ⊢
  have ha : 0 ≤ t.sec - 315964818 := by omega
  have hd : (t.sec - 315964818).tdiv 604800 = (t.sec - 315964818) / 604800 := Int.tdiv_eq_ediv_of_nonneg ha
  unfold gpsWeekInt gpsWeek SEC_IN_WEEK GPS_UTC_OFFSET
  rw [hd, int32_ok (by omega) (by omega)]
  congr 1
  split <;> omega

/-- C129, GPS: `GpsWeek()` gives back the week `fromGPS` was given. -/
theorem c129_gps_inverse (w s : Int) (hw : 0 ≤ w) (hw' : w ≤ 3549) (h0 : 0 ≤ s) (h1 : s < 604800) :
    ∃ t, fromGPS w (s * 1000) = .ok t ∧ t.gpsWeekInt = .ok w := by
  obtain ⟨t, e, -, -, hg⟩ := c44_fromGPS_partial w s hw hw' h0 h1
  refine ⟨t, e, ?_⟩
  unfold gpsWeekInt
  rw [hg, int32_ok (by omega) (by omega)]

/-- C129 is false: on 20 July 2019 at 23:59:42 UTC GPS week 2063 began, `GpsWeek()` says 2062; the second before 1970 is in week
0 for `week()`, and so is every other second of the week before; `GlonassDayOfWeek()` is negative before 1970. -/
theorem c129_refuted :
    (InGpsWeek 2063 1563667182 ∧ gpsWeekInt ⟨1563667182, 0⟩ = .ok 2062) ∧
    (∀ s : Int, -604800 < s → s < 0 → weekInt ⟨s, 0⟩ = .ok 0) ∧
    (InMoscowDay (-1) 4 (-10800 - 3 * 86400) ∧ glonassWeekInt ⟨-10800 - 3 * 86400, 0⟩ = .ok 0 ∧
      glonassDayInt ⟨-10800 - 3 * 86400, 0⟩ = .ok (-3)) := by
  refine ⟨⟨by unfold InGpsWeek; rw [gpsToUtc_eq, gpsToUtc_eq]; decide, by decide⟩, fun s h1 h2 => ?_, ?_, by decide, by decide⟩
  · have : s.tdiv 604800 = 0 := by
      have := Int.tdiv_eq_zero_of_lt (a := -s) (b := 604800) (by omega) (by omega)
      rw [Int.neg_tdiv] at this
      omega
    unfold weekInt week SEC_IN_WEEK
    rw [this]
    decide
  · refine ⟨by decide, by decide, by decide, by decide⟩

/-- 20 July 2019, 23:59:42 and 24 July 2019, 12:00 UTC; week 2063 from second 100. -/
example : (⟨1563667300, 0⟩ : UTCTime).gpsWeekInt = .ok 2063 ∧ InGpsWeek 2063 1563667300 ∧
    (⟨1563969600, 5⟩ : UTCTime).glonassDayInt = .ok 6 ∧ InMoscowDay 2585 6 1563969600 ∧
    fromGPS 2063 (100 * 1000) = .ok (now (gpsToUtc 2063 100 + 36) 0) := by
  refine ⟨by decide, by unfold InGpsWeek; rw [gpsToUtc_eq, gpsToUtc_eq]; decide, by decide, ⟨by decide, by decide, by decide, by decide⟩, ?_⟩
  exact (c128_gps_refuted 2063 100 (by omega) (by omega) (by omega) (by omega)).1

end Ublox.UTCTime
