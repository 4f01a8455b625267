import Verif.Model.ObsTime
import Verif.Props.TimeDbl
import Verif.Props.Ros

/-!
# C92: time stamps of raw observations
-/

namespace Ublox.Ros

open Dbl64
open RosSpec (doc)

/-- Nanoseconds (in the driver's time scale, cf. C44) of `s` whole seconds in GPS week `w`. -/
def gpsNs (w s : ℤ) : ℤ := (315964818 + w * 604800 + s) * 1000000000

/-- The documented time of week of an RXM-RAWX message, an IEEE double: seconds; `none` for infinities and NaNs. -/
def docTow (p : List Byte) : Option ℚ := Dbl64.ofBits (doc MsgSpec.rxmRawx "rcvTow" p).toNat

theorem week_doc (p : List Byte) : rxmRawx.get "week" p = doc MsgSpec.rxmRawx "week" p :=
  (c78_rxm_rawx_partial p).1 ⟨"week", 8, 2, false⟩ (by decide) (fun h => absurd h (by decide))

theorem tow_doc (p : List Byte) : rcvTow p = docTow p := by
  unfold rcvTow docTow
  rw [(c78_rxm_rawx_partial p).1 ⟨"rcvTow", 0, 8, false⟩ (by decide) (fun h => absurd h (by decide))]
  rfl

theorem fromGPS_any {w q : ℤ} (hw : 0 ≤ w) (hw' : w ≤ 3549) (h0 : 0 ≤ q) (h1 : q < 604800000) :
    ∃ t, UTCTime.fromGPS w q = .ok t ∧ t.ns = gpsNs w (q / 1000 + q % 1000) := by
  have e1 : q.tdiv 1000 = q / 1000 := Int.tdiv_eq_ediv_of_nonneg h0
  have e2 : q.tmod 1000 = q % 1000 := Int.tmod_eq_emod_of_nonneg h0
  have b1 : UTCTime.int32 (w * UTCTime.SEC_IN_WEEK) = .ok (w * UTCTime.SEC_IN_WEEK) := by
    unfold UTCTime.int32 UTCTime.SEC_IN_WEEK; rw [if_pos (by omega)]
  have b2 : UTCTime.int32 (w * UTCTime.SEC_IN_WEEK + q / 1000) = .ok (w * UTCTime.SEC_IN_WEEK + q / 1000) := by
    unfold UTCTime.int32 UTCTime.SEC_IN_WEEK; rw [if_pos (by omega)]
  refine ⟨UTCTime.wrapNsec ⟨w * UTCTime.SEC_IN_WEEK + q / 1000 + UTCTime.GPS_UTC_OFFSET, q.tmod 1000 * UTCTime.E9⟩, ?_, ?_⟩
  · unfold UTCTime.fromGPS
    rw [b1, ok_bind, e1, b2, ok_bind]
  · rw [UTCTime.wrap_ns, e2]
    simp only [UTCTime.ns, UTCTime.SEC_IN_WEEK, UTCTime.GPS_UTC_OFFSET, UTCTime.E9, gpsNs]
    omega

theorem toInt_ok {x : ℚ} (h0 : 0 ≤ x) (h1 : x < 604800000) : toInt x = .ok ⌊x⌋ ∧ 0 ≤ ⌊x⌋ ∧ ⌊x⌋ < 604800000 := by
  have hf : 0 ≤ ⌊x⌋ := Int.floor_nonneg.2 h0
  have hl : ⌊x⌋ < 604800000 := Int.floor_lt.2 (by exact_mod_cast h1)
  refine ⟨?_, hf, hl⟩
  unfold toInt
  rw [UTCTime.trunc_nonneg h0, if_pos (by omega)]

/-- **C92, observations of the library (partial).** A measurement message with at most 30 measurements, taken `x` seconds into
GPS week `w` (up to week 3549): all observations get the same time stamp, and it is the time of the measurement (to the
second) exactly if it was taken in the first 1000 seconds of the week: `rcvTow` is in seconds, `fromGPS` takes milliseconds.
Missing: all later times of the week, where the property is false. -/
theorem c92_convert_partial (p : List Byte) (n : Nat) (hn : doc MsgSpec.rxmRawx "numMeas" p = n) (hle : n ≤ 30) (x : ℚ)
    (hx : docTow p = some x) (h0 : 0 ≤ x) (h1 : x < 604800) (w : ℤ) (hw : doc MsgSpec.rxmRawx "week" p = w) (hw0 : 0 ≤ w)
    (hw1 : w ≤ 3549) :
    ∃ t l, convertTimed p = .ok (some l) ∧ l.length = n ∧ (∀ o ∈ l, o.1 = t) ∧ (t.ns = gpsNs w ⌊x⌋ ↔ x < 1000) := by
  rw [← tow_doc] at hx
  rw [← week_doc] at hw
  obtain ⟨l, hl, hlen, -⟩ := c83_convert_partial p n hn hle
  obtain ⟨a, b, c⟩ := toInt_ok h0 (by linarith)
  obtain ⟨t, ht, hns⟩ := fromGPS_any hw0 hw1 b c
  refine ⟨t, l.map fun o => (t, o), ?_, by rw [List.length_map, hlen], fun o ho => ?_, ?_⟩
  · unfold convertTimed obsStamp
    rw [hx]
    dsimp only
    rw [a, ok_bind, hw, ht, ok_bind, hl]
    rfl
  · obtain ⟨o', -, rfl⟩ := List.mem_map.1 ho
    rfl
  · rw [hns]
    unfold gpsNs
    have : x < 1000 ↔ ⌊x⌋ < 1000 := by
      rw [Int.floor_lt]; norm_num
    rw [this]
    omega

/-- **C92, observations of the ROS node (partial).** The time stamp computed for a measurement `x` seconds into the week is
right if `x` is a whole number of seconds; ... -/
theorem c92_ros_partial (p : List Byte) (s : ℤ) (hx : docTow p = some (s : ℚ)) (h0 : 0 ≤ s) (h1 : s < 604800) (w : ℤ)
    (hw : doc MsgSpec.rxmRawx "week" p = w) (hw0 : 0 ≤ w) (hw1 : w ≤ 3549) :
    ∃ t, rosStamp p = .ok t ∧ t.ns = gpsNs w s := by
  rw [← tow_doc] at hx
  rw [← week_doc] at hw
  have e : (s : ℚ) * 1000 = ((s * 1000 : ℤ) : ℚ) := by push_cast; ring
  have ht : toInt (rne ((s : ℚ) * 1000)) = .ok (s * 1000) := by
    rw [e, UTCTime.rne_int (by rw [abs_lt]; omega)]
    unfold toInt
    rw [UTCTime.trunc_int, if_pos (by omega)]
  obtain ⟨t, ht', hns⟩ := fromGPS_any (q := s * 1000) hw0 hw1 (by omega) (by omega)
  refine ⟨t, ?_, by rw [hns]; unfold gpsNs; omega⟩
  unfold rosStamp
  rw [hx]
  dsimp only
  rw [ht, ok_bind, hw, ht']

/-- ... and every millisecond beyond is counted as a second: for any time of the week the stamp is off by 999 ms for each
of the milliseconds seen. -/
theorem c92_ros_exact (p : List Byte) (x : ℚ) (hx : docTow p = some x) (h0 : 0 ≤ x) (h1 : x ≤ 604799) (w : ℤ)
    (hw : doc MsgSpec.rxmRawx "week" p = w) (hw0 : 0 ≤ w) (hw1 : w ≤ 3549) :
    ∃ (t : UTCTime) (q : ℤ), rosStamp p = .ok t ∧ |(q : ℚ) - x * 1000| < 1 ∧ t.ns = gpsNs w (q / 1000 + q % 1000) := by
  rw [← tow_doc] at hx
  rw [← week_doc] at hw
  have hy0 : 0 ≤ rne (x * 1000) := rne_nonneg (by linarith)
  have hy1 : rne (x * 1000) ≤ 604799000 := by
    have := rne_mono (a := x * 1000) (b := ((604799000 : ℤ) : ℚ)) (by push_cast; linarith)
    rw [UTCTime.rne_int (by decide)] at this
    exact_mod_cast this
  obtain ⟨a, b, c⟩ := toInt_ok hy0 (by linarith)
  obtain ⟨t, ht, hns⟩ := fromGPS_any hw0 hw1 b c
  refine ⟨t, ⌊rne (x * 1000)⌋, ?_, ?_, hns⟩
  · unfold rosStamp
    rw [hx]
    dsimp only
    rw [a, ok_bind, hw, ht]
  · have hlo : (⌊x * 1000⌋ : ℚ) ≤ rne (x * 1000) := by
      have hb : |⌊x * 1000⌋| < 2 ^ 53 := by
        have h3 : ⌊x * 1000⌋ < 604800000 := Int.floor_lt.2 (by push_cast; linarith)
        have h4 : 0 ≤ ⌊x * 1000⌋ := Int.floor_nonneg.2 (by linarith)
        rw [abs_lt]; omega
      have := rne_mono (Int.floor_le (x * 1000))
      rwa [UTCTime.rne_int hb] at this
    have hhi : rne (x * 1000) ≤ (⌈x * 1000⌉ : ℚ) := by
      have hb : |⌈x * 1000⌉| < 2 ^ 53 := by
        have h3 : ⌈x * 1000⌉ ≤ 604800000 := Int.ceil_le.2 (by push_cast; linarith)
        have h4 : 0 ≤ ⌈x * 1000⌉ := Int.ceil_nonneg (by linarith)
        rw [abs_lt]; omega
      have := rne_mono (Int.le_ceil (x * 1000))
      rwa [UTCTime.rne_int hb] at this
    have a : (⌊x * 1000⌋ : ℚ) ≤ ⌊rne (x * 1000)⌋ := by exact_mod_cast Int.le_floor.2 hlo
    have b := le_trans (Int.floor_le (rne (x * 1000))) hhi
    have c := Int.lt_floor_add_one (x * 1000)
    have d := Int.ceil_lt_add_one (x * 1000)
    rw [abs_lt]
    constructor <;> linarith

/-- A RAWX message of week 2100, second 302400.5 (bits 0x4112750200000000), with two measurements. -/
def midWeek : List Byte := [0, 0, 0, 0, 2, 117, 18, 65, 52, 8, 18, 2, 1, 1, 0, 0] ++ List.replicate 64 0

/-- **C92 refuted.** The message of the middle of the week is stamped more than three days early by the library and 500
seconds late by the ROS node. -/
theorem c92_refuted :
    docTow midWeek = some (604801 / 2) ∧ doc MsgSpec.rxmRawx "week" midWeek = 2100 ∧ doc MsgSpec.rxmRawx "numMeas" midWeek = 2 ∧
    (∃ t, obsStamp midWeek = .ok t ∧ t.ns = gpsNs 2100 (302 + 400)) ∧
    (∃ t, rosStamp midWeek = .ok t ∧ t.ns = gpsNs 2100 (302400 + 500)) := by
  refine ⟨by decide +kernel, by decide +kernel, by decide +kernel, ⟨⟨315964818 + 2100 * 604800 + 303, 399000000000⟩, ?_, ?_⟩,
    ⟨⟨315964818 + 2100 * 604800 + 302401, 499000000000⟩, ?_, ?_⟩⟩ <;> decide +kernel

/-! ## C116: raw measurement messages of any content -/

/-- A time of week that an `int` of seconds since 1980 can express: the number, its integral part (towards zero) taken for milliseconds. -/
def StampFits (w : ℤ) (x : ℚ) : Prop :=
  -2147483649 < x ∧ x < 2147483648 ∧ w * 604800 ≤ 2147483647 ∧
  ∀ q : ℤ, q = (if 0 ≤ x then ⌊x⌋ else ⌈x⌉) → w * 604800 + q.tdiv 1000 ≤ 2147483647

theorem trunc_eq (x : ℚ) : trunc x = if 0 ≤ x then ⌊x⌋ else ⌈x⌉ := by
  unfold trunc
  split
  · rfl
  · rw [Int.floor_neg, neg_neg]

theorem toInt_iff (x : ℚ) : toInt x = if -2147483649 < x ∧ x < 2147483648 then .ok (if 0 ≤ x then ⌊x⌋ else ⌈x⌉) else .error .overflow := by
  unfold toInt
  rw [trunc_eq]
  have key : (-2147483648 ≤ (if 0 ≤ x then ⌊x⌋ else ⌈x⌉) ∧ (if 0 ≤ x then ⌊x⌋ else ⌈x⌉) ≤ 2147483647) ↔ (-2147483649 < x ∧ x < 2147483648) := by
    by_cases h : 0 ≤ x
    · rw [if_pos h]
      have e1 : ⌊x⌋ ≤ 2147483647 ↔ x < 2147483648 := by
        have : ⌊x⌋ ≤ 2147483647 ↔ ⌊x⌋ < 2147483648 := by omega
        rw [this, Int.floor_lt]; norm_num
      have e2 : 0 ≤ ⌊x⌋ := Int.floor_nonneg.2 h
      constructor
      · rintro ⟨-, h2⟩; exact ⟨by linarith, e1.1 h2⟩
      · rintro ⟨-, h2⟩; exact ⟨by omega, e1.2 h2⟩
    · rw [if_neg h]
      have hx : x < 0 := not_le.1 h
      have e1 : -2147483648 ≤ ⌈x⌉ ↔ -2147483649 < x := by
        have : -2147483648 ≤ ⌈x⌉ ↔ -2147483649 < ⌈x⌉ := by omega
        rw [this, Int.lt_ceil]; norm_num
      have e2 : ⌈x⌉ ≤ 0 := by rw [Int.ceil_le]; exact_mod_cast hx.le
      constructor
      · rintro ⟨h1, -⟩; exact ⟨e1.1 h1, by linarith⟩
      · rintro ⟨h1, -⟩; exact ⟨e1.2 h1, by omega⟩
  by_cases hc : -2147483649 < x ∧ x < 2147483648
  · rw [if_pos hc, if_pos (key.2 hc)]
  · rw [if_neg hc, if_neg (fun h => hc (key.1 h))]

theorem fromGPS_iff {w q : ℤ} (hw : 0 ≤ w) (h0 : -2147483648 ≤ q) (h1 : q ≤ 2147483647) :
    (∃ t, UTCTime.fromGPS w q = .ok t) ↔ w * 604800 ≤ 2147483647 ∧ w * 604800 + q.tdiv 1000 ≤ 2147483647 := by
  have b1 : -2147484 ≤ q.tdiv 1000 ∧ q.tdiv 1000 ≤ 2147484 := by
    rcases le_total 0 q with hq | hq
    · rw [Int.tdiv_eq_ediv_of_nonneg hq]; omega
    · have e : q.tdiv 1000 = -((-q).tdiv 1000) := by rw [Int.neg_tdiv, neg_neg]
      rw [e, Int.tdiv_eq_ediv_of_nonneg (by omega)]; omega
  unfold UTCTime.fromGPS UTCTime.int32 UTCTime.SEC_IN_WEEK
  by_cases h : w * 604800 ≤ 2147483647
  · rw [if_pos ⟨by omega, h⟩, ok_bind]
    by_cases h2 : w * 604800 + q.tdiv 1000 ≤ 2147483647
    · rw [if_pos ⟨by omega, h2⟩]
      exact ⟨fun _ => ⟨h, h2⟩, fun _ => ⟨_, rfl⟩⟩
    · rw [if_neg (by omega)]
      exact ⟨fun ⟨t, ht⟩ => (by cases ht), fun hx => absurd hx.2 h2⟩
  · rw [if_neg (by omega)]
    exact ⟨fun ⟨t, ht⟩ => (by cases ht), fun hx => absurd hx.1 h⟩

theorem stamp_iff {w : ℤ} (hw : 0 ≤ w) (x : ℚ) : (∃ t, (toInt x >>= fun q => UTCTime.fromGPS w q) = .ok t) ↔ StampFits w x := by
  rw [toInt_iff]
  unfold StampFits
  by_cases hc : -2147483649 < x ∧ x < 2147483648
  · rw [if_pos hc, ok_bind]
    have hk := toInt_iff x
    rw [if_pos hc] at hk
    unfold toInt at hk
    split at hk
    · rename_i hb
      rw [trunc_eq] at hb
      rw [fromGPS_iff hw hb.1 hb.2]
      constructor
      · rintro ⟨h1, h2⟩; exact ⟨hc.1, hc.2, h1, fun q hq => by rw [hq]; exact h2⟩
      · rintro ⟨-, -, h1, h2⟩; exact ⟨h1, h2 _ rfl⟩
    · cases hk
  · rw [if_neg hc]
    exact ⟨fun ⟨t, ht⟩ => (by cases ht), fun hx => absurd ⟨hx.1, hx.2.1⟩ hc⟩

theorem week_nonneg (p : List Byte) : 0 ≤ rxmRawx.get "week" p := by
  have : rxmRawx.get "week" p = ((p.getD 8 0).toNat + 256 * (p.getD 9 0).toNat : ℕ) := by rfl
  omega

/-- **C116 (partial), library.** `convertUBX` turns a raw measurement message into observations exactly when it announces 0 to 30
measurements and its time is a finite number that fits; all other messages are undefined behaviour, or an exception if the announced
number is negative. -/
theorem c116_convert_partial (p : List Byte) :
    ((∃ l, convertTimed p = .ok (some l)) ↔
      (doc MsgSpec.rxmRawx "numMeas" p ≤ 30 ∧ ∃ x, docTow p = some x ∧ StampFits (doc MsgSpec.rxmRawx "week" p) x)) ∧
    (convertTimed p = .ok none ↔
      (128 ≤ doc MsgSpec.rxmRawx "numMeas" p ∧ ∃ x, docTow p = some x ∧ StampFits (doc MsgSpec.rxmRawx "week" p) x)) := by
  have n1 : doc MsgSpec.rxmRawx "numMeas" p ≤ 30 ↔ 0 ≤ rxmRawx.get "numMeas" p ∧ rxmRawx.get "numMeas" p ≤ 30 := by
    obtain ⟨a, b, c⟩ := numMeas_get p
    split at c <;> omega
  have n2 : 128 ≤ doc MsgSpec.rxmRawx "numMeas" p ↔ rxmRawx.get "numMeas" p < 0 := by
    obtain ⟨a, b, c⟩ := numMeas_get p
    split at c <;> omega
  rw [n1, n2, ← tow_doc, ← week_doc, and_assoc]
  have hst : (∃ t, obsStamp p = .ok t) ↔ ∃ x, rcvTow p = some x ∧ StampFits (rxmRawx.get "week" p) x := by
    unfold obsStamp
    cases hx : rcvTow p with
    | none => exact ⟨fun ⟨t, ht⟩ => (by cases ht), fun ⟨x, h, _⟩ => (by cases h)⟩
    | some x =>
      dsimp only
      rw [stamp_iff (week_nonneg p)]
      exact ⟨fun h => ⟨x, rfl, h⟩, fun ⟨y, h, hy⟩ => by cases h; exact hy⟩
  rw [← hst]
  unfold convertTimed
  cases ht : obsStamp p with
  | error e =>
    constructor
    · exact ⟨fun ⟨l, h⟩ => (by cases h), fun ⟨_, _, t, h⟩ => (by cases h)⟩
    · exact ⟨fun h => (by cases h), fun ⟨_, t, h⟩ => (by cases h)⟩
  | ok t =>
    rw [ok_bind]
    rcases lt_or_ge (rxmRawx.get "numMeas" p) 0 with hn | hn
    · rw [(convert_get_bad p).2 hn]
      constructor
      · exact ⟨fun ⟨l, h⟩ => (by cases h), fun ⟨h, _⟩ => absurd hn (not_lt.2 h)⟩
      · exact ⟨fun _ => ⟨hn, t, rfl⟩, fun _ => rfl⟩
    · rcases le_or_gt (rxmRawx.get "numMeas" p) 30 with hm | hm
      · obtain ⟨l, hl, -⟩ := convert_get p (rxmRawx.get "numMeas" p).toNat (by omega) (by omega)
        rw [hl]
        constructor
        · exact ⟨fun _ => ⟨hn, hm, t, rfl⟩, fun _ => ⟨_, rfl⟩⟩
        · exact ⟨fun h => (by cases h), fun ⟨h, _⟩ => absurd h (not_lt.2 hn)⟩
      · rw [(convert_get_bad p).1 (by omega)]
        constructor
        · exact ⟨fun ⟨l, h⟩ => (by cases h), fun ⟨_, h, _⟩ => absurd h (not_le.2 hm)⟩
        · exact ⟨fun h => (by cases h), fun ⟨h, _⟩ => absurd h (not_lt.2 hn)⟩

/-- **C116 (partial), ROS node.** The time stamp of the observation message, likewise; here the time is multiplied by 1000 first. -/
theorem c116_ros_partial (p : List Byte) :
    (∃ t, rosStamp p = .ok t) ↔ ∃ x, docTow p = some x ∧ StampFits (doc MsgSpec.rxmRawx "week" p) (rne (x * 1000)) := by
  rw [← tow_doc, ← week_doc]
  unfold rosStamp
  cases hx : rcvTow p with
  | none => exact ⟨fun ⟨t, ht⟩ => (by cases ht), fun ⟨x, h, _⟩ => (by cases h)⟩
  | some x =>
    dsimp only
    rw [stamp_iff (week_nonneg p)]
    exact ⟨fun h => ⟨x, rfl, h⟩, fun ⟨y, h, hy⟩ => by cases h; exact hy⟩

/-- A message without measurements whose time is not a number; one whose time is 10^10 s; one of week 3551 (of the year 2048). -/
def nanTime : List Byte := List.replicate 8 0xFF ++ [52, 8, 18, 0, 1, 1, 0, 0]
def bigTime : List Byte := [0, 0, 0, 0x20, 0x5F, 0xA0, 0x02, 0x42] ++ [52, 8, 18, 0, 1, 1, 0, 0]
def lateWeek : List Byte := List.replicate 8 0 ++ [0xDF, 0x0D, 18, 0, 1, 1, 0, 0]

/-- **C116 (refuted).** Messages with a valid checksum whose handling is undefined behaviour. -/
theorem c116_refuted : docTow nanTime = none ∧ docTow bigTime = some 10000000000 ∧ doc MsgSpec.rxmRawx "week" lateWeek = 3551 ∧
    ∀ p ∈ [nanTime, bigTime, lateWeek], convertTimed p = .error .overflow ∧ rosStamp p = .error .overflow := by
  refine ⟨by decide +kernel, by decide +kernel, by decide +kernel, ?_⟩
  decide +kernel

end Ublox.Ros
