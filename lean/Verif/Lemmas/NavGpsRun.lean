import Verif.Lemmas.NavEntry
import Mathlib.Data.List.Induction

/-! Helper lemmas: what the GPS decoder has collected, over whole histories. -/

namespace Ublox.Nav

theorem gpsU_lt (d : List Byte) (w b n : Nat) : gpsU d w b n < 2 ^ n := bitsVal_lt _ _ _

attribute [local irreducible] gpsU gpsS gpsU32 gpsS32

/-- `fromGPS` on whole seconds, as the decoders call it. -/
theorem fromGPS_sec (w s : Nat) (hw : w ≤ 3548) (hs : s ≤ 1048560) :
    UTCTime.fromGPS w (((s * 1000 : Nat) : Int).bmod (2 ^ 32)) =
      .ok ⟨315964818 + (w : Int) * 604800 + s, 0⟩ := by
  have hb : ((s * 1000 : Nat) : Int).bmod (2 ^ 32) = (s : Int) * 1000 := by
    rw [Int.bmod_eq_of_le] <;> (norm_num <;> omega)
  rw [hb]
  have e1 : ((s : Int) * 1000).tdiv 1000 = s := by rw [Int.tdiv_eq_ediv_of_nonneg (by omega)]; omega
  have e2 : ((s : Int) * 1000).tmod 1000 = 0 := by rw [Int.tmod_eq_emod_of_nonneg (by omega)]; omega
  have b1 : UTCTime.int32 ((w : Int) * UTCTime.SEC_IN_WEEK) = .ok ((w : Int) * UTCTime.SEC_IN_WEEK) := by
    unfold UTCTime.int32 UTCTime.SEC_IN_WEEK; rw [if_pos (by omega)]
  have b2 : UTCTime.int32 ((w : Int) * UTCTime.SEC_IN_WEEK + s) = .ok ((w : Int) * UTCTime.SEC_IN_WEEK + s) := by
    unfold UTCTime.int32 UTCTime.SEC_IN_WEEK; rw [if_pos (by omega)]
  have e3 : UTCTime.wrapNsec ⟨(w : Int) * UTCTime.SEC_IN_WEEK + s + UTCTime.GPS_UTC_OFFSET, 0 * UTCTime.E9⟩ =
      ⟨315964818 + (w : Int) * 604800 + s, 0⟩ := by
    unfold UTCTime.wrapNsec UTCTime.E9 UTCTime.SEC_IN_WEEK UTCTime.GPS_UTC_OFFSET
    simp only [Int.zero_mul]
    rw [if_neg (by omega), if_neg (by omega)]
    rw [UTCTime.mk.injEq]; exact ⟨by omega, rfl⟩
  unfold UTCTime.fromGPS
  rw [b1, ok_bind, e1, b2, ok_bind, e2, e3]

/-- The consistency test. -/
def Ready (e : Eph) : Prop :=
  e.got1 = true ∧ e.got2 = true ∧ e.got3 = true ∧ e.iode1 = e.iode2 ∧ e.iode1 = e.iode3 ∧ e.iode = e.iodc % 256

instance (e : Eph) : Decidable (Ready e) := inferInstanceAs (Decidable (_ ∧ _))

theorem ready_iff (e : Eph) : (e.got1 && e.got2 && e.got3 && e.iode1 == e.iode2 && e.iode1 == e.iode3 &&
    e.iode == e.iodc % 256) = true ↔ Ready e := by
  simp only [Bool.and_eq_true, beq_iff_eq, Ready, and_assoc]

theorem gpsFinish_cases {t : UTCTime} {e : Eph} {o : GpsOut} (h : gpsFinish t e = .ok o) :
    (¬ Ready e ∧ o = ⟨e, t, [], false⟩) ∨
    (Ready e ∧ ∃ toe toc, UTCTime.fromGPS e.week (((e.toes * 1000 : Nat) : Int).bmod (2 ^ 32)) = .ok toe ∧
      UTCTime.fromGPS e.week (((e.tocs * 1000 : Nat) : Int).bmod (2 ^ 32)) = .ok toc ∧
      o = ⟨{ e with toe := toe, toc := toc, got1 := false, got2 := false, got3 := false }, toe,
        [{ e with toe := toe, toc := toc }], false⟩) := by
  unfold gpsFinish at h
  by_cases hr : Ready e
  · rw [if_pos ((ready_iff e).mpr hr)] at h
    simp only [bind_ok] at h
    obtain ⟨toe, h1, toc, h2, h⟩ := h
    injection h with h
    exact .inr ⟨hr, toe, toc, h1, h2, h.symm⟩
  · rw [if_neg (fun hc => hr ((ready_iff e).mp hc))] at h
    injection h with h
    exact .inl ⟨hr, h.symm⟩

theorem carries1_upd1 (d : List Byte) (e : Eph) : Carries1 (upd1 d e) d :=
  ⟨rfl, rfl, rfl, rfl, rfl, rfl, rfl, rfl, rfl, rfl, rfl⟩

theorem carries2_upd2 (d : List Byte) (e : Eph) : Carries2 (upd2 d e) d :=
  ⟨rfl, rfl, rfl, rfl, rfl, rfl, rfl, rfl, by
    have := gpsU_lt d 10 17 1
    show (if gpsU d 10 17 1 ≠ 0 then 0 else 4) = _
    by_cases h : gpsU d 10 17 1 = 0
    · rw [h]; rfl
    · rw [if_pos h, if_pos (by omega)]⟩

theorem carries3_upd3 (d : List Byte) (e : Eph) : Carries3 (upd3 d e) d :=
  ⟨rfl, rfl, rfl, rfl, rfl, rfl, rfl, rfl⟩

/-- What has been collected in an entry, given the pending subframes `P`. -/
structure Coll (clean : Prop) (P : List (List Byte)) (e : Eph) : Prop where
  one : e.got1 = true → ∃ d, latest 1 P = some d ∧ e.iode1 = iode1Of d ∧ (clean → Carries1 e d)
  two : e.got2 = true → ∃ d, latest 2 P = some d ∧ e.iode2 = iode2Of d ∧ (clean → Carries2 e d)
  three : e.got3 = true → ∃ d, latest 3 P = some d ∧ (clean → Carries3 e d)

theorem latest_snoc (k : Nat) (P : List (List Byte)) (d : List Byte) :
    latest k (P ++ [d]) = if gpsId d = k then some d else latest k P := by
  unfold latest
  by_cases h : gpsId d = k
  · simp [List.filter_append, h]
  · simp [List.filter_append, h]

theorem coll_fresh (clean : Prop) (P : List (List Byte)) : Coll clean P Eph.fresh :=
  ⟨(by intro h; cases h), (by intro h; cases h), (by intro h; cases h)⟩

theorem Coll.weaken {clean clean' : Prop} {P : List (List Byte)} {e : Eph} (h : Coll clean P e)
    (hc : clean' → clean) : Coll clean' P e :=
  ⟨fun g => let ⟨d, a, b, c⟩ := h.one g; ⟨d, a, b, fun x => c (hc x)⟩,
   fun g => let ⟨d, a, b, c⟩ := h.two g; ⟨d, a, b, fun x => c (hc x)⟩,
   fun g => let ⟨d, a, c⟩ := h.three g; ⟨d, a, fun x => c (hc x)⟩⟩

/-- A change that keeps the collection state and the GPS parameters keeps `Coll`. -/
theorem Coll.ident {clean : Prop} {P : List (List Byte)} {e : Eph} (h : Coll clean P e) (s g : Byte) :
    Coll clean P { e with sat := s, gnssID := g } := by
  cases e
  constructor
  · intro c
    obtain ⟨d, a, b, k⟩ := h.one c
    exact ⟨d, a, b, fun x => ⟨(k x).1, (k x).2, (k x).3, (k x).4, (k x).5, (k x).6, (k x).7, (k x).8, (k x).9,
      (k x).10, (k x).11⟩⟩
  · intro c
    obtain ⟨d, a, b, k⟩ := h.two c
    exact ⟨d, a, b, fun x => ⟨(k x).1, (k x).2, (k x).3, (k x).4, (k x).5, (k x).6, (k x).7, (k x).8, (k x).9⟩⟩
  · intro c
    obtain ⟨d, a, k⟩ := h.three c
    exact ⟨d, a, fun x => ⟨(k x).1, (k x).2, (k x).3, (k x).4, (k x).5, (k x).6, (k x).7, (k x).8⟩⟩

theorem upd1_keep (d : List Byte) (e : Eph) : (upd1 d e).got2 = e.got2 ∧ (upd1 d e).got3 = e.got3 ∧ (upd1 d e).iode2 = e.iode2 := by
  cases e; exact ⟨rfl, rfl, rfl⟩

theorem carries2_upd1 {d d' : List Byte} {e : Eph} (h : Carries2 e d') : Carries2 (upd1 d e) d' := by
  cases e; exact ⟨h.1, h.2, h.3, h.4, h.5, h.6, h.7, h.8, h.9⟩

theorem carries3_upd1 {d d' : List Byte} {e : Eph} (h : Carries3 e d') : Carries3 (upd1 d e) d' := by
  cases e; exact ⟨h.1, h.2, h.3, h.4, h.5, h.6, h.7, h.8⟩

theorem upd2_keep (d : List Byte) (e : Eph) : (upd2 d e).got1 = e.got1 ∧ (upd2 d e).got3 = e.got3 ∧ (upd2 d e).iode1 = e.iode1 := by
  cases e; exact ⟨rfl, rfl, rfl⟩

theorem carries1_upd2 {d d' : List Byte} {e : Eph} (h : Carries1 e d') : Carries1 (upd2 d e) d' := by
  cases e; exact ⟨h.1, h.2, h.3, h.4, h.5, h.6, h.7, h.8, h.9, h.10, h.11⟩

theorem carries3_upd2 {d d' : List Byte} {e : Eph} (h : Carries3 e d') : Carries3 (upd2 d e) d' := by
  cases e; exact ⟨h.1, h.2, h.3, h.4, h.5, h.6, h.7, h.8⟩

theorem upd3_keep (d : List Byte) (e : Eph) : (upd3 d e).got1 = e.got1 ∧ (upd3 d e).got2 = e.got2 ∧ (upd3 d e).iode1 = e.iode1 ∧ (upd3 d e).iode2 = e.iode2 := by
  cases e; exact ⟨rfl, rfl, rfl, rfl⟩

theorem carries1_upd3 {d d' : List Byte} {e : Eph} (h : Carries1 e d') : Carries1 (upd3 d e) d' := by
  cases e; exact ⟨h.1, h.2, h.3, h.4, h.5, h.6, h.7, h.8, h.9, h.10, h.11⟩

theorem carries2_upd3 {d d' : List Byte} {e : Eph} (h : Carries2 e d') : Carries2 (upd3 d e) d' := by
  cases e; exact ⟨h.1, h.2, h.3, h.4, h.5, h.6, h.7, h.8, h.9⟩

theorem Coll.add1 {clean : Prop} {P : List (List Byte)} {e : Eph} {d : List Byte} (h : Coll clean P e)
    (hd : gpsId d = 1) : Coll clean (P ++ [d]) (upd1 d e) := by
  obtain ⟨e_got2, e_got3, e_iode2⟩ := upd1_keep d e
  constructor
  · intro _
    exact ⟨d, by rw [latest_snoc, if_pos hd], rfl, fun _ => carries1_upd1 d e⟩
  · rw [e_got2]
    intro c
    obtain ⟨d2, a, b, k⟩ := h.two c
    exact ⟨d2, by rw [latest_snoc, hd, if_neg (by decide)]; exact a, e_iode2.trans b, fun x => carries2_upd1 (k x)⟩
  · rw [e_got3]
    intro c
    obtain ⟨d2, a, k⟩ := h.three c
    exact ⟨d2, by rw [latest_snoc, hd, if_neg (by decide)]; exact a, fun x => carries3_upd1 (k x)⟩

theorem Coll.add2 {clean : Prop} {P : List (List Byte)} {e : Eph} {d : List Byte} (h : Coll clean P e)
    (hd : gpsId d = 2) : Coll clean (P ++ [d]) (upd2 d e) := by
  obtain ⟨e_got1, e_got3, e_iode1⟩ := upd2_keep d e
  constructor
  · rw [e_got1]
    intro c
    obtain ⟨d2, a, b, k⟩ := h.one c
    exact ⟨d2, by rw [latest_snoc, hd, if_neg (by decide)]; exact a, e_iode1.trans b, fun x => carries1_upd2 (k x)⟩
  · intro _
    exact ⟨d, by rw [latest_snoc, if_pos hd], rfl, fun _ => carries2_upd2 d e⟩
  · rw [e_got3]
    intro c
    obtain ⟨d2, a, k⟩ := h.three c
    exact ⟨d2, by rw [latest_snoc, hd, if_neg (by decide)]; exact a, fun x => carries3_upd2 (k x)⟩

theorem Coll.add3 {clean : Prop} {P : List (List Byte)} {e : Eph} {d : List Byte} (h : Coll clean P e)
    (hd : gpsId d = 3) : Coll clean (P ++ [d]) (upd3 d e) := by
  obtain ⟨e_got1, e_got2, e_iode1, e_iode2⟩ := upd3_keep d e
  constructor
  · rw [e_got1]
    intro c
    obtain ⟨d2, a, b, k⟩ := h.one c
    exact ⟨d2, by rw [latest_snoc, hd, if_neg (by decide)]; exact a, e_iode1.trans b, fun x => carries1_upd3 (k x)⟩
  · rw [e_got2]
    intro c
    obtain ⟨d2, a, b, k⟩ := h.two c
    exact ⟨d2, by rw [latest_snoc, hd, if_neg (by decide)]; exact a, e_iode2.trans b, fun x => carries2_upd3 (k x)⟩
  · intro _
    exact ⟨d, by rw [latest_snoc, if_pos hd], fun _ => carries3_upd3 d e⟩

theorem Coll.skip {clean : Prop} {P : List (List Byte)} {e : Eph} {d : List Byte} (h : Coll clean P e)
    (h1 : gpsId d ≠ 1) (h2 : gpsId d ≠ 2) (h3 : gpsId d ≠ 3) : Coll clean (P ++ [d]) e :=
  ⟨fun c => let ⟨x, a, b⟩ := h.one c; ⟨x, by rw [latest_snoc, if_neg h1]; exact a, b⟩,
   fun c => let ⟨x, a, b⟩ := h.two c; ⟨x, by rw [latest_snoc, if_neg h2]; exact a, b⟩,
   fun c => let ⟨x, a, b⟩ := h.three c; ⟨x, by rw [latest_snoc, if_neg h3]; exact a, b⟩⟩

/-- The entry just before the consistency test. -/
def gpsUpd (d : List Byte) (e : Eph) : Eph :=
  if gpsId d = 1 then upd1 d e else if gpsId d = 2 then upd2 d e else if gpsId d = 3 then upd3 d e else e

theorem Coll.addGps {clean : Prop} {P : List (List Byte)} {e : Eph} {d : List Byte} (h : Coll clean P e) :
    Coll clean (P ++ [d]) (gpsUpd d e) := by
  unfold Ublox.Nav.gpsUpd
  split
  · exact h.add1 ‹_›
  split
  · exact h.add2 ‹_›
  split
  · exact h.add3 ‹_›
  · exact h.skip ‹_› ‹_› ‹_›

theorem upd1_id (d : List Byte) (e : Eph) : (upd1 d e).sat = e.sat ∧ (upd1 d e).gnssID = e.gnssID := by
  cases e; exact ⟨rfl, rfl⟩

theorem upd2_id (d : List Byte) (e : Eph) : (upd2 d e).sat = e.sat ∧ (upd2 d e).gnssID = e.gnssID := by
  cases e; exact ⟨rfl, rfl⟩

theorem upd3_id (d : List Byte) (e : Eph) : (upd3 d e).sat = e.sat ∧ (upd3 d e).gnssID = e.gnssID := by
  cases e; exact ⟨rfl, rfl⟩

theorem gpsUpd_id (d : List Byte) (e : Eph) : (gpsUpd d e).sat = e.sat ∧ (gpsUpd d e).gnssID = e.gnssID := by
  unfold gpsUpd; split
  · exact upd1_id d e
  split
  · exact upd2_id d e
  split
  · exact upd3_id d e
  · exact ⟨rfl, rfl⟩

/-- `gpsStep` in terms of `gpsUpd`. -/
theorem gpsStep_eq (t : UTCTime) (d : List Byte) (e : Eph) :
    gpsStep t d e = if gpsId d = 1 ∨ gpsId d = 2 ∨ gpsId d = 3 then gpsFinish t (gpsUpd d { e with gnssID := 0 })
      else .ok ⟨{ e with gnssID := 0 }, t, [], gpsId d < 1 || 5 < gpsId d⟩ := by
  unfold gpsStep gpsUpd
  dsimp only
  generalize ({ e with gnssID := 0 } : Eph) = e0
  generalize upd1 d e0 = u1
  generalize upd2 d e0 = u2
  generalize upd3 d e0 = u3
  by_cases c1 : gpsId d = 1
  · rw [if_pos c1, if_pos c1, if_pos (.inl c1)]
  rw [if_neg c1, if_neg c1]
  by_cases c2 : gpsId d = 2
  · rw [if_pos c2, if_pos c2, if_pos (.inr (.inl c2))]
  rw [if_neg c2, if_neg c2]
  by_cases c3 : gpsId d = 3
  · rw [if_pos c3, if_pos c3, if_pos (.inr (.inr c3))]
  rw [if_neg c3, if_neg c3, if_neg (by rintro (h | h | h) <;> contradiction)]

/-- The outcome of a GPS subframe when the entry just before the consistency test is `e`. -/
def GpsRes (t : UTCTime) (d : List Byte) (e : Eph) (o : GpsOut) : Prop :=
    (o.eph = e ∧ o.gpsTime = t ∧ o.reports = [] ∧ (gpsId d = 1 ∨ gpsId d = 2 ∨ gpsId d = 3 → ¬ Ready e)) ∨
    (Ready e ∧ (gpsId d = 1 ∨ gpsId d = 2 ∨ gpsId d = 3) ∧ ∃ toe toc,
      UTCTime.fromGPS e.week (((e.toes * 1000 : Nat) : Int).bmod (2 ^ 32)) = .ok toe ∧
      UTCTime.fromGPS e.week (((e.tocs * 1000 : Nat) : Int).bmod (2 ^ 32)) = .ok toc ∧
      o = ⟨{ e with toe := toe, toc := toc, got1 := false, got2 := false, got3 := false }, toe,
        [{ e with toe := toe, toc := toc }], false⟩)

theorem gpsUpd_other {d : List Byte} {e : Eph} (h : ¬ (gpsId d = 1 ∨ gpsId d = 2 ∨ gpsId d = 3)) : gpsUpd d e = e := by
  simp only [not_or] at h
  unfold gpsUpd
  generalize upd1 d e = u1
  generalize upd2 d e = u2
  generalize upd3 d e = u3
  rw [if_neg h.1, if_neg h.2.1, if_neg h.2.2]

theorem gpsFinish_res {t : UTCTime} {d : List Byte} {e : Eph} {o : GpsOut}
    (hid : gpsId d = 1 ∨ gpsId d = 2 ∨ gpsId d = 3) (h : gpsFinish t e = .ok o) : GpsRes t d e o := by
  rcases gpsFinish_cases h with ⟨a, b⟩ | ⟨a, b⟩
  · left; subst b; exact ⟨rfl, rfl, rfl, fun _ => a⟩
  · right; exact ⟨a, hid, b⟩

/-- `gpsStep` either reports (only on subframes 1-3) or just updates. -/
theorem gpsStep_cases {t : UTCTime} {d : List Byte} {e0 : Eph} {o : GpsOut} (h : gpsStep t d e0 = .ok o) :
    GpsRes t d (gpsUpd d { e0 with gnssID := 0 }) o := by
  rw [gpsStep_eq] at h
  by_cases hid : gpsId d = 1 ∨ gpsId d = 2 ∨ gpsId d = 3
  · rw [if_pos hid] at h
    exact gpsFinish_res hid h
  · rw [if_neg hid] at h
    rw [gpsUpd_other hid]
    generalize ({ e0 with gnssID := 0 } : Eph) = e at *
    injection h with h
    subst h
    exact .inl ⟨rfl, rfl, rfl, fun hc => absurd hc hid⟩

/-- A report made from collected subframes. -/
theorem report_ok {clean : Prop} {P : List (List Byte)} {e : Eph} {toe toc : UTCTime} (hc : Coll clean P e)
    (hr : Ready e)
    (h1 : UTCTime.fromGPS e.week (((e.toes * 1000 : Nat) : Int).bmod (2 ^ 32)) = .ok toe)
    (h2 : UTCTime.fromGPS e.week (((e.tocs * 1000 : Nat) : Int).bmod (2 ^ 32)) = .ok toc) :
    ∃ d1 d2 d3, latest 1 P = some d1 ∧ latest 2 P = some d2 ∧ latest 3 P = some d3 ∧ iode1Of d1 = iode2Of d2 ∧
      (clean → e.gnssID = 0 → CarriesGps { e with toe := toe, toc := toc } e.sat d1 d2 d3) := by
  obtain ⟨g1, g2, g3, i12, i13, ii⟩ := hr
  obtain ⟨d1, a1, b1, k1⟩ := hc.one g1
  obtain ⟨d2, a2, b2, k2⟩ := hc.two g2
  obtain ⟨d3, a3, k3⟩ := hc.three g3
  refine ⟨d1, d2, d3, a1, a2, a3, by rw [← b1, ← b2, i12], fun cl hg => ?_⟩
  have k1 := k1 cl
  have k2 := k2 cl
  have k3 := k3 cl
  have l1 := gpsU_lt d1 3 1 10
  have l2 := gpsU_lt d2 10 1 16
  have l3 := gpsU_lt d1 8 9 16
  have l4 := gpsU_lt d1 8 1 8
  have t1 := fromGPS_sec e.week e.toes (by rw [k1.week]; omega) (by rw [k2.toes]; omega)
  have t2 := fromGPS_sec e.week e.tocs (by rw [k1.week]; omega) (by rw [k1.tocs]; omega)
  rw [h1] at t1
  rw [h2] at t2
  injection t1 with t1
  injection t2 with t2
  refine ⟨rfl, hg, ⟨k1.1, k1.2, k1.3, k1.4, k1.5, k1.6, k1.7, k1.8, k1.9, k1.10, k1.11⟩,
    ⟨k2.1, k2.2, k2.3, k2.4, k2.5, k2.6, k2.7, k2.8, k2.9⟩,
    ⟨k3.1, k3.2, k3.3, k3.4, k3.5, k3.6, k3.7, k3.8⟩, ?_, ?_, ?_⟩
  · show e.iode = _
    rw [ii, k1.iodc, iode1Of]; omega
  · show toe = _
    rw [t1, k1.week, k2.toes, UTCTime.mk.injEq]; exact ⟨by omega, rfl⟩
  · show toc = _
    rw [t2, k1.week, k1.tocs, UTCTime.mk.injEq]; exact ⟨by omega, rfl⟩

/-- One GPS message on an entry with collected subframes. -/
theorem gps_ephStep {md : Mode} {junk : List Byte} {t : UTCTime} {row : List Byte} {m : Sfrbx} {e : Eph} {r : EphOut}
    {clean : Prop} {P : List (List Byte)} (hm : m.gnssId = 0) (hd : m.dwrd.length = 40) (hj : junk.length = 30)
    (hc : Coll clean P e) (h : ephStep md junk t row m e = .ok r) :
    r.row = row ∧
    ((r.reports = [] ∧ r.gpsTime = t ∧ Coll clean (P ++ [m.dwrd]) r.eph) ∨
     (∃ e', r.reports = [e'] ∧ r.gpsTime = e'.toe ∧ (∀ Q, Coll clean Q r.eph) ∧
      ∃ d1 d2 d3, latest 1 (P ++ [m.dwrd]) = some d1 ∧ latest 2 (P ++ [m.dwrd]) = some d2 ∧
        latest 3 (P ++ [m.dwrd]) = some d3 ∧ iode1Of d1 = iode2Of d2 ∧ (clean → CarriesGps e' m.svId d1 d2 d3))) := by
  unfold ephStep at h
  dsimp only at h
  rw [if_pos hm, decodeGPS_eq hd hj, bind_ok] at h
  obtain ⟨o, h1, h⟩ := h
  injection h with h; subst h
  refine ⟨rfl, ?_⟩
  have hcoll := (Coll.addGps (d := m.dwrd) (hc.ident m.svId 0))
  have hid := gpsUpd_id m.dwrd { e with sat := m.svId, gnssID := 0 }
  have hcase := gpsStep_cases h1
  generalize gpsUpd m.dwrd { e with sat := m.svId, gnssID := 0 } = u at hcoll hid hcase
  rcases hcase with ⟨a, b, c, -⟩ | ⟨a, -, toe, toc, b1, b2, b3⟩
  · left
    refine ⟨c, b, ?_⟩
    show Coll clean _ o.eph
    rw [a]; exact hcoll
  · right
    obtain ⟨d1, d2, d3, q1, q2, q3, q4, q5⟩ := report_ok hcoll a b1 b2
    subst b3
    refine ⟨_, rfl, rfl, fun Q => ⟨(by intro h; cases h), (by intro h; cases h), (by intro h; cases h)⟩,
      d1, d2, d3, q1, q2, q3, q4, fun cl => ?_⟩
    have h5 := q5 cl hid.2
    have hs : u.sat = m.svId := hid.1
    rwa [show CarriesGps _ u.sat d1 d2 d3 ↔ CarriesGps _ m.svId d1 d2 d3 by rw [← hs]] at h5

theorem pending_snoc (s : Byte) (ops : List NavOp) (cs : List (List NavCall)) (op : NavOp) (c : List NavCall)
    (hlen : cs.length = ops.length) :
    pending s (ops ++ [op]) (cs ++ [c]) = pendStep s (pending s ops cs) (op, c) := by
  unfold pending
  rw [List.zip_append hlen.symm, List.foldl_append]
  rfl

/-- One operation keeps what is known about the entry of satellite `s`. -/
theorem coll_step (md : Mode) (s : Byte) (op : NavOp) (n n' : Nav) (c : List NavCall) (clean : Prop)
    (P : List (List Byte)) (hop : op.WF) (hcl : clean → ¬ IsGalileo s op) (IH : Coll clean P (n.cur s))
    (hs : n.step md op = .ok (n', c)) : Coll clean (pendStep s P (op, c)) (n'.cur s) := by
  cases op with
  | setTime t =>
    injection hs with hs
    injection hs with hs _
    have : n'.cur s = n.cur s := by rw [← hs]; rfl
    rw [this]; exact IH
  | addEphCb =>
    injection hs with hs
    injection hs with hs _
    have : n'.cur s = n.cur s := by rw [← hs]; rfl
    rw [this]; exact IH
  | addGephCb =>
    injection hs with hs
    injection hs with hs _
    have : n'.cur s = n.cur s := by rw [← hs]; rfl
    rw [this]; exact IH
  | sfrbx junk m =>
    by_cases hg : m.gnssId = GLONASS
    · obtain ⟨r, -, -, nx⟩ := step_glo hg hs
      have : n'.cur s = n.cur s := by unfold Nav.cur Nav.entry; rw [nx.eph]
      rw [this]
      have hn : ¬ (m.gnssId = 0 ∧ m.svId = s) := by rw [hg]; intro h; exact absurd h.1 (by decide)
      simp only [pendStep, if_neg hn]
      exact IH
    · obtain ⟨r, hr, hcall, nx⟩ := step_eph hg hs
      by_cases hsv : m.svId = s
      · have hcur : n'.cur s = r.eph := by unfold Nav.cur; rw [← hsv, nx.own]; rfl
        rw [hcur]
        rw [hsv] at hr
        by_cases h0 : m.gnssId = 0
        · simp only [pendStep, if_pos (And.intro h0 hsv)]
          obtain ⟨-, hcase⟩ := gps_ephStep h0 hop.2 hop.1 IH hr
          rcases hcase with ⟨a, -, b⟩ | ⟨e', a, -, b, -⟩
          · have hc : c = [] := by rw [hcall, a]; rfl
            rw [if_pos hc]
            exact b
          · exact b _
        · simp only [pendStep, if_neg (fun h : m.gnssId = 0 ∧ m.svId = s => h0 h.1)]
          unfold ephStep at hr
          dsimp only at hr
          rw [if_neg h0] at hr
          by_cases h2 : m.gnssId = 2
          · rw [if_pos h2, bind_ok] at hr
            obtain ⟨o, ho, hr⟩ := hr
            injection hr with hr; subst hr
            have same := (decodeGalileo_same ho).1
            obtain ⟨-, -, s1, s2, s3, s4, s5, s6⟩ := same
            have notclean : ¬ clean := fun h => hcl h ⟨h2, hsv⟩
            refine ⟨fun g => ?_, fun g => ?_, fun g => ?_⟩
            · obtain ⟨d, a, b, -⟩ := IH.one (by rw [← g]; exact s1.symm)
              exact ⟨d, a, by rw [← b]; exact s4, fun c => absurd c notclean⟩
            · obtain ⟨d, a, b, -⟩ := IH.two (by rw [← g]; exact s2.symm)
              exact ⟨d, a, by rw [← b]; exact s5, fun c => absurd c notclean⟩
            · obtain ⟨d, a, -⟩ := IH.three (by rw [← g]; exact s3.symm)
              exact ⟨d, a, fun c => absurd c notclean⟩
          · rw [if_neg h2, bind_ok] at hr
            obtain ⟨_, -, hr⟩ := hr
            injection hr with hr; subst hr
            exact IH.ident _ _
      · have : n'.cur s = n.cur s := by unfold Nav.cur; rw [nx.other s (fun h => hsv h.symm)]
        rw [this]
        simp only [pendStep, if_neg (fun h : m.gnssId = 0 ∧ m.svId = s => hsv h.2)]
        exact IH

/-- Invariant over histories: what is in the entry of satellite `s` was collected from the pending subframes. -/
theorem coll_run (md : Mode) (s : Byte) (n0 : Nav) (h0 : n0.cur s = Eph.fresh) (ops : List NavOp) :
    ∀ (n : Nav) (cs : List (List NavCall)),
    (∀ op ∈ ops, op.WF) → n0.run md ops = .ok (n, cs) →
    Coll (∀ op ∈ ops, ¬ IsGalileo s op) (pending s ops cs) (n.cur s) := by
  induction ops using List.reverseRec with
  | nil =>
    intro n cs _ h
    rw [run_nil] at h
    rw [h.1, h.2, h0]
    exact coll_fresh _ _
  | append_singleton ops op ih =>
    intro n cs hwf h
    rw [run_append] at h
    obtain ⟨n1, c1, c2, h1, h2, rfl⟩ := h
    rw [run_cons] at h2
    obtain ⟨n2, c, cs', hs, h3, rfl⟩ := h2
    rw [run_nil] at h3
    rw [h3.1, h3.2, pending_snoc s ops c1 op c (run_length h1)]
    have IH := ih n1 c1 (fun o ho => hwf o (List.mem_append_left _ ho)) h1
    have IH' := IH.weaken (clean' := ∀ o ∈ ops ++ [op], ¬ IsGalileo s o) (fun h o ho => h o (List.mem_append_left _ ho))
    exact coll_step md s op n1 n2 c _ _ (hwf op (by simp)) (fun h => h op (by simp)) IH' hs

end Ublox.Nav
