import Verif.Lemmas.NavGpsRun

/-! Helper lemmas: when a GPS ephemeris is reported, and that GPS decoding is total. -/

namespace Ublox.Nav

attribute [local irreducible] gpsU gpsS gpsU32 gpsS32

theorem init_cur (s : Byte) : Nav.init.cur s = Eph.fresh := rfl

theorem run_ephCbs {md : Mode} {ops : List NavOp} : ∀ {n n' : Nav} {cs : List (List NavCall)},
    n.run md ops = .ok (n', cs) → n'.ephCbs = n.ephCbs + ephCbCount ops ∧ n'.gephCbs = n.gephCbs + gephCbCount ops := by
  induction ops with
  | nil => intro n n' cs h; rw [run_nil] at h; rw [h.1]; exact ⟨rfl, rfl⟩
  | cons op ops ih =>
    intro n n' cs h
    rw [run_cons] at h
    obtain ⟨n1, c, cs', h1, h2, -⟩ := h
    obtain ⟨ih1, ih2⟩ := ih h2
    cases op with
    | setTime t => injection h1 with h1; injection h1 with h1 _; subst h1; exact ⟨ih1, ih2⟩
    | addEphCb =>
      injection h1 with h1; injection h1 with h1 _; subst h1
      refine ⟨?_, ih2⟩
      rw [ih1]; simp [ephCbCount]; omega
    | addGephCb =>
      injection h1 with h1; injection h1 with h1 _; subst h1
      refine ⟨ih1, ?_⟩
      rw [ih2]; simp [gephCbCount]; omega
    | sfrbx junk m =>
      have : n1.ephCbs = n.ephCbs ∧ n1.gephCbs = n.gephCbs := by
        by_cases hg : m.gnssId = GLONASS
        · obtain ⟨r, -, -, nx⟩ := step_glo hg h1; exact nx.cbs
        · obtain ⟨r, -, -, nx⟩ := step_eph hg h1; exact nx.cbs
      rw [ih1, ih2, this.1, this.2]
      exact ⟨by simp [ephCbCount], by simp [gephCbCount]⟩

theorem ephCalls_one (k : Nat) (e : Eph) : ephCalls k [e] = reportTo k e := by
  simp [ephCalls, reportTo]

/-- An operation that does not concern `s` leaves its entry alone. -/
theorem unrelated_step {md : Mode} {n n' : Nav} {op : NavOp} {c : List NavCall} {s : Byte} (hu : Unrelated s op)
    (h : n.step md op = .ok (n', c)) : n'.entry s = n.entry s := by
  cases op with
  | setTime t => injection h with h; injection h with h _; subst h; rfl
  | addEphCb => injection h with h; injection h with h _; subst h; rfl
  | addGephCb => injection h with h; injection h with h _; subst h; rfl
  | sfrbx junk m =>
    by_cases hg : m.gnssId = GLONASS
    · obtain ⟨r, -, -, nx⟩ := step_glo hg h
      unfold Nav.entry; rw [nx.eph]
    · obtain ⟨r, -, -, nx⟩ := step_eph hg h
      rcases hu with hu | hu
      · exact absurd hu hg
      · exact nx.other s (fun h => hu h.symm)

theorem unrelated_run {md : Mode} {s : Byte} {ops : List NavOp} : ∀ {n n' : Nav} {cs : List (List NavCall)},
    (∀ op ∈ ops, Unrelated s op) → n.run md ops = .ok (n', cs) → n'.entry s = n.entry s := by
  induction ops with
  | nil => intro n n' cs _ h; rw [run_nil] at h; rw [h.1]
  | cons op ops ih =>
    intro n n' cs hu h
    rw [run_cons] at h
    obtain ⟨n1, c, cs', h1, h2, -⟩ := h
    rw [ih (fun o ho => hu o (by simp [ho])) h2, unrelated_step (hu op (by simp)) h1]

theorem cur_of_entry {n n' : Nav} {s : Byte} (h : n'.entry s = n.entry s) : n'.cur s = n.cur s := by
  unfold Nav.cur; rw [h]

/-- One GPS message, in terms of `gpsUpd`. -/
theorem gps_step {md : Mode} {junk : List Byte} {n n' : Nav} {m : Sfrbx} {c : List NavCall} (hm : m.gnssId = 0)
    (hw : (NavOp.sfrbx junk m).WF) (h : n.step md (.sfrbx junk m) = .ok (n', c)) :
    ∃ o, GpsRes n.gpsTime m.dwrd (gpsUpd m.dwrd { n.cur m.svId with sat := m.svId, gnssID := 0 }) o ∧
      n'.cur m.svId = o.eph ∧ c = ephCalls n.ephCbs o.reports ∧ n'.gpsTime = o.gpsTime := by
  have hg : m.gnssId ≠ GLONASS := by rw [hm]; decide
  obtain ⟨r, hr, hc, nx⟩ := step_eph hg h
  unfold ephStep at hr
  dsimp only at hr
  rw [if_pos hm, decodeGPS_eq hw.2 hw.1, bind_ok] at hr
  obtain ⟨o, h1, hr⟩ := hr
  injection hr with hr
  refine ⟨o, gpsStep_cases h1, ?_, ?_, ?_⟩
  · unfold Nav.cur; rw [nx.own, ← hr]; rfl
  · rw [hc, ← hr]
  · rw [nx.time, ← hr]

/-- A GPS message which made a callback leaves nothing behind. -/
theorem gps_cleared {md : Mode} {junk : List Byte} {n n' : Nav} {m : Sfrbx} {c : List NavCall} (hm : m.gnssId = 0)
    (hw : (NavOp.sfrbx junk m).WF) (h : n.step md (.sfrbx junk m) = .ok (n', c)) (hc : c ≠ []) :
    (n'.cur m.svId).got1 = false ∧ (n'.cur m.svId).got2 = false ∧ (n'.cur m.svId).got3 = false := by
  obtain ⟨o, hres, h1, h2, -⟩ := gps_step hm hw h
  generalize gpsUpd m.dwrd { n.cur m.svId with sat := m.svId, gnssID := 0 } = u at hres
  rcases hres with ⟨-, -, a, -⟩ | ⟨-, -, toe, toc, -, -, b⟩
  · rw [a] at h2; exact absurd h2 hc
  · rw [h1, b]; exact ⟨rfl, rfl, rfl⟩

theorem nothingPending_cleared {md : Mode} {s : Byte} {ops : List NavOp} {n : Nav} {cs : List (List NavCall)}
    (hwf : ∀ op ∈ ops, op.WF) (h : Nav.init.run md ops = .ok (n, cs)) (hp : NothingPending s ops cs) :
    (n.cur s).got1 = false ∧ (n.cur s).got2 = false ∧ (n.cur s).got3 = false := by
  rcases hp with hu | ⟨pre, junk, m, post, rfl, hm, hs, ⟨c, hc, hne⟩, hu⟩
  · rw [cur_of_entry (unrelated_run hu h), init_cur]; exact ⟨rfl, rfl, rfl⟩
  · rw [run_append] at h
    obtain ⟨n1, c1, c2, h1, h2, rfl⟩ := h
    rw [run_cons] at h2
    obtain ⟨n2, c', cs', h3, h4, rfl⟩ := h2
    rw [List.getElem?_append_right (by rw [run_length h1]), run_length h1, Nat.sub_self] at hc
    simp only [List.getElem?_cons_zero, Option.some.injEq] at hc
    subst hc
    rw [cur_of_entry (unrelated_run hu h4), ← hs]
    exact gps_cleared hm (hwf _ (by simp)) h3 hne

/-- The collection state after a subframe. -/
theorem gpsUpd_flags (d : List Byte) (e : Eph) :
    (gpsUpd d e).got1 = (e.got1 || gpsId d == 1) ∧ (gpsUpd d e).got2 = (e.got2 || gpsId d == 2) ∧
    (gpsUpd d e).got3 = (e.got3 || gpsId d == 3) := by
  unfold gpsUpd
  split
  · rename_i h; rw [(upd1_keep d e).1, (upd1_keep d e).2.1, h]
    exact ⟨by simp [upd1], by simp, by simp⟩
  split
  · rename_i h; rw [(upd2_keep d e).1, (upd2_keep d e).2.1, h]
    exact ⟨by simp, by simp [upd2], by simp⟩
  split
  · rename_i h; rw [(upd3_keep d e).1, (upd3_keep d e).2.1, h]
    exact ⟨by simp, by simp, by simp [upd3]⟩
  · simp [*]

theorem upd1_iode (d : List Byte) (e : Eph) : (upd1 d e).iode = iode1Of d ∧ (upd1 d e).iode1 = iode1Of d ∧
    (upd1 d e).iode2 = e.iode2 ∧ (upd1 d e).iode3 = e.iode3 ∧ (upd1 d e).iodc % 256 = iode1Of d := by
  have h : (upd1 d e).iodc = gpsU d 3 23 2 * 256 + gpsU d 8 1 8 := by cases e; rfl
  have l := gpsU_lt d 8 1 8
  rw [h]
  refine ⟨rfl, rfl, ?_, ?_, ?_⟩
  · cases e; rfl
  · cases e; rfl
  · unfold iode1Of; omega

theorem upd2_iode (d : List Byte) (e : Eph) : (upd2 d e).iode = iode2Of d ∧ (upd2 d e).iode1 = e.iode1 ∧
    (upd2 d e).iode2 = iode2Of d ∧ (upd2 d e).iode3 = e.iode3 ∧ (upd2 d e).iodc = e.iodc := by
  cases e; exact ⟨rfl, rfl, rfl, rfl, rfl⟩

theorem upd3_iode (d : List Byte) (e : Eph) : (upd3 d e).iode = e.iode ∧ (upd3 d e).iode1 = e.iode1 ∧
    (upd3 d e).iode2 = e.iode2 ∧ (upd3 d e).iode3 = e.iode ∧ (upd3 d e).iodc = e.iodc := by
  cases e; exact ⟨rfl, rfl, rfl, rfl, rfl⟩

theorem gpsUpd_1 {d : List Byte} (h : gpsId d = 1) (e : Eph) : gpsUpd d e = upd1 d e := by
  unfold gpsUpd; generalize upd1 d e = a; generalize upd2 d e = b; generalize upd3 d e = c; rw [if_pos h]

theorem gpsUpd_2 {d : List Byte} (h : gpsId d = 2) (e : Eph) : gpsUpd d e = upd2 d e := by
  unfold gpsUpd; generalize upd1 d e = a; generalize upd2 d e = b; generalize upd3 d e = c
  rw [if_neg (by omega), if_pos h]

theorem gpsUpd_3 {d : List Byte} (h : gpsId d = 3) (e : Eph) : gpsUpd d e = upd3 d e := by
  unfold gpsUpd; generalize upd1 d e = a; generalize upd2 d e = b; generalize upd3 d e = c
  rw [if_neg (by omega), if_neg (by omega), if_pos h]

/-- The issue-of-data members do not depend on identification. -/
def Eph.iodes (e : Eph) : Nat × Nat × Nat × Nat × Nat := (e.iode, e.iode1, e.iode2, e.iode3, e.iodc % 256)

def iodesUpd (d : List Byte) (x : Nat × Nat × Nat × Nat × Nat) : Nat × Nat × Nat × Nat × Nat :=
  if gpsId d = 1 then (iode1Of d, iode1Of d, x.2.2.1, x.2.2.2.1, iode1Of d)
  else if gpsId d = 2 then (iode2Of d, x.2.1, iode2Of d, x.2.2.2.1, x.2.2.2.2)
  else if gpsId d = 3 then (x.1, x.2.1, x.2.2.1, x.1, x.2.2.2.2)
  else x

theorem gpsUpd_iodes (d : List Byte) (e : Eph) : (gpsUpd d e).iodes = iodesUpd d e.iodes := by
  unfold Eph.iodes iodesUpd
  by_cases c1 : gpsId d = 1
  · rw [gpsUpd_1 c1, if_pos c1]
    obtain ⟨h1, h2, h3, h4, h5⟩ := upd1_iode d e
    rw [h1, h2, h3, h4, h5]
  rw [if_neg c1]
  by_cases c2 : gpsId d = 2
  · rw [gpsUpd_2 c2, if_pos c2]
    obtain ⟨h1, h2, h3, h4, h5⟩ := upd2_iode d e
    rw [h1, h2, h3, h4, h5]
  rw [if_neg c2]
  by_cases c3 : gpsId d = 3
  · rw [gpsUpd_3 c3, if_pos c3]
    obtain ⟨h1, h2, h3, h4, h5⟩ := upd3_iode d e
    rw [h1, h2, h3, h4, h5]
  rw [if_neg c3, gpsUpd_other (by tauto)]

theorem ready_of_iodes {e : Eph} (h1 : e.got1 = true) (h2 : e.got2 = true) (h3 : e.got3 = true) {i : Nat}
    (h : e.iodes = (i, i, i, i, i)) : Ready e := by
  unfold Eph.iodes at h
  simp only [Prod.mk.injEq] at h
  obtain ⟨a, b, c, d, f⟩ := h
  exact ⟨h1, h2, h3, by rw [b, c], by rw [b, d], by rw [a, f]⟩

/-- Identification changes nothing that matters for collecting. -/
theorem ident_same (e : Eph) (s g : Byte) :
    ({ e with sat := s, gnssID := g } : Eph).got1 = e.got1 ∧ ({ e with sat := s, gnssID := g } : Eph).got2 = e.got2 ∧
    ({ e with sat := s, gnssID := g } : Eph).got3 = e.got3 ∧ ({ e with sat := s, gnssID := g } : Eph).iodes = e.iodes :=
  ⟨rfl, rfl, rfl, rfl⟩

/-- One GPS message for which the entry is not complete. -/
theorem gps_wait {md : Mode} {junk : List Byte} {n n' : Nav} {m : Sfrbx} {c : List NavCall} (hm : m.gnssId = 0)
    (hw : (NavOp.sfrbx junk m).WF) (h : n.step md (.sfrbx junk m) = .ok (n', c))
    (hn : ¬ ((n.cur m.svId).got1 = true ∨ gpsId m.dwrd = 1) ∨ ¬ ((n.cur m.svId).got2 = true ∨ gpsId m.dwrd = 2) ∨
      ¬ ((n.cur m.svId).got3 = true ∨ gpsId m.dwrd = 3)) :
    n'.cur m.svId = gpsUpd m.dwrd { n.cur m.svId with sat := m.svId, gnssID := 0 } ∧ c = [] := by
  obtain ⟨o, hres, h1, h2, -⟩ := gps_step hm hw h
  obtain ⟨f1, f2, f3⟩ := gpsUpd_flags m.dwrd { n.cur m.svId with sat := m.svId, gnssID := 0 }
  have i := ident_same (n.cur m.svId) m.svId 0
  rw [i.1] at f1
  rw [i.2.1] at f2
  rw [i.2.2.1] at f3
  generalize gpsUpd m.dwrd { n.cur m.svId with sat := m.svId, gnssID := 0 } = u at *
  rcases hres with ⟨a, -, b, -⟩ | ⟨a, -⟩
  · exact ⟨by rw [h1, a], by rw [h2, b]; rfl⟩
  · exfalso
    obtain ⟨r1, r2, r3, -⟩ := a
    rw [f1] at r1
    rw [f2] at r2
    rw [f3] at r3
    simp only [Bool.or_eq_true, beq_iff_eq] at r1 r2 r3
    tauto

/-- One GPS message that completes the entry. -/
theorem gps_done {md : Mode} {junk : List Byte} {n n' : Nav} {m : Sfrbx} {c : List NavCall} (hm : m.gnssId = 0)
    (hw : (NavOp.sfrbx junk m).WF) (h : n.step md (.sfrbx junk m) = .ok (n', c))
    (hid : gpsId m.dwrd = 1 ∨ gpsId m.dwrd = 2 ∨ gpsId m.dwrd = 3)
    (hr : Ready (gpsUpd m.dwrd { n.cur m.svId with sat := m.svId, gnssID := 0 })) {P : List (List Byte)}
    (hc : Coll True P (n.cur m.svId)) :
    ∃ e d1 d2 d3, c = reportTo n.ephCbs e ∧ n'.gpsTime = e.toe ∧ latest 1 (P ++ [m.dwrd]) = some d1 ∧
      latest 2 (P ++ [m.dwrd]) = some d2 ∧ latest 3 (P ++ [m.dwrd]) = some d3 ∧ CarriesGps e m.svId d1 d2 d3 := by
  obtain ⟨o, hres, h1, h2, h3⟩ := gps_step hm hw h
  have hcoll := (Coll.addGps (d := m.dwrd) (hc.ident m.svId 0))
  have hid' := gpsUpd_id m.dwrd { n.cur m.svId with sat := m.svId, gnssID := 0 }
  generalize gpsUpd m.dwrd { n.cur m.svId with sat := m.svId, gnssID := 0 } = u at *
  rcases hres with ⟨-, -, -, b⟩ | ⟨a, -, toe, toc, b1, b2, b3⟩
  · exact absurd hr (b hid)
  · obtain ⟨d1, d2, d3, q1, q2, q3, -, q5⟩ := report_ok hcoll a b1 b2
    have h5 := q5 trivial hid'.2
    have hs : u.sat = m.svId := hid'.1
    rw [show CarriesGps _ u.sat d1 d2 d3 ↔ CarriesGps _ m.svId d1 d2 d3 by rw [← hs]] at h5
    subst b3
    exact ⟨_, d1, d2, d3, by rw [h2]; exact ephCalls_one _ _, h3, q1, q2, q3, h5⟩

end Ublox.Nav
