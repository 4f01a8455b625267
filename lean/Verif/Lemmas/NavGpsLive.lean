import Verif.Lemmas.NavGpsThree
import Verif.Spec.NavLive

/-! Helper lemmas for C133: the decoder stabilises, whatever it was sent before. -/

namespace Ublox.Nav

attribute [local irreducible] gpsU gpsS gpsU32 gpsS32

/-- The entry of GPS satellite `s` as every message of the satellite sees it. -/
def Nav.own (n : Nav) (s : Byte) : Eph := { n.cur s with sat := s, gnssID := 0 }

theorem ident_idem {e : Eph} {s : Byte} (h1 : e.sat = s) (h2 : e.gnssID = 0) : ({ e with sat := s, gnssID := 0 } : Eph) = e := by
  subst h1; cases e; cases h2; rfl

theorem own_eq {n : Nav} {s : Byte} {u : Eph} (h : n.cur s = u) (h1 : u.sat = s) (h2 : u.gnssID = 0) : n.own s = u := by
  unfold Nav.own; rw [h]; exact ident_idem h1 h2

theorem quiet_step {md : Mode} {s : Byte} {n n' : Nav} {op : NavOp} {c : List NavCall} (hu : Quiet s op) (hw : op.WF)
    (h : n.step md op = .ok (n', c)) : n'.own s = n.own s := by
  rcases hu with hu | ⟨junk, m, rfl, h0, hs, hid⟩
  · unfold Nav.own; rw [cur_of_entry (unrelated_step hu h)]
  · simp only [List.mem_cons, List.not_mem_nil, or_false] at hid
    obtain ⟨o, hres, h1, -, -⟩ := gps_step h0 hw h
    rw [gpsUpd_other hid, hs] at hres
    rw [hs] at h1
    rcases hres with ⟨a, -⟩ | ⟨-, b, -⟩
    · rw [a] at h1
      exact own_eq h1 rfl rfl
    · exact absurd b hid

theorem quiet_run {md : Mode} {s : Byte} {ops : List NavOp} : ∀ {n n' : Nav} {cs : List (List NavCall)},
    (∀ op ∈ ops, Quiet s op ∧ op.WF) → n.run md ops = .ok (n', cs) → n'.own s = n.own s := by
  induction ops with
  | nil => intro n n' cs _ h; rw [run_nil] at h; rw [h.1]
  | cons op ops ih =>
    intro n n' cs hu h
    rw [run_cons] at h
    obtain ⟨n1, c, cs', h1, h2, -⟩ := h
    rw [ih (fun o ho => hu o (by simp [ho])) h2, quiet_step (hu op (by simp)).1 (hu op (by simp)).2 h1]

/-- What a subframe 1, 2 or 3 of satellite `s` does to the entry `x`, giving `y` and the calls `c`. -/
def Moves (k : Nat) (s : Byte) (d : List Byte) (x y : Eph) (c : List NavCall) : Prop :=
  (¬ Ready (gpsUpd d x) ∧ y = gpsUpd d x ∧ c = []) ∨
  (Ready (gpsUpd d x) ∧ (y.got1 = false ∧ y.got2 = false ∧ y.got3 = false) ∧ y.iodes = (gpsUpd d x).iodes ∧
    ∃ e, c = reportTo k e ∧ e.sat = s ∧ e.gnssID = 0 ∧ e.iode = (gpsUpd d x).iode ∧
      ∀ P, Coll True P (gpsUpd d x) → ∃ d1 d2 d3, latest 1 P = some d1 ∧ latest 2 P = some d2 ∧ latest 3 P = some d3 ∧
        CarriesGps e s d1 d2 d3)

theorem gps_moves {md : Mode} {junk : List Byte} {s : Byte} {n n' : Nav} {m : Sfrbx} {c : List NavCall}
    (hm : m.gnssId = 0 ∧ m.svId = s) (hw : (NavOp.sfrbx junk m).WF) (h : n.step md (.sfrbx junk m) = .ok (n', c))
    (hid : gpsId m.dwrd = 1 ∨ gpsId m.dwrd = 2 ∨ gpsId m.dwrd = 3) :
    Moves n.ephCbs s m.dwrd (n.own s) (n'.own s) c := by
  obtain ⟨o, hres, h1, h2, -⟩ := gps_step hm.1 hw h
  rw [hm.2] at hres h1
  have hi := gpsUpd_id m.dwrd (n.own s)
  unfold Moves
  change GpsRes n.gpsTime m.dwrd (gpsUpd m.dwrd (n.own s)) o at hres
  have i1 : (gpsUpd m.dwrd (n.own s)).sat = s := hi.1
  have i2 : (gpsUpd m.dwrd (n.own s)).gnssID = 0 := hi.2
  generalize gpsUpd m.dwrd (n.own s) = u at *
  rcases hres with ⟨a, -, b, r⟩ | ⟨r, -, toe, toc, b1, b2, b3⟩
  · left
    rw [a] at h1
    exact ⟨r hid, own_eq h1 i1 i2, by rw [h2, b]; rfl⟩
  · right
    subst b3
    refine ⟨r, ?_, ?_, { u with toe := toe, toc := toc }, by rw [h2]; exact ephCalls_one _ _, i1, i2, rfl, ?_⟩
    · rw [own_eq h1 i1 i2]; exact ⟨rfl, rfl, rfl⟩
    · rw [own_eq h1 i1 i2]; rfl
    · intro P hP
      obtain ⟨d1, d2, d3, q1, q2, q3, -, q5⟩ := report_ok hP r b1 b2
      have h5 := q5 trivial i2
      subst i1
      exact ⟨d1, d2, d3, q1, q2, q3, h5⟩

/-- The members the consistency test looks at. -/
def Eph.key (e : Eph) : (Bool × Bool × Bool) × (Nat × Nat × Nat × Nat × Nat) := ((e.got1, e.got2, e.got3), e.iodes)

theorem key_upd1 {d : List Byte} (h : gpsId d = 1) (e : Eph) : (gpsUpd d e).key =
    ((true, e.got2, e.got3), (iode1Of d, iode1Of d, e.iode2, e.iode3, iode1Of d)) := by
  unfold Eph.key
  obtain ⟨f1, f2, f3⟩ := gpsUpd_flags d e
  rw [gpsUpd_iodes, f1, f2, f3, h]
  unfold iodesUpd
  rw [if_pos h]
  simp [Eph.iodes]

theorem key_upd2 {d : List Byte} (h : gpsId d = 2) (e : Eph) : (gpsUpd d e).key =
    ((e.got1, true, e.got3), (iode2Of d, e.iode1, iode2Of d, e.iode3, e.iodc % 256)) := by
  unfold Eph.key
  obtain ⟨f1, f2, f3⟩ := gpsUpd_flags d e
  rw [gpsUpd_iodes, f1, f2, f3, h]
  unfold iodesUpd
  rw [if_neg (by omega), if_pos h]
  simp [Eph.iodes]

theorem key_upd3 {d : List Byte} (h : gpsId d = 3) (e : Eph) : (gpsUpd d e).key =
    ((e.got1, e.got2, true), (e.iode, e.iode1, e.iode2, e.iode, e.iodc % 256)) := by
  unfold Eph.key
  obtain ⟨f1, f2, f3⟩ := gpsUpd_flags d e
  rw [gpsUpd_iodes, f1, f2, f3, h]
  unfold iodesUpd
  rw [if_neg (by omega), if_neg (by omega), if_pos h]
  simp [Eph.iodes]

theorem key_inj {e : Eph} {g1 g2 g3 : Bool} {a b c d f : Nat} (h : e.key = ((g1, g2, g3), (a, b, c, d, f))) :
    e.got1 = g1 ∧ e.got2 = g2 ∧ e.got3 = g3 ∧ e.iode = a ∧ e.iode1 = b ∧ e.iode2 = c ∧ e.iode3 = d ∧ e.iodc % 256 = f := by
  unfold Eph.key Eph.iodes at h
  simp only [Prod.mk.injEq] at h
  tauto

theorem ready_key {e : Eph} {k : Nat} (h : e.key = ((true, true, true), (k, k, k, k, k))) : Ready e := by
  obtain ⟨a, b, c, d⟩ := key_inj h
  exact ready_of_iodes a b c (i := k) (by unfold Eph.iodes; obtain ⟨p, q, r, s, t⟩ := d; rw [p, q, r, s, t])

theorem coll_clear {e : Eph} (h : e.got1 = false ∧ e.got2 = false ∧ e.got3 = false) : Coll True [] e :=
  ⟨(by rw [h.1]; intro h; cases h), (by rw [h.2.1]; intro h; cases h), (by rw [h.2.2]; intro h; cases h)⟩

/-- Three subframes in order fill the entry whatever it held. -/
theorem coll_three {d1 d2 d3 : List Byte} (h1 : gpsId d1 = 1) (h2 : gpsId d2 = 2) (h3 : gpsId d3 = 3) (e : Eph) :
    Coll True [d1, d2, d3] (gpsUpd d3 (gpsUpd d2 (gpsUpd d1 e))) := by
  have : gpsUpd d3 (gpsUpd d2 (gpsUpd d1 e)) =
      gpsUpd d3 (gpsUpd d2 (gpsUpd d1 { e with got1 := false, got2 := false, got3 := false })) := by
    rw [gpsUpd_1 h1, gpsUpd_1 h1, gpsUpd_2 h2, gpsUpd_2 h2, gpsUpd_3 h3, gpsUpd_3 h3]
    cases e; rfl
  rw [this]
  exact Coll.addGps (P := [d1, d2]) (Coll.addGps (P := [d1]) (Coll.addGps (P := []) (coll_clear ⟨rfl, rfl, rfl⟩)))

theorem latest_perm {P : List (List Byte)} {d : List Byte} {k : Nat} (h : latest k P = some d) {d' : List Byte}
    (h' : latest k P = some d') : d' = d := by rw [h] at h'; exact (Option.some.inj h').symm

theorem Moves.wait {k : Nat} {s : Byte} {d : List Byte} {x y : Eph} {c : List NavCall} (h : Moves k s d x y c)
    (hn : ¬ Ready (gpsUpd d x)) : y = gpsUpd d x ∧ c = [] := by
  rcases h with ⟨-, h⟩ | ⟨h, -⟩
  · exact h
  · exact absurd h hn

theorem not_ready {e : Eph} (h : e.got1 = false ∨ e.got2 = false ∨ e.got3 = false) : ¬ Ready e := by
  rintro ⟨a, b, c, -⟩
  rw [a, b, c] at h
  rcases h with h | h | h <;> cases h

/-- A report of the three subframes collected. -/
theorem Moves.exact {k : Nat} {s : Byte} {d : List Byte} {x y : Eph} {c : List NavCall} (h : Moves k s d x y c)
    (hr : Ready (gpsUpd d x)) {P : List (List Byte)} (hc : Coll True P (gpsUpd d x)) {d1 d2 d3 : List Byte}
    (h1 : latest 1 P = some d1) (h2 : latest 2 P = some d2) (h3 : latest 3 P = some d3) :
    ReportsSet k s d1 d2 d3 c ∧ y.got1 = false ∧ y.got2 = false ∧ y.got3 = false := by
  rcases h with ⟨h, -⟩ | ⟨-, hy, -, e, he, -, -, -, hP⟩
  · exact absurd hr h
  · obtain ⟨e1, e2, e3, q1, q2, q3, q⟩ := hP P hc
    rw [h1] at q1
    rw [h2] at q2
    rw [h3] at q3
    cases q1; cases q2; cases q3
    exact ⟨⟨e, he, q⟩, hy⟩

/-- Five subframes 1, 2, 3, 1, 2 of one issue on any entry. -/
theorem five_moves {s : Byte} {k K1 K2 K3 K4 K5 : Nat} {a b c a' b' : List Byte} {x0 x1 x2 x3 x4 x5 : Eph}
    {r1 r2 r3 r4 r5 : List NavCall} (ia : gpsId a = 1) (ib : gpsId b = 2) (ic : gpsId c = 3) (ia' : gpsId a' = 1)
    (ib' : gpsId b' = 2) (ka : iode1Of a = k) (kb : iode2Of b = k) (ka' : iode1Of a' = k) (kb' : iode2Of b' = k)
    (m1 : Moves K1 s a x0 x1 r1) (m2 : Moves K2 s b x1 x2 r2) (m3 : Moves K3 s c x2 x3 r3) (m4 : Moves K4 s a' x3 x4 r4)
    (m5 : Moves K5 s b' x4 x5 r5) :
    (r1 = [] ∧ r2 = [] ∧ ReportsSet K3 s a b c r3 ∧ r4 = [] ∧ r5 = []) ∨
    (r1 = [] ∧ ReportsIssue K2 s k r2 ∧ r3 = [] ∧ r4 = [] ∧ ReportsSet K5 s a' b' c r5) ∨
    (ReportsIssue K1 s k r1 ∧ r2 = [] ∧ r3 = [] ∧ ReportsSet K4 s a' b c r4 ∧ r5 = []) := by
  have A := key_inj (key_upd1 ia x0)
  rcases m1 with ⟨-, e1, rfl⟩ | ⟨-, f1, i1, e, rfl, s1, g1, j1, -⟩
  · rw [← e1, ka] at A
    have B := key_inj (key_upd2 ib x1)
    obtain ⟨A1, -, -, A4, A5, -, -, A8⟩ := A
    rw [A1, A5, A8, kb] at B
    rcases m2 with ⟨-, e2, rfl⟩ | ⟨-, f2, i2, e, rfl, s2, g2, j2, -⟩
    · left
      rw [← e2] at B
      have C := key_upd3 ic x2
      obtain ⟨B1, B2, -, B4, B5, B6, -, B8⟩ := B
      rw [B1, B2, B4, B5, B6, B8] at C
      have hc : Coll True [a, b, c] (gpsUpd c x2) := by rw [e2, e1]; exact coll_three ia ib ic x0
      obtain ⟨q, y1, y2, y3⟩ := m3.exact (ready_key C) hc (d1 := a) (d2 := b) (d3 := c)
        (by simp [latest, List.filter, ia, ib, ic]) (by simp [latest, List.filter, ia, ib, ic])
        (by simp [latest, List.filter, ia, ib, ic])
      have D := key_inj (key_upd1 ia' x3)
      obtain ⟨e4, rfl⟩ := m4.wait (not_ready (by rw [D.2.1, y2]; simp))
      rw [← e4] at D
      have E := key_inj (key_upd2 ib' x4)
      obtain ⟨e5, rfl⟩ := m5.wait (not_ready (by rw [E.2.2.1, D.2.2.1, y3]; simp))
      exact ⟨rfl, rfl, q, rfl, rfl⟩
    · right; left
      have hi : ReportsIssue K2 s k (reportTo K2 e) := ⟨e, rfl, s2, g2, by rw [j2]; exact B.2.2.2.1⟩
      obtain ⟨y1, y2, y3⟩ := f2
      -- the entry after the report
      have I : x2.iodes = (k, k, k, x1.iode3, k) := by
        rw [i2]; unfold Eph.iodes
        obtain ⟨-, -, -, B4, B5, B6, B7, B8⟩ := B
        rw [B4, B5, B6, B7, B8]
      unfold Eph.iodes at I
      simp only [Prod.mk.injEq] at I
      obtain ⟨I1, I2, I3, I4, I5⟩ := I
      have C := key_inj (key_upd3 ic x2)
      rw [y1, y2, I1, I2, I3, I5] at C
      obtain ⟨e3, rfl⟩ := m3.wait (not_ready (by rw [C.1]; simp))
      rw [← e3] at C
      obtain ⟨C1, C2, C3, C4, C5, C6, C7, C8⟩ := C
      have D := key_inj (key_upd1 ia' x3)
      rw [C2, C3, C6, C7, ka'] at D
      obtain ⟨e4, rfl⟩ := m4.wait (not_ready (by rw [D.2.1]; simp))
      rw [← e4] at D
      obtain ⟨D1, D2, D3, D4, D5, D6, D7, D8⟩ := D
      have E := key_upd2 ib' x4
      rw [D1, D3, D5, D7, D8, kb'] at E
      have hc : Coll True [c, a', b'] (gpsUpd b' x4) := by
        rw [e4, e3]
        exact Coll.addGps (P := [c, a']) (Coll.addGps (P := [c]) (Coll.addGps (P := []) (coll_clear ⟨y1, y2, y3⟩)))
      obtain ⟨q, -⟩ := m5.exact (ready_key E) hc (d1 := a') (d2 := b') (d3 := c)
        (by simp [latest, List.filter, ia', ib', ic]) (by simp [latest, List.filter, ia', ib', ic])
        (by simp [latest, List.filter, ia', ib', ic])
      exact ⟨rfl, hi, rfl, rfl, q⟩
  · right; right
    rw [ka] at A
    have hi : ReportsIssue K1 s k (reportTo K1 e) := ⟨e, rfl, s1, g1, by rw [j1]; exact A.2.2.2.1⟩
    obtain ⟨y1, y2, y3⟩ := f1
    have I : x1.iodes = (k, k, x0.iode2, x0.iode3, k) := by
      rw [i1]; unfold Eph.iodes
      obtain ⟨-, -, -, B4, B5, B6, B7, B8⟩ := A
      rw [B4, B5, B6, B7, B8]
    unfold Eph.iodes at I
    simp only [Prod.mk.injEq] at I
    obtain ⟨I1, I2, I3, I4, I5⟩ := I
    have B := key_inj (key_upd2 ib x1)
    rw [y1, y3, I2, I5, kb] at B
    obtain ⟨e2, rfl⟩ := m2.wait (not_ready (by rw [B.1]; simp))
    rw [← e2] at B
    obtain ⟨B1, B2, B3, B4, B5, B6, B7, B8⟩ := B
    have C := key_inj (key_upd3 ic x2)
    rw [B1, B2, B4, B5, B6, B8] at C
    obtain ⟨e3, rfl⟩ := m3.wait (not_ready (by rw [C.1]; simp))
    rw [← e3] at C
    obtain ⟨C1, C2, C3, C4, C5, C6, C7, C8⟩ := C
    have D := key_upd1 ia' x3
    rw [C2, C3, C6, C7, ka'] at D
    have hc : Coll True [b, c, a'] (gpsUpd a' x3) := by
      rw [e3, e2]
      exact Coll.addGps (P := [b, c]) (Coll.addGps (P := [b]) (Coll.addGps (P := []) (coll_clear ⟨y1, y2, y3⟩)))
    obtain ⟨q, z1, z2, z3⟩ := m4.exact (ready_key D) hc (d1 := a') (d2 := b) (d3 := c)
      (by simp [latest, List.filter, ia', ib, ic]) (by simp [latest, List.filter, ia', ib, ic])
      (by simp [latest, List.filter, ia', ib, ic])
    have E := key_inj (key_upd2 ib' x4)
    obtain ⟨e5, rfl⟩ := m5.wait (not_ready (by rw [E.1, z1]; simp))
    exact ⟨hi, rfl, rfl, q, rfl⟩

end Ublox.Nav
