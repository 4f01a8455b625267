import Verif.Lemmas.NavGpsReport

/-! Helper lemmas: three GPS subframes of one data set are reported. -/

namespace Ublox.Nav

attribute [local irreducible] gpsU gpsS gpsU32 gpsS32

theorem perm3 {x y z : Nat} (h : [x, y, z].Perm [1, 2, 3]) (hx : x ≠ 3) :
    (x = 1 ∧ y = 2 ∧ z = 3) ∨ (x = 1 ∧ y = 3 ∧ z = 2) ∨ (x = 2 ∧ y = 1 ∧ z = 3) ∨ (x = 2 ∧ y = 3 ∧ z = 1) := by
  have hx' : x ∈ [1, 2, 3] := h.subset (by simp)
  have hy' : y ∈ [1, 2, 3] := h.subset (by simp)
  have hz' : z ∈ [1, 2, 3] := h.subset (by simp)
  have nd : [x, y, z].Nodup := h.nodup_iff.mpr (by decide)
  simp at hx' hy' hz' nd
  omega

/-- The state after the three subframes is complete. -/
theorem three_ready {a b c : List Byte} {e0 e1 e2 e3 : Eph} (h0 : e0.got1 = false ∧ e0.got2 = false ∧ e0.got3 = false)
    (hid : [gpsId a, gpsId b, gpsId c].Perm [1, 2, 3]) (ha : gpsId a ≠ 3) (hab : issueOf a = issueOf b)
    (hac : issueOf a = issueOf c) (s : Byte)
    (h1 : e1 = gpsUpd a { e0 with sat := s, gnssID := 0 }) (h2 : e2 = gpsUpd b { e1 with sat := s, gnssID := 0 })
    (h3 : e3 = gpsUpd c { e2 with sat := s, gnssID := 0 }) : Ready e3 := by
  obtain ⟨a1, a2, a3⟩ := gpsUpd_flags a { e0 with sat := s, gnssID := 0 }
  obtain ⟨b1, b2, b3⟩ := gpsUpd_flags b { e1 with sat := s, gnssID := 0 }
  obtain ⟨c1, c2, c3⟩ := gpsUpd_flags c { e2 with sat := s, gnssID := 0 }
  have ai := gpsUpd_iodes a { e0 with sat := s, gnssID := 0 }
  have bi := gpsUpd_iodes b { e1 with sat := s, gnssID := 0 }
  have ci := gpsUpd_iodes c { e2 with sat := s, gnssID := 0 }
  have i0 := ident_same e0 s 0
  have i1 := ident_same e1 s 0
  have i2 := ident_same e2 s 0
  rw [i0.1, ← h1] at a1
  rw [i0.2.1, ← h1] at a2
  rw [i0.2.2.1, ← h1] at a3
  rw [i0.2.2.2, ← h1] at ai
  rw [i1.1, ← h2, a1] at b1
  rw [i1.2.1, ← h2, a2] at b2
  rw [i1.2.2.1, ← h2, a3] at b3
  rw [i1.2.2.2, ← h2, ai] at bi
  rw [i2.1, ← h3, b1] at c1
  rw [i2.2.1, ← h3, b2] at c2
  rw [i2.2.2.1, ← h3, b3] at c3
  rw [i2.2.2.2, ← h3, bi] at ci
  clear h1 h2 h3 a1 a2 a3 b1 b2 b3 ai bi i0 i1 i2
  rw [h0.1] at c1
  rw [h0.2.1] at c2
  rw [h0.2.2] at c3
  unfold issueOf at hab hac
  unfold iodesUpd at ci
  generalize e0.iodes = x at ci
  rcases perm3 hid ha with ⟨p, q, r⟩ | ⟨p, q, r⟩ | ⟨p, q, r⟩ | ⟨p, q, r⟩ <;>
    rw [p, q] at hab <;> rw [p, r] at hac <;> rw [p, q, r] at c1 c2 c3 ci <;>
    simp at c1 c2 c3 ci hab hac <;>
    [exact ready_of_iodes (i := iode1Of a) c1 c2 c3 (by rw [ci, ← hab]);
     exact ready_of_iodes (i := iode1Of a) c1 c2 c3 (by rw [ci, ← hac]);
     exact ready_of_iodes (i := iode2Of a) c1 c2 c3 (by rw [ci, ← hab]);
     exact ready_of_iodes (i := iode2Of a) c1 c2 c3 (by rw [ci, ← hac])]

/-- The three subframes on a parser with nothing pending for the satellite, unrelated operations in between. -/
theorem three_run {md : Mode} {s : Byte} {n0 n : Nav} {mid1 mid2 : List NavOp} {ja jb jc : List Byte}
    {ma mb mc : Sfrbx} {cs : List (List NavCall)}
    (hclear : (n0.cur s).got1 = false ∧ (n0.cur s).got2 = false ∧ (n0.cur s).got3 = false)
    (ga : ma.gnssId = 0 ∧ ma.svId = s) (gb : mb.gnssId = 0 ∧ mb.svId = s) (gc : mc.gnssId = 0 ∧ mc.svId = s)
    (wa : (NavOp.sfrbx ja ma).WF) (wb : (NavOp.sfrbx jb mb).WF) (wc : (NavOp.sfrbx jc mc).WF)
    (u1 : ∀ op ∈ mid1, Unrelated s op) (u2 : ∀ op ∈ mid2, Unrelated s op)
    (hid : [gpsId ma.dwrd, gpsId mb.dwrd, gpsId mc.dwrd].Perm [1, 2, 3]) (ha : gpsId ma.dwrd ≠ 3)
    (hab : issueOf ma.dwrd = issueOf mb.dwrd) (hac : issueOf ma.dwrd = issueOf mc.dwrd)
    (h : n0.run md (.sfrbx ja ma :: (mid1 ++ .sfrbx jb mb :: (mid2 ++ [.sfrbx jc mc]))) = .ok (n, cs)) :
    ∃ e d1 d2 d3 c1 c2, cs = [] :: (c1 ++ [] :: (c2 ++ [reportTo n.ephCbs e])) ∧ c1.length = mid1.length ∧
      c2.length = mid2.length ∧ latest 1 [ma.dwrd, mb.dwrd, mc.dwrd] = some d1 ∧
      latest 2 [ma.dwrd, mb.dwrd, mc.dwrd] = some d2 ∧ latest 3 [ma.dwrd, mb.dwrd, mc.dwrd] = some d3 ∧
      CarriesGps e s d1 d2 d3 := by
  rw [run_cons] at h
  obtain ⟨n1, cA, cs1, sA, h, rfl⟩ := h
  rw [run_append] at h
  obtain ⟨n2, c1, cs2, r1, h, rfl⟩ := h
  rw [run_cons] at h
  obtain ⟨n3, cB, cs3, sB, h, rfl⟩ := h
  rw [run_append] at h
  obtain ⟨n4, c2, cs4, r2, h, rfl⟩ := h
  rw [run_cons] at h
  obtain ⟨n5, cC, cs5, sC, h, rfl⟩ := h
  rw [run_nil] at h
  obtain ⟨rfl, rfl⟩ := h
  have l1 := run_length r1
  have l2 := run_length r2
  obtain ⟨ga, ga'⟩ := ga
  obtain ⟨gb, gb'⟩ := gb
  obtain ⟨gc, gc'⟩ := gc
  have k1 := cur_of_entry (unrelated_run u1 r1)
  have k2 := cur_of_entry (unrelated_run u2 r2)
  have orders := perm3 hid ha
  -- first subframe
  obtain ⟨eA, rfl⟩ := gps_wait ga wa sA (by rw [ga', hclear.1, hclear.2.1, hclear.2.2]; simp; omega)
  rw [ga'] at eA
  have fl := gpsUpd_flags ma.dwrd { n0.cur s with sat := s, gnssID := 0 }
  rw [← eA, (ident_same (n0.cur s) s 0).1, (ident_same (n0.cur s) s 0).2.1, (ident_same (n0.cur s) s 0).2.2.1,
    hclear.1, hclear.2.1, hclear.2.2, ← k1] at fl
  simp only [Bool.false_or] at fl
  -- second subframe
  obtain ⟨eB, rfl⟩ := gps_wait gb wb sB (by
    rw [gb', fl.1, fl.2.1, fl.2.2]; simp; omega)
  rw [gb', k1] at eB
  -- third subframe
  have hr := three_ready hclear hid ha hab hac s eA eB rfl
  have hC0 : Coll True [] (n0.cur s) := ⟨(by rw [hclear.1]; intro h; cases h), (by rw [hclear.2.1]; intro h; cases h),
    (by rw [hclear.2.2]; intro h; cases h)⟩
  have hC1 : Coll True ([] ++ [ma.dwrd]) (n1.cur s) := by rw [eA]; exact Coll.addGps (hC0.ident s 0)
  have hC2 : Coll True ([] ++ [ma.dwrd] ++ [mb.dwrd]) (n4.cur s) := by
    rw [k2, eB]; exact Coll.addGps (hC1.ident s 0)
  obtain ⟨e, d1, d2, d3, q1, -, q2, q3, q4, q5⟩ := gps_done gc wc sC (by omega) (by rw [gc', k2]; exact hr)
    (by rw [gc']; exact hC2)
  have hcb : n.ephCbs = n4.ephCbs := by
    obtain ⟨r, -, -, nx⟩ := step_eph (by rw [gc]; decide) sC
    exact nx.cbs.1
  rw [gc'] at q5
  refine ⟨e, d1, d2, d3, c1, c2, ?_, l1, l2, q2, q3, q4, q5⟩
  rw [q1, hcb]

end Ublox.Nav
