import Verif.Lemmas.NavGpsLive
import Verif.Props.NavInputGps

/-!
# C133: a GPS satellite's data set is picked up whatever was received before
-/

namespace Ublox.Nav

attribute [local irreducible] gpsU gpsS gpsU32 gpsS32

theorem run_ephCbs_init {md : Mode} {ops : List NavOp} {n : Nav} {cs : List (List NavCall)}
    (h : Nav.init.run md ops = .ok (n, cs)) : n.ephCbs = ephCbCount ops := by
  rw [(run_ephCbs h).1]; exact Nat.zero_add _

theorem ephCbCount_append (a b : List NavOp) : ephCbCount (a ++ b) = ephCbCount a + ephCbCount b := by
  simp [ephCbCount]

/-- Splitting a run at a message. -/
theorem run_split {md : Mode} {A B : List NavOp} {op : NavOp} {n0 n : Nav} {cs : List (List NavCall)}
    (h : n0.run md (A ++ op :: B) = .ok (n, cs)) : ∃ n1 n2 c1 r c2, n0.run md A = .ok (n1, c1) ∧ n1.step md op = .ok (n2, r) ∧
      n2.run md B = .ok (n, c2) ∧ cs = c1 ++ r :: c2 ∧ c1.length = A.length := by
  rw [run_append] at h
  obtain ⟨n1, c1, c2, h1, h2, rfl⟩ := h
  rw [run_cons] at h2
  obtain ⟨n2, r, c3, h3, h4, rfl⟩ := h2
  exact ⟨n1, n2, c1, r, c3, h1, h3, h4, rfl, run_length h1⟩

theorem ephCbs_step {md : Mode} {junk : List Byte} {m : Sfrbx} {n n' : Nav} {c : List NavCall}
    (h : n.step md (.sfrbx junk m) = .ok (n', c)) : n'.ephCbs = n.ephCbs := by
  have := (run_ephCbs (ops := [.sfrbx junk m]) (n := n) (n' := n') (cs := [c])
    (by rw [run_cons]; exact ⟨n', c, [], h, rfl, rfl⟩)).1
  rw [this]; rfl

/-- **C133**: whatever was received before (`pre` is any history: lost or stale subframes, other data sets, Galileo messages under the
same number), when subframes 1, 2, 3, 1, 2 of GPS satellite `s` then arrive with one issue `k`, with anything in between that
brings no other subframe 1-3 of that satellite, then exactly one of these happens:
the third message reports exactly the data set and the others report nothing;
the second reports an ephemeris of issue `k` (completing an older collection) and the fifth reports exactly the data set;
the first reports an ephemeris of issue `k` and the fourth reports exactly the data set. -/
theorem c133_stabilises (md : Mode) (s : Byte) (k : Nat) (pre q1 q2 q3 q4 : List NavOp) (j1 j2 j3 j4 j5 : List Byte)
    (m1 m2 m3 m4 m5 : Sfrbx) (n : Nav) (cs : List (List NavCall))
    (g1 : m1.gnssId = 0 ∧ m1.svId = s) (g2 : m2.gnssId = 0 ∧ m2.svId = s) (g3 : m3.gnssId = 0 ∧ m3.svId = s)
    (g4 : m4.gnssId = 0 ∧ m4.svId = s) (g5 : m5.gnssId = 0 ∧ m5.svId = s)
    (w1 : (NavOp.sfrbx j1 m1).WF) (w2 : (NavOp.sfrbx j2 m2).WF) (w3 : (NavOp.sfrbx j3 m3).WF) (w4 : (NavOp.sfrbx j4 m4).WF)
    (w5 : (NavOp.sfrbx j5 m5).WF) (u1 : ∀ op ∈ q1, Quiet s op ∧ op.WF) (u2 : ∀ op ∈ q2, Quiet s op ∧ op.WF)
    (u3 : ∀ op ∈ q3, Quiet s op ∧ op.WF) (u4 : ∀ op ∈ q4, Quiet s op ∧ op.WF)
    (i1 : gpsId m1.dwrd = 1) (i2 : gpsId m2.dwrd = 2) (i3 : gpsId m3.dwrd = 3) (i4 : gpsId m4.dwrd = 1) (i5 : gpsId m5.dwrd = 2)
    (k1 : iode1Of m1.dwrd = k) (k2 : iode2Of m2.dwrd = k) (k4 : iode1Of m4.dwrd = k) (k5 : iode2Of m5.dwrd = k)
    (h : Nav.init.run md (pre ++ .sfrbx j1 m1 :: (q1 ++ .sfrbx j2 m2 :: (q2 ++ .sfrbx j3 m3 :: (q3 ++ .sfrbx j4 m4 ::
      (q4 ++ [.sfrbx j5 m5]))))) = .ok (n, cs)) :
    ∃ c0 r1 c1 r2 c2 r3 c3 r4 c4 r5, cs = c0 ++ r1 :: (c1 ++ r2 :: (c2 ++ r3 :: (c3 ++ r4 :: (c4 ++ [r5])))) ∧
      c0.length = pre.length ∧ c1.length = q1.length ∧ c2.length = q2.length ∧ c3.length = q3.length ∧ c4.length = q4.length ∧
      ((r1 = [] ∧ r2 = [] ∧ ReportsSet (ephCbCount (pre ++ q1 ++ q2)) s m1.dwrd m2.dwrd m3.dwrd r3 ∧ r4 = [] ∧ r5 = []) ∨
       (r1 = [] ∧ ReportsIssue (ephCbCount (pre ++ q1)) s k r2 ∧ r3 = [] ∧ r4 = [] ∧
          ReportsSet (ephCbCount (pre ++ q1 ++ q2 ++ q3 ++ q4)) s m4.dwrd m5.dwrd m3.dwrd r5) ∨
       (ReportsIssue (ephCbCount pre) s k r1 ∧ r2 = [] ∧ r3 = [] ∧
          ReportsSet (ephCbCount (pre ++ q1 ++ q2 ++ q3)) s m4.dwrd m2.dwrd m3.dwrd r4 ∧ r5 = [])) := by
  obtain ⟨a0, b0, c0, r1, _, h0, s1, p0, rfl, l0⟩ := run_split h
  obtain ⟨a1, b1, c1, r2, _, h1, s2, p1, rfl, l1⟩ := run_split p0
  obtain ⟨a2, b2, c2, r3, _, h2, s3, p2, rfl, l2⟩ := run_split p1
  obtain ⟨a3, b3, c3, r4, _, h3, s4, p3, rfl, l3⟩ := run_split p2
  obtain ⟨a4, b4, c4, r5, _, h4, s5, p4, rfl, l4⟩ := run_split p3
  rw [run_nil] at p4
  obtain ⟨rfl, rfl⟩ := p4
  have e0 := run_ephCbs_init h0
  have e1 : a1.ephCbs = ephCbCount (pre ++ q1) := by
    rw [(run_ephCbs h1).1, ephCbs_step s1, e0]; exact (ephCbCount_append _ _).symm
  have e2 : a2.ephCbs = ephCbCount (pre ++ q1 ++ q2) := by
    rw [(run_ephCbs h2).1, ephCbs_step s2, e1]; exact (ephCbCount_append _ _).symm
  have e3 : a3.ephCbs = ephCbCount (pre ++ q1 ++ q2 ++ q3) := by
    rw [(run_ephCbs h3).1, ephCbs_step s3, e2]; exact (ephCbCount_append _ _).symm
  have e4 : a4.ephCbs = ephCbCount (pre ++ q1 ++ q2 ++ q3 ++ q4) := by
    rw [(run_ephCbs h4).1, ephCbs_step s4, e3]; exact (ephCbCount_append _ _).symm
  have v1 := gps_moves g1 w1 s1 (.inl i1)
  have v2 := gps_moves g2 w2 s2 (.inr (.inl i2))
  have v3 := gps_moves g3 w3 s3 (.inr (.inr i3))
  have v4 := gps_moves g4 w4 s4 (.inl i4)
  have v5 := gps_moves g5 w5 s5 (.inr (.inl i5))
  rw [e0] at v1
  rw [e1, quiet_run u1 h1] at v2
  rw [e2, quiet_run u2 h2] at v3
  rw [e3, quiet_run u3 h3] at v4
  rw [e4, quiet_run u4 h4] at v5
  exact ⟨c0, r1, c1, r2, c2, r3, c3, r4, c4, r5, rfl, l0, l1, l2, l3, l4,
    five_moves i1 i2 i3 i4 i5 k1 k2 k4 k5 v1 v2 v3 v4 v5⟩

/-- Nothing of issue `k` is in the entry. -/
def NoIssue (k : Nat) (e : Eph) : Prop := e.iode ≠ k ∧ e.iode1 ≠ k ∧ e.iode2 ≠ k ∧ e.iode3 ≠ k

theorem noIssue_iodes {k : Nat} {e e' : Eph} (h : e'.iodes = e.iodes) (hk : NoIssue k e) : NoIssue k e' := by
  unfold Eph.iodes at h
  simp only [Prod.mk.injEq] at h
  obtain ⟨a, b, c, d, -⟩ := h
  unfold NoIssue
  rw [a, b, c, d]; exact hk

theorem noIssue_step {md : Mode} {s : Byte} {k : Nat} {n n' : Nav} {op : NavOp} {c : List NavCall} (hu : NotIssue s k op)
    (hw : op.WF) (h : n.step md op = .ok (n', c)) (hk : NoIssue k (n.own s)) : NoIssue k (n'.own s) := by
  by_cases hun : Unrelated s op
  · unfold Nav.own at *; rw [cur_of_entry (unrelated_step hun h)]; exact hk
  cases op with
  | sfrbx junk m =>
    have hs : m.svId = s := by by_contra hc; exact hun (.inr hc)
    rcases hu hs with hg | ⟨h0, h1, h2⟩
    · exact absurd (.inl hg) hun
    by_cases hid : gpsId m.dwrd = 1 ∨ gpsId m.dwrd = 2 ∨ gpsId m.dwrd = 3
    · have hi := gpsUpd_iodes m.dwrd (n.own s)
      have hu' : NoIssue k (gpsUpd m.dwrd (n.own s)) := by
        obtain ⟨a, b, c, d⟩ := hk
        rcases hid with hid | hid | hid
        · obtain ⟨-, -, -, p, q, r, t, -⟩ := key_inj (key_upd1 hid (n.own s))
          unfold NoIssue; rw [p, q, r, t]; exact ⟨h1 hid, h1 hid, c, d⟩
        · obtain ⟨-, -, -, p, q, r, t, -⟩ := key_inj (key_upd2 hid (n.own s))
          unfold NoIssue; rw [p, q, r, t]; exact ⟨h2 hid, b, h2 hid, d⟩
        · obtain ⟨-, -, -, p, q, r, t, -⟩ := key_inj (key_upd3 hid (n.own s))
          unfold NoIssue; rw [p, q, r, t]; exact ⟨a, b, c, a⟩
      rcases gps_moves ⟨h0, hs⟩ hw h hid with ⟨-, e, -⟩ | ⟨-, -, e, -⟩
      · rw [e]; exact hu'
      · exact noIssue_iodes e hu'
    · rw [quiet_step (.inr ⟨junk, m, rfl, h0, hs, (by simpa using hid)⟩) hw h]; exact hk
  | _ => exact absurd trivial hun

theorem noIssue_run {md : Mode} {s : Byte} {k : Nat} {ops : List NavOp} : ∀ {n n' : Nav} {cs : List (List NavCall)},
    (∀ op ∈ ops, NotIssue s k op ∧ op.WF) → n.run md ops = .ok (n', cs) → NoIssue k (n.own s) → NoIssue k (n'.own s) := by
  induction ops with
  | nil => intro n n' cs _ h hk; rw [run_nil] at h; rw [h.1]; exact hk
  | cons op ops ih =>
    intro n n' cs hu h hk
    rw [run_cons] at h
    obtain ⟨n1, c, cs', h1, h2, -⟩ := h
    exact ih (fun o ho => hu o (by simp [ho])) h2 (noIssue_step (hu op (by simp)).1 (hu op (by simp)).2 h1 hk)

/-- **C133**, a new issue: if the issue `k` is not 0 and was not seen before in a subframe 1 or 2 of the satellite, and no Galileo
message came under its number, the data set is reported exactly, at its third subframe, and nothing is reported earlier; other
data sets may have been received in whole or in part. (For issue 0 this is false: see `c133_zero_refuted`.) -/
theorem c133_new_issue (md : Mode) (s : Byte) (k : Nat) (hk : k ≠ 0) (pre q1 q2 : List NavOp) (j1 j2 j3 : List Byte)
    (m1 m2 m3 : Sfrbx) (n : Nav) (cs : List (List NavCall))
    (g1 : m1.gnssId = 0 ∧ m1.svId = s) (g2 : m2.gnssId = 0 ∧ m2.svId = s) (g3 : m3.gnssId = 0 ∧ m3.svId = s)
    (w1 : (NavOp.sfrbx j1 m1).WF) (w2 : (NavOp.sfrbx j2 m2).WF) (w3 : (NavOp.sfrbx j3 m3).WF)
    (u0 : ∀ op ∈ pre, NotIssue s k op ∧ op.WF) (u1 : ∀ op ∈ q1, Quiet s op ∧ op.WF) (u2 : ∀ op ∈ q2, Quiet s op ∧ op.WF)
    (i1 : gpsId m1.dwrd = 1) (i2 : gpsId m2.dwrd = 2) (i3 : gpsId m3.dwrd = 3)
    (k1 : iode1Of m1.dwrd = k) (k2 : iode2Of m2.dwrd = k)
    (h : Nav.init.run md (pre ++ .sfrbx j1 m1 :: (q1 ++ .sfrbx j2 m2 :: (q2 ++ [.sfrbx j3 m3]))) = .ok (n, cs)) :
    ∃ c0 c1 c2 r, cs = c0 ++ [] :: (c1 ++ [] :: (c2 ++ [r])) ∧ c0.length = pre.length ∧ c1.length = q1.length ∧
      c2.length = q2.length ∧ ReportsSet (ephCbCount (pre ++ q1 ++ q2)) s m1.dwrd m2.dwrd m3.dwrd r := by
  obtain ⟨a0, b0, c0, r1, _, h0, s1, p0, rfl, l0⟩ := run_split h
  obtain ⟨a1, b1, c1, r2, _, h1, s2, p1, rfl, l1⟩ := run_split p0
  obtain ⟨a2, b2, c2, r3, _, h2, s3, p2, rfl, l2⟩ := run_split p1
  rw [run_nil] at p2
  obtain ⟨rfl, rfl⟩ := p2
  have e0 := run_ephCbs_init h0
  have e1 : a1.ephCbs = ephCbCount (pre ++ q1) := by
    rw [(run_ephCbs h1).1, ephCbs_step s1, e0]; exact (ephCbCount_append _ _).symm
  have e2 : a2.ephCbs = ephCbCount (pre ++ q1 ++ q2) := by
    rw [(run_ephCbs h2).1, ephCbs_step s2, e1]; exact (ephCbCount_append _ _).symm
  have v1 := gps_moves g1 w1 s1 (.inl i1)
  have v2 := gps_moves g2 w2 s2 (.inr (.inl i2))
  have v3 := gps_moves g3 w3 s3 (.inr (.inr i3))
  rw [quiet_run u1 h1] at v2
  rw [e2, quiet_run u2 h2] at v3
  have hn : NoIssue k (a0.own s) := noIssue_run u0 h0 ⟨hk.symm, hk.symm, hk.symm, hk.symm⟩
  obtain ⟨n1, n2, n3, n4⟩ := hn
  have A := key_inj (key_upd1 i1 (a0.own s))
  rw [k1] at A
  obtain ⟨y1, rfl⟩ := v1.wait (fun hr => by
    obtain ⟨-, -, -, t, -⟩ := hr
    rw [A.2.2.2.2.1, A.2.2.2.2.2.1] at t
    exact n3 t.symm)
  rw [← y1] at A
  have B := key_inj (key_upd2 i2 (b0.own s))
  obtain ⟨A1, -, -, A4, A5, A6, A7, A8⟩ := A
  rw [A1, A5, A7, A8, k2] at B
  obtain ⟨y2, rfl⟩ := v2.wait (fun hr => by
    obtain ⟨-, -, -, -, t, -⟩ := hr
    rw [B.2.2.2.2.1, B.2.2.2.2.2.2.1] at t
    exact n4 t.symm)
  rw [← y2] at B
  have C := key_upd3 i3 (b1.own s)
  obtain ⟨B1, B2, -, B4, B5, B6, -, B8⟩ := B
  rw [B1, B2, B4, B5, B6, B8] at C
  have hc : Coll True [m1.dwrd, m2.dwrd, m3.dwrd] (gpsUpd m3.dwrd (b1.own s)) := by
    rw [y2, y1]; exact coll_three i1 i2 i3 _
  obtain ⟨q, -⟩ := v3.exact (ready_key C) hc (d1 := m1.dwrd) (d2 := m2.dwrd) (d3 := m3.dwrd)
    (by simp [latest, List.filter, i1, i2, i3]) (by simp [latest, List.filter, i1, i2, i3])
    (by simp [latest, List.filter, i1, i2, i3])
  exact ⟨c0, c1, c2, r3, rfl, l0, l1, l2, q⟩

/-! ### Concrete cases -/

/-- A message of satellite 7 with a subframe of `exParams`, or of another issue of them. -/
def liveMsg (iodc k : Nat) : NavOp :=
  .sfrbx (List.replicate 30 0) ⟨0, 7, 0, subframe (fun _ _ => true) { exParams with iodc := iodc } k⟩

/-- Whether and what the messages report (issue numbers). -/
def liveRun (ops : List NavOp) : Option (List (List Nat)) :=
  match Nav.init.run .strict ops with
  | .ok (_, cs) => some (cs.map fun c => c.filterMap fun | .eph _ e => some e.iode | _ => none)
  | .error _ => none

/-- All three outcomes occur: after stale subframes of another issue the third message reports; after subframes 1 and 3, or 2 and 3, of
the same issue the second, or the first, reports already. -/
example : liveRun [.addEphCb, liveMsg 90 1, liveMsg 90 3, liveMsg 91 1, liveMsg 91 2, liveMsg 91 3, liveMsg 91 1, liveMsg 91 2] =
    some [[], [], [], [], [], [91], [], []] := by decide +kernel
example : liveRun [.addEphCb, liveMsg 91 1, liveMsg 91 3, liveMsg 91 1, liveMsg 91 2, liveMsg 91 3, liveMsg 91 1, liveMsg 91 2] =
    some [[], [], [], [], [91], [], [], [91]] := by decide +kernel
example : liveRun [.addEphCb, liveMsg 91 2, liveMsg 91 3, liveMsg 91 1, liveMsg 91 2, liveMsg 91 3, liveMsg 91 1, liveMsg 91 2] =
    some [[], [], [], [91], [], [], [91], []] := by decide +kernel

/-- The hypotheses of `c133_new_issue` are met by the first of these runs. -/
example : (∀ op ∈ [NavOp.addEphCb, liveMsg 90 1, liveMsg 90 3], NotIssue 7 91 op ∧ op.WF) ∧
    gpsId (subframe (fun _ _ => true) { exParams with iodc := 91 } 1) = 1 ∧
    iode1Of (subframe (fun _ _ => true) { exParams with iodc := 91 } 1) = 91 ∧
    iode2Of (subframe (fun _ _ => true) { exParams with iodc := 91 } 2) = 91 := by
  refine ⟨?_, by decide +kernel, by decide +kernel, by decide +kernel⟩
  intro op hop
  simp only [List.mem_cons, List.not_mem_nil, or_false] at hop
  rcases hop with rfl | rfl | rfl
  · exact ⟨trivial, trivial⟩
  · exact ⟨fun _ => .inr ⟨rfl, by decide +kernel, by decide +kernel⟩, by decide +kernel, by decide +kernel⟩
  · exact ⟨fun _ => .inr ⟨rfl, by decide +kernel, by decide +kernel⟩, by decide +kernel, by decide +kernel⟩

/-- A stale subframe 3 of satellite 7: other orbit parameters, another issue. -/
def liveStale : NavOp :=
  .sfrbx (List.replicate 30 0) ⟨0, 7, 0, subframe (fun _ _ => true) { exParams with iodc := 90, i0 := exParams.i0 + 1 } 3⟩

/-- **C133**, issue 0: after a single stale subframe 3 (here of issue 90) the first data set of issue 0 is reported too early,
at its second subframe, with the inclination of the stale subframe 3. -/
theorem c133_zero_refuted : ∃ n e, Nav.init.run .strict [.addEphCb, liveStale, liveMsg 0 1, liveMsg 0 2, liveMsg 0 3] =
    .ok (n, [[], [], [], [.eph 0 e], []]) ∧ e.i0 = ⟨exParams.i0 + 1, [.p2 31, .pi]⟩ := by
  have h : (match Nav.init.run .strict [.addEphCb, liveStale, liveMsg 0 1, liveMsg 0 2, liveMsg 0 3] with
      | .ok (_, [[], [], [], [.eph 0 e], []]) => some e.i0 | _ => none) = some ⟨exParams.i0 + 1, [.p2 31, .pi]⟩ := by decide +kernel
  revert h
  generalize Nav.init.run .strict [.addEphCb, liveStale, liveMsg 0 1, liveMsg 0 2, liveMsg 0 3] = r
  intro h
  split at h
  · exact ⟨_, _, rfl, Option.some.inj h⟩
  · cases h

end Ublox.Nav

namespace Ublox
namespace Dev

open Nav (Nav NavCall Mode Sfrbx NavOp GpsParams ReportsGps reportTo subframe Unrelated)

theorem QuietIn.quiet {s : Byte} {i : NavIn} {op : NavOp} (h : QuietIn s i) (hs : SameIn i op) : Nav.Quiet s op ∧ op.WF := by
  refine ⟨?_, wf_all (ins := [i]) (ops := [op]) (.cons hs .nil) op (by simp)⟩
  rcases h with h | ⟨r, x, ch, ver, res, w, rfl, hw, hid⟩
  · exact .inl (h.unrelated hs)
  · exact .inr ⟨_, _, gps_op hw hs, rfl, rfl, hid⟩

theorem quietIn_all {s : Byte} {ins : List NavIn} {ops : List NavOp} (hs : List.Forall₂ SameIn ins ops)
    (h : ∀ i ∈ ins, QuietIn s i) : ∀ op ∈ ops, Nav.Quiet s op ∧ op.WF := by
  induction hs with
  | nil => simp
  | cons h1 _ ih =>
    intro op hop
    rcases List.mem_cons.1 hop with rfl | hop
    · exact (h _ List.mem_cons_self).quiet h1
    · exact ih (fun i hi => h i (List.mem_cons_of_mem _ hi)) op hop

theorem sub_id1 {p : GpsParams} (hp : p.Ok) (f : Nat → Nat → Bool) : Nav.gpsId (subframe f p 1) = 1 := Nav.id1 hp
theorem sub_id2 {p : GpsParams} (hp : p.Ok) (f : Nat → Nat → Bool) : Nav.gpsId (subframe f p 2) = 2 := Nav.id2 hp
theorem sub_id3 {p : GpsParams} (hp : p.Ok) (f : Nat → Nat → Bool) : Nav.gpsId (subframe f p 3) = 3 := Nav.id3 hp

theorem sub_k1 {p : GpsParams} (hp : p.Ok) (f : Nat → Nat → Bool) : Nav.iode1Of (subframe f p 1) = p.iodc % 256 := by
  have h : Nav.issueOf (subframe f p 1) = p.iodc % 256 := Nav.issue1 hp
  unfold Nav.issueOf at h
  rw [sub_id1 hp, if_pos rfl] at h
  exact h

theorem sub_k2 {p : GpsParams} (hp : p.Ok) (f : Nat → Nat → Bool) : Nav.iode2Of (subframe f p 2) = p.iodc % 256 := by
  have h : Nav.issueOf (subframe f p 2) = p.iodc % 256 := Nav.issue2 hp
  unfold Nav.issueOf at h
  rw [sub_id2 hp, if_neg (by decide), if_pos rfl] at h
  exact h

theorem sub_reports {p : GpsParams} (hp : p.Ok) {e : Nav.Eph} {s : Byte} {f1 f2 f3 : Nat → Nat → Bool}
    (h : Nav.CarriesGps e s (subframe f1 p 1) (subframe f2 p 2) (subframe f3 p 3)) : ReportsGps e s p :=
  Nav.reports_of_carries hp h

section
attribute [local irreducible] Nav.subframe

/-- The same for any decoder that was told `ins`. -/
theorem c133_told {md : Mode} {ins : List NavIn} {n : Nav} {es : List Eff} (h : Told md Nav.init ins n es) (s : Byte) (p : GpsParams) (hp : p.Ok) (f1 f2 f3 f4 f5 : Nat → Nat → Bool)
    (ra xa cha va ea rb xb chb vb eb rc xc chc vc ec rd xd chd vd ed re xe che ve ee : Byte) (i0 i1 i2 i3 i4 : List NavIn)
    (u1 : ∀ i ∈ i1, QuietIn s i) (u2 : ∀ i ∈ i2, QuietIn s i) (u3 : ∀ i ∈ i3, QuietIn s i) (u4 : ∀ i ∈ i4, QuietIn s i)
    (hin : ins = i0 ++ .sfrbx (gpsPayload s ra xa cha va ea (subframe f1 p 1)) ::
      (i1 ++ .sfrbx (gpsPayload s rb xb chb vb eb (subframe f2 p 2)) ::
      (i2 ++ .sfrbx (gpsPayload s rc xc chc vc ec (subframe f3 p 3)) ::
      (i3 ++ .sfrbx (gpsPayload s rd xd chd vd ed (subframe f4 p 1)) ::
      (i4 ++ [.sfrbx (gpsPayload s re xe che ve ee (subframe f5 p 2))]))))) :
    ∃ (e : Nav.Eph) (before after : List (List NavCall)) (K : Nat), es.filterMap Eff.nav? = before.flatten ++ reportTo K e ++ after.flatten ∧ ReportsGps e s p ∧
      before.length + 1 + after.length = (ins).length ∧
      ((before.length = i0.length + i1.length + i2.length + 2 ∧ K = ephRegs (i0 ++ i1 ++ i2)) ∨
       (before.length = i0.length + i1.length + i2.length + i3.length + 3 ∧ K = ephRegs (i0 ++ i1 ++ i2 ++ i3)) ∨
       (before.length = i0.length + i1.length + i2.length + i3.length + i4.length + 4 ∧
          K = ephRegs (i0 ++ i1 ++ i2 ++ i3 ++ i4))) := by
  obtain ⟨ops, cs, h1, h2, h3⟩ := h
  rw [hin] at h1
  obtain ⟨o0, _, k0, t0, rfl⟩ := forall2_append_left h1
  obtain ⟨_, _, v1, t1, rfl⟩ := List.forall₂_cons_left_iff.mp t0
  obtain ⟨o1, _, k1, t2, rfl⟩ := forall2_append_left t1
  obtain ⟨_, _, v2, t3, rfl⟩ := List.forall₂_cons_left_iff.mp t2
  obtain ⟨o2, _, k2, t4, rfl⟩ := forall2_append_left t3
  obtain ⟨_, _, v3, t5, rfl⟩ := List.forall₂_cons_left_iff.mp t4
  obtain ⟨o3, _, k3, t6, rfl⟩ := forall2_append_left t5
  obtain ⟨_, _, v4, t7, rfl⟩ := List.forall₂_cons_left_iff.mp t6
  obtain ⟨o4, _, k4, t8, rfl⟩ := forall2_append_left t7
  obtain ⟨_, _, v5, t9, rfl⟩ := List.forall₂_cons_left_iff.mp t8
  cases t9
  have e1 := gps_op (subframe_length _ _ _) v1
  have e2 := gps_op (subframe_length _ _ _) v2
  have e3 := gps_op (subframe_length _ _ _) v3
  have e4 := gps_op (subframe_length _ _ _) v4
  have e5 := gps_op (subframe_length _ _ _) v5
  subst e1; subst e2; subst e3; subst e4; subst e5
  have wf : ∀ x f k, (NavOp.sfrbx (List.replicate 30 0) ⟨0, s, x, subframe f p k⟩).WF := fun x f k =>
    ⟨List.length_replicate, subframe_length _ _ _⟩
  obtain ⟨c0, r1, c1, r2, c2, r3, c3, r4, c4, r5, hcs, l0, l1, l2, l3, l4, hd⟩ := Nav.c133_stabilises md s (p.iodc % 256) o0 o1 o2 o3 o4
    _ _ _ _ _ _ _ _ _ _ n cs ⟨rfl, rfl⟩ ⟨rfl, rfl⟩ ⟨rfl, rfl⟩ ⟨rfl, rfl⟩ ⟨rfl, rfl⟩ (wf _ _ _) (wf _ _ _) (wf _ _ _)
    (wf _ _ _) (wf _ _ _) (quietIn_all k1 u1) (quietIn_all k2 u2) (quietIn_all k3 u3) (quietIn_all k4 u4)
    (sub_id1 hp _) (sub_id2 hp _) (sub_id3 hp _) (sub_id1 hp _) (sub_id2 hp _) (sub_k1 hp _) (sub_k2 hp _) (sub_k1 hp _) (sub_k2 hp _) h2
  have m0 := k0.length_eq
  have m1 := k1.length_eq
  have m2 := k2.length_eq
  have m3 := k3.length_eq
  have m4 := k4.length_eq
  have a2 : Nav.ephCbCount (o0 ++ o1 ++ o2) = ephRegs (i0 ++ i1 ++ i2) :=
    ephRegs_eq (List.rel_append (List.rel_append k0 k1) k2)
  have a3 : Nav.ephCbCount (o0 ++ o1 ++ o2 ++ o3) = ephRegs (i0 ++ i1 ++ i2 ++ i3) :=
    ephRegs_eq (List.rel_append (List.rel_append (List.rel_append k0 k1) k2) k3)
  have a4 : Nav.ephCbCount (o0 ++ o1 ++ o2 ++ o3 ++ o4) = ephRegs (i0 ++ i1 ++ i2 ++ i3 ++ i4) :=
    ephRegs_eq (List.rel_append (List.rel_append (List.rel_append (List.rel_append k0 k1) k2) k3) k4)
  rw [a2, a3, a4] at hd
  rw [h3, hcs, hin]
  rcases hd with ⟨-, -, ⟨e, rfl, hc⟩, -, -⟩ | ⟨-, -, -, -, e, rfl, hc⟩ | ⟨-, -, -, ⟨e, rfl, hc⟩, -⟩
  · refine ⟨e, c0 ++ r1 :: (c1 ++ r2 :: c2), c3 ++ r4 :: (c4 ++ [r5]), _, ?_, sub_reports hp hc, ?_, .inl ⟨?_, rfl⟩⟩
    · simp
    · simp; omega
    · simp; omega
  · refine ⟨e, c0 ++ r1 :: (c1 ++ r2 :: (c2 ++ r3 :: (c3 ++ r4 :: c4))), [], _, ?_, sub_reports hp hc, ?_,
      .inr (.inr ⟨?_, rfl⟩)⟩
    · simp
    · simp; omega
    · simp; omega
  · refine ⟨e, c0 ++ r1 :: (c1 ++ r2 :: (c2 ++ r3 :: c3)), c4 ++ [r5], _, ?_, sub_reports hp hc, ?_, .inr (.inl ⟨?_, rfl⟩)⟩
    · simp
    · simp; omega
    · simp; omega

/-- **C133** for the device, in terms of the transmitted parameters: a device that is never configured as a base has received
anything at all (`i0`), and then receives the subframes 1, 2, 3, 1, 2 in which GPS satellite `s` transmits the parameters `p`,
in good frames, with anything in between but other orbit data for that number. Then at the third, fourth or fifth of them every
callback registered is called, once, with exactly the parameters `p` (the calls are listed per input; the parts of a subframe that
are not parameters, such as the time of week, may differ between repetitions). -/
theorem c133_device {md : Mode} {ss : List Ubx.Sched} {evs : List Ev} {d : Dev} {es : List Eff} (h : Life md ss evs d es)
    (hb : ∀ i s, Ev.configBase i s ∉ evs) (s : Byte) (p : GpsParams) (hp : p.Ok) (f1 f2 f3 f4 f5 : Nat → Nat → Bool)
    (ra xa cha va ea rb xb chb vb eb rc xc chc vc ec rd xd chd vd ed re xe che ve ee : Byte) (i0 i1 i2 i3 i4 : List NavIn)
    (u1 : ∀ i ∈ i1, QuietIn s i) (u2 : ∀ i ∈ i2, QuietIn s i) (u3 : ∀ i ∈ i3, QuietIn s i) (u4 : ∀ i ∈ i4, QuietIn s i)
    (hin : navLife ss evs = i0 ++ .sfrbx (gpsPayload s ra xa cha va ea (subframe f1 p 1)) ::
      (i1 ++ .sfrbx (gpsPayload s rb xb chb vb eb (subframe f2 p 2)) ::
      (i2 ++ .sfrbx (gpsPayload s rc xc chc vc ec (subframe f3 p 3)) ::
      (i3 ++ .sfrbx (gpsPayload s rd xd chd vd ed (subframe f4 p 1)) ::
      (i4 ++ [.sfrbx (gpsPayload s re xe che ve ee (subframe f5 p 2))]))))) :
    ∃ (e : Nav.Eph) (before after : List (List NavCall)) (K : Nat), es.filterMap Eff.nav? = before.flatten ++ reportTo K e ++ after.flatten ∧ ReportsGps e s p ∧
      before.length + 1 + after.length = (navLife ss evs).length ∧
      ((before.length = i0.length + i1.length + i2.length + 2 ∧ K = ephRegs (i0 ++ i1 ++ i2)) ∨
       (before.length = i0.length + i1.length + i2.length + i3.length + 3 ∧ K = ephRegs (i0 ++ i1 ++ i2 ++ i3)) ∨
       (before.length = i0.length + i1.length + i2.length + i3.length + i4.length + 4 ∧
          K = ephRegs (i0 ++ i1 ++ i2 ++ i3 ++ i4))) :=
  c133_told (c112 h hb) s p hp f1 f2 f3 f4 f5 ra xa cha va ea rb xb chb vb eb rc xc chc vc ec rd xd chd vd ed re xe che ve ee i0 i1 i2 i3 i4
    u1 u2 u3 u4 hin


end

/-! ### A concrete case -/

/-- The example device, with a callback; stale subframes 2 and 3 of satellite 7, then the five, with a subframe of another
satellite and a message of satellite 7 that has no subframe number in between. -/
def exNoId : List Byte := ubxFrame 0x02 0x13 (gpsPayload 7 0 0 3 2 0 (List.replicate 40 0))

/-- The events. -/
def exLive : List Ev :=
  [.ephCb, .rx (exSub 7 2 ++ exSub 7 3), .rx (exSub 7 1 ++ exSub 7 2), .ephCb, .rx (exSub 8 2 ++ exNoId ++ exSub 7 3 ++ exSub 7 1),
   .rx (exSub 7 2)]

def exW (k : Nat) : List Byte := subframe (fun _ _ => true) Nav.exParams k

theorem exLive_in : navLife [exSched] exLive =
    [.addEph, .sfrbx (gpsPayload 7 0 0 3 2 0 (exW 2)), .sfrbx (gpsPayload 7 0 0 3 2 0 (exW 3))] ++
      .sfrbx (gpsPayload 7 0 0 3 2 0 (exW 1)) :: ([] ++ .sfrbx (gpsPayload 7 0 0 3 2 0 (exW 2)) ::
      ([.addEph, .sfrbx (gpsPayload 8 0 0 3 2 0 (exW 2)), .sfrbx (gpsPayload 7 0 0 3 2 0 (List.replicate 40 0))] ++ .sfrbx (gpsPayload 7 0 0 3 2 0 (exW 3)) ::
      ([] ++ .sfrbx (gpsPayload 7 0 0 3 2 0 (exW 1)) :: ([] ++ [.sfrbx (gpsPayload 7 0 0 3 2 0 (exW 2))])))) := by
  decide +kernel

/-- All hypotheses of `c133_device` are met by `exLive`, whose run exists; there it is the fourth message that reports. -/
example : ∃ d es, Life .strict [exSched] exLive d es ∧ (∀ i s, Ev.configBase i s ∉ exLive) ∧
    ∃ (e : Nav.Eph) (before after : List (List NavCall)) (K : Nat), es.filterMap Eff.nav? = before.flatten ++ reportTo K e ++ after.flatten ∧ ReportsGps e 7 Nav.exParams := by
  have hs : (exRun exLive).isSome = true := by decide +kernel
  obtain ⟨⟨d, es⟩, hx⟩ := Option.isSome_iff_exists.mp hs
  have hl := exRun_life hx
  have hb : ∀ i s, Ev.configBase i s ∉ exLive := by intro i s; simp [exLive]
  refine ⟨d, es, hl, hb, ?_⟩
  obtain ⟨e, before, after, K, h1, h2, -⟩ := c133_device hl hb 7 Nav.exParams Nav.exParams_ok _ _ _ _ _ _ _ _ _ _ _ _ _ _ _ _ _ _ _ _ _ _ _
    _ _ _ _ _ _ _ [.addEph, .sfrbx (gpsPayload 7 0 0 3 2 0 (exW 2)), .sfrbx (gpsPayload 7 0 0 3 2 0 (exW 3))] []
    [.addEph, .sfrbx (gpsPayload 8 0 0 3 2 0 (exW 2)), .sfrbx (gpsPayload 7 0 0 3 2 0 (List.replicate 40 0))] [] [] (by simp) (by
      intro i hi
      rcases List.mem_cons.1 hi with rfl | hi
      · exact .inl trivial
      rcases List.mem_cons.1 hi with rfl | hi
      · exact .inl ⟨by decide +kernel, .inr (by decide +kernel)⟩
      · rw [List.mem_singleton.1 hi]; exact .inr ⟨_, _, _, _, _, _, rfl, by decide, by decide +kernel⟩) (by simp) (by simp) exLive_in
  exact ⟨e, before, after, K, h1, h2⟩

end Dev
end Ublox
