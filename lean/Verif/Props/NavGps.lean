import Verif.Lemmas.NavStrict
import Verif.Props.NavData

/-!
# GPS ephemerides and independence of satellites: C48, C49, C50, C51, C60

Operations and messages: `Verif/Model/Nav.lean`; what a subframe says: `Verif/Spec/NavGps.lean`.
-/

namespace Ublox.Nav

open Data

/-! ## Concrete messages -/

/-- A GPS message of satellite `s`. -/
def gps (s : Byte) (d : List Byte) : NavOp := .sfrbx (List.replicate 30 0) ⟨0, s, 0, d⟩
/-- A Galileo message of satellite `s`. -/
def gal (s : Byte) (d : List Byte) : NavOp := .sfrbx (List.replicate 30 0) ⟨2, s, 0, d⟩

/-- The callbacks of a run, or the undefined behaviour it ran into. -/
def callsAfter (md : Mode) (ops : List NavOp) : Except UB (List (List NavCall)) :=
  (Nav.init.run md ops).map (·.2)

/-- A number shown in the ephemerides of the callbacks of a run. -/
def shown (f : Eph → Int) (md : Mode) (ops : List NavOp) : Option (List Int) :=
  match callsAfter md ops with
  | .ok cs => some (cs.flatten.filterMap fun | .eph _ e => some (f e) | .geph _ _ => none)
  | .error _ => none

theorem run_of_calls {md : Mode} {ops : List NavOp} {cs : List (List NavCall)} (h : callsAfter md ops = .ok cs) :
    ∃ n, Nav.init.run md ops = .ok (n, cs) := by
  unfold callsAfter at h
  cases hr : Nav.init.run md ops with
  | error u => rw [hr] at h; cases h
  | ok r =>
    rw [hr] at h
    injection h with h
    exact ⟨r.1, by rw [← h]⟩

/-! ## C48, C49 -/

/-- C49 (partial): every ephemeris callback made on a GPS message happens on subframes 1, 2, 3 of that satellite, all
received since its previous callback, with equal issues of data in subframes 1 and 2; all callbacks registered get
the same ephemeris, once, in order of registration.  And (C48, the values) it is exactly the ephemeris in those
subframes, provided no Galileo satellite with the same number was ever received.
Missing from C49: that subframe 3 has the same issue of data (false, see below). -/
theorem c49_consistent_partial (md : Mode) (ops : List NavOp) (n n' : Nav) (cs : List (List NavCall)) (junk : List Byte)
    (m : Sfrbx) (c : List NavCall) (hwf : ∀ op ∈ ops, op.WF) (hm : (NavOp.sfrbx junk m).WF)
    (hrun : Nav.init.run md ops = .ok (n, cs)) (hgps : m.gnssId = 0)
    (hstep : n.step md (.sfrbx junk m) = .ok (n', c)) (hc : c ≠ []) :
    ∃ e d1 d2 d3, c = reportTo (ephCbCount ops) e ∧
      latest 1 (pending m.svId ops cs ++ [m.dwrd]) = some d1 ∧
      latest 2 (pending m.svId ops cs ++ [m.dwrd]) = some d2 ∧
      latest 3 (pending m.svId ops cs ++ [m.dwrd]) = some d3 ∧
      iode1Of d1 = iode2Of d2 ∧
      ((∀ op ∈ ops, ¬ IsGalileo m.svId op) → CarriesGps e m.svId d1 d2 d3) := by
  have hcoll := coll_run md m.svId Nav.init rfl ops n cs hwf hrun
  obtain ⟨r, hr, hcall, nx⟩ := step_eph (by rw [hgps]; decide) hstep
  have hcb : n.ephCbs = ephCbCount ops := by
    rw [(run_ephCbs hrun).1]; show 0 + _ = _; omega
  obtain ⟨-, hcase⟩ := gps_ephStep hgps hm.2 hm.1 hcoll hr
  rcases hcase with ⟨a, -, -⟩ | ⟨e, a, -, -, d1, d2, d3, b1, b2, b3, b4, b5⟩
  · rw [hcall, a] at hc; exact absurd rfl hc
  · exact ⟨e, d1, d2, d3, by rw [hcall, a, ephCalls_one, hcb], b1, b2, b3, b4, b5⟩

/-- C48: when subframes 1, 2, 3 of one data set arrive for a satellite with nothing pending (subframe 3 not first), in
any of the four orders and with any traffic of other satellites in between, the first two make no callback and the
third calls every registered callback exactly once with exactly the ephemeris encoded in the subframes.
(For subframe 3 first the claim is false, see `c48_order_refuted`.) -/
theorem c48_reported_partial (md : Mode) (s : Byte) (ops mid1 mid2 : List NavOp) (ja jb jc : List Byte) (ma mb mc : Sfrbx)
    (n : Nav) (cs0 cs : List (List NavCall)) (n0 : Nav)
    (hwf : ∀ op ∈ ops ++ [.sfrbx ja ma, .sfrbx jb mb, .sfrbx jc mc], op.WF)
    (h0 : Nav.init.run md ops = .ok (n0, cs0)) (hp : NothingPending s ops cs0)
    (ga : ma.gnssId = 0 ∧ ma.svId = s) (gb : mb.gnssId = 0 ∧ mb.svId = s) (gc : mc.gnssId = 0 ∧ mc.svId = s)
    (u1 : ∀ op ∈ mid1, Unrelated s op) (u2 : ∀ op ∈ mid2, Unrelated s op)
    (hid : [gpsId ma.dwrd, gpsId mb.dwrd, gpsId mc.dwrd].Perm [1, 2, 3]) (h3 : gpsId ma.dwrd ≠ 3)
    (hab : issueOf ma.dwrd = issueOf mb.dwrd) (hac : issueOf ma.dwrd = issueOf mc.dwrd)
    (h : Nav.init.run md (ops ++ .sfrbx ja ma :: (mid1 ++ .sfrbx jb mb :: (mid2 ++ [.sfrbx jc mc]))) = .ok (n, cs)) :
    ∃ e d1 d2 d3 c1 c2, c1.length = mid1.length ∧ c2.length = mid2.length ∧
      cs = cs0 ++ [] :: (c1 ++ [] :: (c2 ++ [reportTo (ephCbCount (ops ++ mid1 ++ mid2)) e])) ∧
      latest 1 [ma.dwrd, mb.dwrd, mc.dwrd] = some d1 ∧ latest 2 [ma.dwrd, mb.dwrd, mc.dwrd] = some d2 ∧
      latest 3 [ma.dwrd, mb.dwrd, mc.dwrd] = some d3 ∧ CarriesGps e s d1 d2 d3 := by
  have hcb := (run_ephCbs h).1
  rw [run_append] at h
  obtain ⟨n1, c0, c', h1, h2, rfl⟩ := h
  rw [h0] at h1
  injection h1 with h1
  injection h1 with h1 h1'
  subst h1 h1'
  have hclear := nothingPending_cleared (fun op ho => hwf op (by simp [ho])) h0 hp
  obtain ⟨e, d1, d2, d3, c1, c2, q0, q1, q2, q3, q4, q5, q6⟩ := three_run hclear ga gb gc (hwf _ (by simp)) (hwf _ (by simp))
    (hwf _ (by simp)) u1 u2 hid h3 hab hac h2
  refine ⟨e, d1, d2, d3, c1, c2, q1, q2, ?_, q3, q4, q5, q6⟩
  rw [q0, hcb]
  have : Nav.init.ephCbs + ephCbCount (ops ++ .sfrbx ja ma :: (mid1 ++ .sfrbx jb mb :: (mid2 ++ [.sfrbx jc mc]))) =
      ephCbCount (ops ++ mid1 ++ mid2) := by
    show 0 + _ = _
    simp [ephCbCount, List.filter_append]
  rw [this]

/-- A concrete case of C48/C49: two callbacks, subframes 1, 2, 3 with a subframe of another satellite in between. -/
example : (callsAfter .strict [.addEphCb, .addEphCb, gps 7 gps1, gps 8 gps2, gps 7 gps2, gps 7 gps3]).map
    (fun cs => (cs.map List.length)) = .ok [0, 0, 0, 0, 0, 2] ∧
    shown (·.m0.raw) .strict [.addEphCb, gps 7 gps1, gps 8 gps2, gps 7 gps2, gps 7 gps3] = some [-123456789] := by
  decide +kernel

/-- The hypotheses of `c48_reported_partial` are met by it. -/
example : [gpsId gps1, gpsId gps2, gpsId gps3].Perm [1, 2, 3] ∧ gpsId gps1 ≠ 3 ∧ issueOf gps1 = issueOf gps2 ∧
    issueOf gps1 = issueOf gps3 ∧ (∀ op ∈ [NavOp.addEphCb, gps 8 gps2], Unrelated 7 op) ∧
    NothingPending 7 [NavOp.addEphCb, gps 8 gps2] [[], []] := by
  have h : ∀ op ∈ [NavOp.addEphCb, gps 8 gps2], Unrelated 7 op := by
    intro op h
    simp only [List.mem_cons, List.not_mem_nil, or_false] at h
    rcases h with rfl | rfl
    · trivial
    · exact .inr (by decide)
  exact ⟨by decide +kernel, by decide +kernel, by decide +kernel, by decide +kernel, h, .inl h⟩

/-- C49 is false as stated: the issue of data of subframe 3 is never checked.  Subframe 3 of issue 4 completes an
ephemeris of issue 5. -/
theorem c49_issue3_refuted :
    issueOf gps1 = 5 ∧ issueOf gps2 = 5 ∧ issueOf gps3old = 4 ∧
    (callsAfter .strict [.addEphCb, gps 7 gps1, gps 7 gps2, gps 7 gps3old]).map (·.map List.length) =
      .ok [0, 0, 0, 1] := by
  decide +kernel

/-- C48 is false if subframe 3 arrives first: the whole data set is dropped (the next cycle's subframe 3 is needed). -/
theorem c48_order_refuted :
    issueOf gps1 = issueOf gps2 ∧ issueOf gps1 = issueOf gps3 ∧
    (callsAfter .strict [.addEphCb, gps 7 gps3, gps 7 gps1, gps 7 gps2]).map (·.map List.length) = .ok [0, 0, 0, 0] ∧
    (callsAfter .strict [.addEphCb, gps 7 gps3, gps 7 gps1, gps 7 gps2, gps 7 gps3]).map (·.map List.length) =
      .ok [0, 0, 0, 0, 1] := by
  decide +kernel

/-! ## C50 -/

/-- C50: the effect of a GPS message depends only on the 24 data bits of its ten words: not on parity, not on the top
two bits, not on the uninitialised scratch buffer. -/
theorem c50_data_bits_only (md : Mode) (n : Nav) (junk junk' : List Byte) (m : Sfrbx) (d' : List Byte)
    (hj : junk.length = 30) (hj' : junk'.length = 30) (hd : m.dwrd.length = 40) (hd' : d'.length = 40)
    (hgps : m.gnssId = 0)
    (hdata : ∀ w b, 1 ≤ w → w ≤ 10 → 1 ≤ b → b ≤ 24 → gpsBit m.dwrd w b = gpsBit d' w b) :
    convertUBX md junk n m = convertUBX md junk' n { m with dwrd := d' } := by
  have hg : m.gnssId ≠ GLONASS := by rw [hgps]; decide
  unfold convertUBX convertEph
  dsimp only
  rw [if_neg hg, if_neg hg]
  split
  · rfl
  · rw [if_pos hgps, if_pos hgps, decodeGPS_data hj hj' hd hd' hdata]

/-- A concrete case: other parity bits, and a scratch buffer full of ones. -/
example : (∀ w b, 1 ≤ w → w ≤ 10 → 1 ≤ b → b ≤ 24 → gpsBit gps1 w b = gpsBit gps1par w b) ∧ gps1 ≠ gps1par ∧
    gps1.length = 40 ∧ gps1par.length = 40 := by
  refine ⟨?_, by decide +kernel, by decide, by decide⟩
  have : ∀ w : Fin 11, ∀ b : Fin 25, 1 ≤ w.val → 1 ≤ b.val → gpsBit gps1 w b = gpsBit gps1par w b := by decide +kernel
  intro w b hw hw' hb hb'
  exact this ⟨w, by omega⟩ ⟨b, by omega⟩ hw hb

/-! ## C51 -/

/-- C51 (partial): what is stored for a GPS/Galileo satellite number and every callback made for it is the same if all
messages of other satellite numbers and of GLONASS, and all calls of `setGPSTime`, are left out.
Missing: GPS and Galileo satellites with the same number do disturb each other (`c51_shared_refuted`). -/
theorem c51_isolated_partial (md : Mode) (s : Byte) (ops : List NavOp) (n : Nav) (cs : List (List NavCall))
    (h : Nav.init.run md ops = .ok (n, cs)) :
    ∃ n2, Nav.init.run md (ops.filter (Concerns s)) = .ok (n2, callsOf (Concerns s) ops cs) ∧
      n2.entry s = n.entry s := by
  obtain ⟨n2, h1, h2⟩ := sim_run (s := s) (n2 := Nav.init) ⟨rfl, rfl, rfl⟩ h
  exact ⟨n2, h1, h2.entry⟩

/-- C51 for GLONASS: what is stored for a GLONASS satellite and every callback made for it (and for GPS and Galileo) is
the same if all messages of other GLONASS satellites are left out. -/
theorem c51_glonass_isolated (md : Mode) (s : Byte) (ops : List NavOp) (n : Nav) (cs : List (List NavCall))
    (h : Nav.init.run md ops = .ok (n, cs)) :
    ∃ n2, Nav.init.run md (ops.filter (ConcernsGlo s)) = .ok (n2, callsOf (ConcernsGlo s) ops cs) ∧
      n2.gentry s = n.gentry s ∧ n2.gpsTime = n.gpsTime ∧ ∀ s', n2.entry s' = n.entry s' := by
  obtain ⟨n2, h1, h2⟩ := simG_run (s := s) (n2 := Nav.init) ⟨rfl, rfl⟩ h
  obtain ⟨-, -, h3, h4, -⟩ := simG_fields h2
  exact ⟨n2, h1, h2.entry, h4, fun s' => by unfold Nav.entry; rw [h3]⟩

/-- A concrete case: interleaved subframes of satellites 7 and 8 are reported as if each were alone. -/
example :
    shown (·.sat.toNat) .strict [.addEphCb, gps 7 gps1, gps 8 gps1, gps 7 gps2, gps 8 gps2, gps 8 gps3, gps 7 gps3] =
      some [8, 7] ∧
    shown (·.sat.toNat) .strict ([.addEphCb, gps 7 gps1, gps 8 gps1, gps 7 gps2, gps 8 gps2, gps 8 gps3, gps 7 gps3].filter
      (Concerns 7)) = some [7] := by
  decide +kernel

/-- C51 is false as stated: Galileo satellite 7 changes the mean anomaly reported for GPS satellite 7, even though the
Galileo data set is rejected (its word 0 contains no time). -/
theorem c51_shared_refuted :
    shown (·.m0.raw) .strict [.addEphCb, gps 7 gps1, gps 7 gps2, gps 7 gps3] = some [-123456789] ∧
    shown (·.deltaN.raw) .strict ([.addEphCb, gps 7 gps1, gps 7 gps2] ++
      [gal2, gal3, gal4, gal5, gal6, gal0notime, gal1].map (gal 7) ++ [gps 7 gps3]) = some [1111] ∧
    shown (·.deltaN.raw) .strict [.addEphCb, gps 7 gps1, gps 7 gps2, gps 7 gps3] = some [4321] := by
  decide +kernel

/-! ## C60 -/

/-- C60, memory: whatever state the parser is in, a GPS message never accesses memory outside its buffers; the only
thing that can go wrong is an integer overflow in converting the time. -/
theorem c60_memory_safe (md : Mode) (n : Nav) (junk : List Byte) (m : Sfrbx) (u : UB) (hm : (NavOp.sfrbx junk m).WF)
    (hgps : m.gnssId = 0) (h : n.step md (.sfrbx junk m) = .error u) : u = .overflow :=
  (gps_step_err hgps hm h).1

/-- C60: after any history without undefined behaviour, a GPS message causes none (C++ semantics). -/
theorem c60_gps_defined (ops : List NavOp) (n : Nav) (cs : List (List NavCall)) (junk : List Byte) (m : Sfrbx)
    (hwf : ∀ op ∈ ops, op.WF) (hm : (NavOp.sfrbx junk m).WF) (hrun : Nav.init.run .strict ops = .ok (n, cs))
    (hgps : m.gnssId = 0) : ∃ r, n.step .strict (.sfrbx junk m) = .ok r := by
  have hd := dated_run hwf (fun s => by rw [init_cur]; exact dated_fresh) hrun m.svId
  cases h : n.step .strict (.sfrbx junk m) with
  | ok r => exact ⟨r, rfl⟩
  | error u =>
    obtain ⟨-, h2⟩ := gps_step_err hgps hm h
    obtain ⟨o, ho⟩ := dated_finish (t := n.gpsTime) (dated_upd (d := m.dwrd) (dated_ident hd m.svId 0))
    exact absurd (ho.symm.trans h2) (by simp)

/-- C60 in builds where flowing off the end of a function is harmless: a GPS message causes no undefined behaviour if no
Galileo satellite with the same number has been received. -/
theorem c60_gps_defined_lenient (md : Mode) (ops : List NavOp) (n : Nav) (cs : List (List NavCall)) (junk : List Byte)
    (m : Sfrbx) (hwf : ∀ op ∈ ops, op.WF) (hm : (NavOp.sfrbx junk m).WF) (hrun : Nav.init.run md ops = .ok (n, cs))
    (hgps : m.gnssId = 0) (hgal : ∀ op ∈ ops, ¬ IsGalileo m.svId op) : ∃ r, n.step md (.sfrbx junk m) = .ok r :=
  gps_step_total hgps hm ((coll_run md m.svId Nav.init rfl ops n cs hwf hrun).weaken (fun _ => hgal))

/-- Receiving only GPS (and registering callbacks, setting the time) is free of undefined behaviour for ever. -/
theorem c60_gps_only_partial (ops : List NavOp) (hwf : ∀ op ∈ ops, op.WF)
    (hgps : ∀ junk m, NavOp.sfrbx junk m ∈ ops → m.gnssId = 0) : ∃ r, Nav.init.run .strict ops = .ok r := by
  induction ops using List.reverseRec with
  | nil => exact ⟨(Nav.init, []), rfl⟩
  | append_singleton ops op ih =>
    obtain ⟨⟨n, cs⟩, h⟩ := ih (fun o ho => hwf o (by simp [ho])) (fun j m hm => hgps j m (by simp [hm]))
    have : ∃ r, n.step .strict op = .ok r := by
      cases op with
      | setTime t => exact ⟨_, rfl⟩
      | addEphCb => exact ⟨_, rfl⟩
      | addGephCb => exact ⟨_, rfl⟩
      | sfrbx junk m =>
        exact c60_gps_defined ops n cs junk m (fun o ho => hwf o (by simp [ho])) (hwf _ (by simp)) h
          (hgps junk m (by simp))
    obtain ⟨⟨n', c⟩, hs⟩ := this
    exact ⟨(n', cs ++ [c]), run_append.mpr ⟨n, cs, [c], h, run_cons.mpr ⟨n', c, [], hs, run_nil.mpr ⟨rfl, rfl⟩, rfl⟩, rfl⟩⟩

/-- A concrete case, with the largest times. -/
example : (callsAfter .strict [.addEphCb, gps 7 gps1late, gps 7 gps2late, gps 7 gps3, gps 7 gpsBad]).map
    (·.map List.length) = .ok [0, 0, 0, 1, 0] := by decide +kernel

/-- C60 is false in such builds when a Galileo satellite has the same number: the week number of Galileo satellite 7
makes the conversion of the time of GPS satellite 7 overflow. -/
theorem c60_mixed_refuted :
    callsAfter .lenient ([gps 7 gps1, gps 7 gps3] ++ [gal2, gal3, gal4late, gal5, gal6, gal0late, gal1late].map (gal 7) ++
      [gps 7 gps2late]) = .error .overflow ∧
    (callsAfter .lenient ([gps 7 gps1, gps 7 gps3] ++
      [gal2, gal3, gal4late, gal5, gal6, gal0late, gal1late].map (gal 7))).map List.length = .ok 9 := by
  decide +kernel

end Ublox.Nav
