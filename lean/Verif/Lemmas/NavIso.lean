import Verif.Lemmas.NavGpsThree

/-! Helper lemmas: totality of GPS decoding, irrelevance of parity and scratch buffer, independence of satellites. -/

namespace Ublox.Nav

attribute [local irreducible] gpsU gpsS gpsU32 gpsS32

theorem fromGPS_err {w t : Int} {u : UB} (h : UTCTime.fromGPS w t = .error u) : u = .overflow := by
  unfold UTCTime.fromGPS UTCTime.int32 at h
  split at h
  · rw [ok_bind] at h
    split at h
    · rw [ok_bind] at h; cases h
    · injection h with h; exact h.symm
  · injection h with h; exact h.symm

theorem gpsFinish_err {t : UTCTime} {e : Eph} {u : UB} (h : gpsFinish t e = .error u) :
    u = .overflow ∧ Ready e := by
  unfold gpsFinish at h
  by_cases hr : Ready e
  · rw [if_pos ((ready_iff e).mpr hr)] at h
    refine ⟨?_, hr⟩
    cases h1 : UTCTime.fromGPS e.week (((e.toes * 1000 : Nat) : Int).bmod (2 ^ 32)) with
    | error v =>
      rw [h1] at h
      injection h with h
      rw [← h]; exact fromGPS_err h1
    | ok toe =>
      rw [h1, ok_bind] at h
      cases h2 : UTCTime.fromGPS e.week (((e.tocs * 1000 : Nat) : Int).bmod (2 ^ 32)) with
      | error v =>
        rw [h2] at h
        injection h with h
        rw [← h]; exact fromGPS_err h2
      | ok toc => rw [h2, ok_bind] at h; cases h
  · rw [if_neg (fun hc => hr ((ready_iff e).mp hc))] at h
    cases h

theorem gpsStep_err {t : UTCTime} {d : List Byte} {e : Eph} {u : UB} (h : gpsStep t d e = .error u) :
    u = .overflow ∧ gpsFinish t (gpsUpd d { e with gnssID := 0 }) = .error u := by
  rw [gpsStep_eq] at h
  split at h
  · exact ⟨(gpsFinish_err h).1, h⟩
  · cases h

/-- A complete, cleanly collected entry can always be dated. -/
theorem coll_finish {P : List (List Byte)} {e : Eph} {t : UTCTime} {u : UB} (hc : Coll True P e)
    (h : gpsFinish t e = .error u) : False := by
  have hr := (gpsFinish_err h).2
  unfold gpsFinish at h
  rw [if_pos ((ready_iff e).mpr hr)] at h
  obtain ⟨g1, g2, -⟩ := hr
  obtain ⟨d1, -, -, k1⟩ := hc.one g1
  obtain ⟨d2, -, -, k2⟩ := hc.two g2
  have k1 := k1 trivial
  have k2 := k2 trivial
  have l1 := gpsU_lt d1 3 1 10
  have l2 := gpsU_lt d2 10 1 16
  have l3 := gpsU_lt d1 8 9 16
  rw [fromGPS_sec e.week e.toes (by rw [k1.week]; omega) (by rw [k2.toes]; omega), ok_bind,
    fromGPS_sec e.week e.tocs (by rw [k1.week]; omega) (by rw [k1.tocs]; omega), ok_bind] at h
  cases h

/-- A GPS message can only fail by overflow in dating the ephemeris. -/
theorem gps_step_err {md : Mode} {junk : List Byte} {n : Nav} {m : Sfrbx} {u : UB} (hm : m.gnssId = 0)
    (hw : (NavOp.sfrbx junk m).WF) (h : n.step md (.sfrbx junk m) = .error u) :
    u = .overflow ∧ gpsFinish n.gpsTime (gpsUpd m.dwrd { n.cur m.svId with sat := m.svId, gnssID := 0 }) = .error u := by
  have hg : m.gnssId ≠ GLONASS := by rw [hm]; decide
  obtain ⟨s1, s2⟩ := convertEph_spec md junk n m
  have key : ephStep md junk n.gpsTime (n.gal m.svId.toNat) m (n.cur m.svId) = .error u := by
    cases hr : ephStep md junk n.gpsTime (n.gal m.svId.toNat) m (n.cur m.svId) with
    | error v =>
      have := s2 v hr
      unfold Nav.step convertUBX at h
      dsimp only at h
      rw [if_neg hg, this] at h
      injection h with h; rw [h]
    | ok r =>
      obtain ⟨n', h1, -⟩ := s1 r hr
      unfold Nav.step convertUBX at h
      dsimp only at h
      rw [if_neg hg, h1, ok_bind] at h
      cases h
  unfold ephStep at key
  dsimp only at key
  rw [if_pos hm, decodeGPS_eq hw.2 hw.1] at key
  cases hs : gpsStep n.gpsTime m.dwrd { n.cur m.svId with sat := m.svId, gnssID := m.gnssId } with
  | error v =>
    rw [hs] at key
    injection key with key
    subst key
    exact gpsStep_err hs
  | ok o => rw [hs, ok_bind] at key; cases key

theorem gps_step_total {md : Mode} {junk : List Byte} {n : Nav} {m : Sfrbx} (hm : m.gnssId = 0)
    (hw : (NavOp.sfrbx junk m).WF) {P : List (List Byte)} (hc : Coll True P (n.cur m.svId)) :
    ∃ r, n.step md (.sfrbx junk m) = .ok r := by
  cases h : n.step md (.sfrbx junk m) with
  | ok r => exact ⟨r, rfl⟩
  | error u =>
    obtain ⟨-, h2⟩ := gps_step_err hm hw h
    exact absurd h2 (fun h2 => coll_finish (Coll.addGps (hc.ident m.svId 0)) h2)

/-! ## Parity and scratch buffer -/

theorem holds_unique {sf sf' d d' : List Byte} (h : Holds sf d) (h' : Holds sf' d')
    (hd : ∀ w b, 1 ≤ w → w ≤ 10 → 1 ≤ b → b ≤ 24 → gpsBit d w b = gpsBit d' w b) : sf = sf' := by
  apply ext_bitAt (by rw [h.1, h'.1])
  intro i hi
  rw [h.1] at hi
  rw [h.2 i (by omega), h'.2 i (by omega)]
  exact hd _ _ (by omega) (by omega) (by omega) (by omega)

theorem decodeGPS_data {junk junk' d d' : List Byte} (hj : junk.length = 30) (hj' : junk'.length = 30)
    (hl : d.length = 40) (hl' : d'.length = 40)
    (hd : ∀ w b, 1 ≤ w → w ≤ 10 → 1 ≤ b → b ≤ 24 → gpsBit d w b = gpsBit d' w b) (t : UTCTime) (e : Eph) :
    decodeGPS junk t d e = decodeGPS junk' t d' e := by
  obtain ⟨sf, h1, h2, h3⟩ := strip_full hl hj
  obtain ⟨sf', h1', h2', h3'⟩ := strip_full hl' hj'
  have := holds_unique ⟨h2, h3⟩ ⟨h2', h3'⟩ hd
  subst this
  unfold decodeGPS
  rw [h1, h1']

/-! ## Independence -/

/-- The two parsers agree about satellite `s`. -/
structure Sim (s : Byte) (n n2 : Nav) : Prop where
  entry : n2.entry s = n.entry s
  cbs : n2.ephCbs = n.ephCbs
  row : n2.gal s.toNat = n.gal s.toNat

theorem gpsFinish_time {t : UTCTime} {e : Eph} {o : GpsOut} (t2 : UTCTime) (h : gpsFinish t e = .ok o) :
    ∃ t', gpsFinish t2 e = .ok { o with gpsTime := t' } := by
  unfold gpsFinish at *
  split at h
  · rename_i hc
    rw [if_pos hc]
    rw [h]
    exact ⟨o.gpsTime, rfl⟩
  · rename_i hc
    rw [if_neg hc]
    injection h with h; subst h
    exact ⟨t2, rfl⟩

theorem decodeGPS_time {junk d : List Byte} {t : UTCTime} {e : Eph} {o : GpsOut} (t2 : UTCTime)
    (h : decodeGPS junk t d e = .ok o) : ∃ t', decodeGPS junk t2 d e = .ok { o with gpsTime := t' } := by
  unfold decodeGPS at *
  dsimp only at *
  cases hs : strip d 10 0 junk with
  | error u => rw [hs] at h; cases h
  | ok sf =>
    rw [hs, ok_bind] at h
    rw [ok_bind]
    cases hb : rd sf 5 with
    | error u => rw [hb] at h; cases h
    | ok b =>
      rw [hb, ok_bind] at h
      rw [ok_bind]
      split at h
      · rename_i hc
        rw [if_pos hc]
        injection h with h; subst h
        exact ⟨t2, rfl⟩
      · rename_i hc
        rw [if_neg hc]
        split at h
        · rename_i hid
          cases h1 : sub1 sf { e with gnssID := 0 } with
          | error u => rw [h1] at h; cases h
          | ok e1 => rw [h1, ok_bind] at h; rw [ok_bind]; exact gpsFinish_time t2 h
        · cases h1 : sub2 sf { e with gnssID := 0 } with
          | error u => rw [h1] at h; cases h
          | ok e1 => rw [h1, ok_bind] at h; rw [ok_bind]; exact gpsFinish_time t2 h
        · cases h1 : sub3 sf { e with gnssID := 0 } with
          | error u => rw [h1] at h; cases h
          | ok e1 => rw [h1, ok_bind] at h; rw [ok_bind]; exact gpsFinish_time t2 h
        · injection h with h; subst h
          exact ⟨t2, rfl⟩

theorem ephStep_time {md : Mode} {junk : List Byte} {t : UTCTime} {row : List Byte} {m : Sfrbx} {e : Eph} {r : EphOut}
    (t2 : UTCTime) (h : ephStep md junk t row m e = .ok r) :
    ∃ t', ephStep md junk t2 row m e = .ok { r with gpsTime := t' } := by
  unfold ephStep at *
  dsimp only at *
  split at h
  · rename_i hc
    rw [if_pos hc]
    rw [bind_ok] at h
    obtain ⟨o, h1, h⟩ := h
    injection h with h; subst h
    obtain ⟨t', h2⟩ := decodeGPS_time t2 h1
    rw [h2]
    exact ⟨t', rfl⟩
  · rename_i hc
    rw [if_neg hc]
    split at h
    · rename_i hc
      rw [if_pos hc]
      rw [bind_ok] at h
      obtain ⟨o, h1, h⟩ := h
      injection h with h; subst h
      rw [h1]
      exact ⟨t2, rfl⟩
    · rename_i hc
      rw [if_neg hc]
      rw [bind_ok] at h
      obtain ⟨o, h1, h⟩ := h
      injection h with h; subst h
      rw [h1]
      exact ⟨t2, rfl⟩

theorem sim_step {md : Mode} {s : Byte} {n n2 n' : Nav} {op : NavOp} {c : List NavCall} (hs : Sim s n n2)
    (h : n.step md op = .ok (n', c)) (hc : Concerns s op = true) :
    ∃ n2', n2.step md op = .ok (n2', c) ∧ Sim s n' n2' := by
  cases op with
  | setTime t => cases hc
  | addGephCb => cases hc
  | addEphCb =>
    injection h with h; injection h with ha hb; subst ha; subst hb
    exact ⟨_, rfl, ⟨hs.entry, by show n2.ephCbs + 1 = _; rw [hs.cbs], hs.row⟩⟩
  | sfrbx junk m =>
    simp only [Concerns, Bool.and_eq_true, bne_iff_ne, ne_eq, beq_iff_eq] at hc
    obtain ⟨hg, hsv⟩ := hc
    obtain ⟨r, h1, h2, nx⟩ := step_eph hg h
    obtain ⟨t', h3⟩ := ephStep_time n2.gpsTime h1
    have hcur : n2.cur m.svId = n.cur m.svId := by rw [hsv]; exact cur_of_entry hs.entry
    have hrow : n2.gal m.svId.toNat = n.gal m.svId.toNat := by rw [hsv]; exact hs.row
    rw [← hcur, ← hrow] at h3
    obtain ⟨n2', h4, nx2⟩ := (convertEph_spec md junk n2 m).1 _ h3
    refine ⟨n2', ?_, ⟨?_, ?_, ?_⟩⟩
    · unfold Nav.step convertUBX
      dsimp only
      rw [if_neg hg, h4, ok_bind, h2, hs.cbs]
    · rw [← hsv, nx.own, nx2.own]
    · rw [nx.cbs.1, nx2.cbs.1, hs.cbs]
    · rw [← hsv, nx.row, nx2.row]

theorem sim_skip {md : Mode} {s : Byte} {n n2 n' : Nav} {op : NavOp} {c : List NavCall} (hs : Sim s n n2)
    (h : n.step md op = .ok (n', c)) (hc : Concerns s op = false) : Sim s n' n2 := by
  cases op with
  | addEphCb => cases hc
  | setTime t => injection h with h; injection h with ha hb; subst ha; exact ⟨hs.entry, hs.cbs, hs.row⟩
  | addGephCb => injection h with h; injection h with ha hb; subst ha; exact ⟨hs.entry, hs.cbs, hs.row⟩
  | sfrbx junk m =>
    by_cases hg : m.gnssId = GLONASS
    · obtain ⟨r, -, -, nx⟩ := step_glo hg h
      exact ⟨by rw [hs.entry]; unfold Nav.entry; rw [nx.eph], by rw [nx.cbs.1, hs.cbs], by rw [nx.rows, hs.row]⟩
    · obtain ⟨r, -, -, nx⟩ := step_eph hg h
      have hne : s ≠ m.svId := by
        rintro rfl
        simp [Concerns, hg] at hc
      exact ⟨by rw [hs.entry, nx.other s hne], by rw [nx.cbs.1, hs.cbs],
        by rw [nx.rows s.toNat (fun h => hne (BitVec.eq_of_toNat_eq h)), hs.row]⟩

theorem callsOf_cons (p : NavOp → Bool) (op : NavOp) (ops : List NavOp) (c : List NavCall) (cs : List (List NavCall)) :
    callsOf p (op :: ops) (c :: cs) = if p op = true then c :: callsOf p ops cs else callsOf p ops cs := by
  unfold callsOf
  simp only [List.zip_cons_cons, List.filter_cons]
  split <;> rfl

theorem sim_run {md : Mode} {s : Byte} {ops : List NavOp} : ∀ {n n2 n' : Nav} {cs : List (List NavCall)},
    Sim s n n2 → n.run md ops = .ok (n', cs) →
    ∃ n2', n2.run md (ops.filter (Concerns s)) = .ok (n2', callsOf (Concerns s) ops cs) ∧ Sim s n' n2' := by
  induction ops with
  | nil =>
    intro n n2 n' cs hs h
    rw [run_nil] at h
    obtain ⟨rfl, rfl⟩ := h
    exact ⟨n2, run_nil.mpr ⟨rfl, rfl⟩, hs⟩
  | cons op ops ih =>
    intro n n2 n' cs hs h
    rw [run_cons] at h
    obtain ⟨n1, c, cs', h1, h2, rfl⟩ := h
    rw [callsOf_cons]
    cases hc : Concerns s op with
    | true =>
      obtain ⟨n3, h3, hs3⟩ := sim_step hs h1 hc
      obtain ⟨n4, h4, hs4⟩ := ih hs3 h2
      refine ⟨n4, ?_, hs4⟩
      rw [List.filter_cons_of_pos hc, if_pos rfl, run_cons]
      exact ⟨n3, c, _, h3, h4, rfl⟩
    | false =>
      obtain ⟨n4, h4, hs4⟩ := ih (sim_skip hs h1 hc) h2
      refine ⟨n4, ?_, hs4⟩
      rw [List.filter_cons_of_neg (by rw [hc]; decide), if_neg (by decide)]
      exact h4

/-! ## GLONASS independence -/

/-- The two parsers agree about everything but other GLONASS satellites. -/
structure SimG (s : Byte) (n n2 : Nav) : Prop where
  entry : n2.gentry s = n.gentry s
  rest : n2 = { n with geph := n2.geph }

theorem convertEph_geph (md : Mode) (junk : List Byte) (n : Nav) (m : Sfrbx) (g : List GEph) (o : NavOut)
    (h : convertEph md junk n m = .ok o) :
    convertEph md junk { n with geph := g } m = .ok { o with nav := { o.nav with geph := g } } ∧ o.nav.geph = n.geph := by
  unfold convertEph at *
  dsimp only at *
  split at h
  · cases h
  · split at h
    · rename_i hc
      rw [if_pos hc]
      rw [bind_ok] at h
      obtain ⟨a, h1, h⟩ := h
      injection h with h; subst h
      rw [h1]
      exact ⟨rfl, rfl⟩
    · rename_i hc
      rw [if_neg hc]
      split at h
      · rename_i hc
        rw [if_pos hc]
        rw [bind_ok] at h
        obtain ⟨a, h1, h⟩ := h
        injection h with h; subst h
        rw [h1]
        exact ⟨rfl, rfl⟩
      · rename_i hc
        rw [if_neg hc]
        rw [bind_ok] at h
        obtain ⟨a, h1, h⟩ := h
        injection h with h; subst h
        rw [h1]
        exact ⟨rfl, rfl⟩

theorem nav_ext {n n2 : Nav} (h1 : n2.ephCbs = n.ephCbs) (h2 : n2.gephCbs = n.gephCbs) (h3 : n2.eph = n.eph)
    (h4 : n2.gpsTime = n.gpsTime) (h5 : n2.gal = n.gal) : n2 = { n with geph := n2.geph } := by
  cases n; cases n2; simp_all

theorem simG_fields {s : Byte} {n n2 : Nav} (h : SimG s n n2) : n2.ephCbs = n.ephCbs ∧ n2.gephCbs = n.gephCbs ∧
    n2.eph = n.eph ∧ n2.gpsTime = n.gpsTime ∧ n2.gal = n.gal := by
  have := h.rest
  cases n; cases n2; simp_all

theorem simG_step {md : Mode} {s : Byte} {n n2 n' : Nav} {op : NavOp} {c : List NavCall} (hs : SimG s n n2)
    (h : n.step md op = .ok (n', c)) (hc : ConcernsGlo s op = true) :
    ∃ n2', n2.step md op = .ok (n2', c) ∧ SimG s n' n2' := by
  obtain ⟨f1, f2, f3, f4, f5⟩ := simG_fields hs
  cases op with
  | setTime t =>
    injection h with h; injection h with ha hb; subst ha; subst hb
    exact ⟨_, rfl, ⟨hs.entry, nav_ext f1 f2 f3 rfl f5⟩⟩
  | addGephCb =>
    injection h with h; injection h with ha hb; subst ha; subst hb
    exact ⟨_, rfl, ⟨hs.entry, nav_ext f1 (by show n2.gephCbs + 1 = _; rw [f2]) f3 f4 f5⟩⟩
  | addEphCb =>
    injection h with h; injection h with ha hb; subst ha; subst hb
    exact ⟨_, rfl, ⟨hs.entry, nav_ext (by show n2.ephCbs + 1 = _; rw [f1]) f2 f3 f4 f5⟩⟩
  | sfrbx junk m =>
    by_cases hg : m.gnssId = GLONASS
    · simp only [ConcernsGlo, Bool.or_eq_true, bne_iff_ne, ne_eq, beq_iff_eq] at hc
      have hsv : m.svId = s := by rcases hc with hc | hc; exact absurd hg hc; exact hc
      obtain ⟨r, h1, h2, nx⟩ := step_glo hg h
      have hcur : n2.gcur m.svId = n.gcur m.svId := by
        unfold Nav.gcur; rw [hsv, hs.entry]
      rw [← hcur, ← f4] at h1
      obtain ⟨n2', h4, nx2⟩ := (convertGlo_spec md n2 m).1 _ h1
      refine ⟨n2', ?_, ⟨?_, ?_⟩⟩
      · unfold Nav.step convertUBX
        dsimp only
        rw [if_pos hg, h4, ok_bind, h2, f2]
      · rw [← hsv, nx.own, nx2.own]
      · exact nav_ext (by rw [nx2.cbs.1, nx.cbs.1, f1]) (by rw [nx2.cbs.2, nx.cbs.2, f2]) (by rw [nx2.eph, nx.eph, f3])
          (by rw [nx2.time, nx.time, f4]) (by rw [nx2.rows, nx.rows, f5])
    · unfold Nav.step convertUBX at h
      dsimp only at h
      rw [if_neg hg, bind_ok] at h
      obtain ⟨o, h1, h⟩ := h
      injection h with h; injection h with ha hb; subst ha; subst hb
      obtain ⟨h2, h3⟩ := convertEph_geph md junk n m n2.geph o h1
      rw [← hs.rest] at h2
      refine ⟨{ o.nav with geph := n2.geph }, ?_, ⟨?_, rfl⟩⟩
      · unfold Nav.step convertUBX
        dsimp only
        rw [if_neg hg, h2, ok_bind]
      · have := hs.entry
        unfold Nav.gentry at *
        dsimp only
        rw [this, h3]

theorem simG_skip {md : Mode} {s : Byte} {n n2 n' : Nav} {op : NavOp} {c : List NavCall} (hs : SimG s n n2)
    (h : n.step md op = .ok (n', c)) (hc : ConcernsGlo s op = false) : SimG s n' n2 := by
  obtain ⟨f1, f2, f3, f4, f5⟩ := simG_fields hs
  cases op with
  | addEphCb => cases hc
  | setTime t => cases hc
  | addGephCb => cases hc
  | sfrbx junk m =>
    simp only [ConcernsGlo, Bool.or_eq_false_iff, bne_eq_false_iff_eq, beq_eq_false_iff_ne, ne_eq] at hc
    obtain ⟨r, -, -, nx⟩ := step_glo hc.1 h
    exact ⟨by rw [hs.entry, nx.other s (fun h => hc.2 h.symm)],
      nav_ext (by rw [nx.cbs.1, f1]) (by rw [nx.cbs.2, f2]) (by rw [nx.eph, f3]) (by rw [nx.time, f4])
        (by rw [nx.rows, f5])⟩

theorem simG_run {md : Mode} {s : Byte} {ops : List NavOp} : ∀ {n n2 n' : Nav} {cs : List (List NavCall)},
    SimG s n n2 → n.run md ops = .ok (n', cs) →
    ∃ n2', n2.run md (ops.filter (ConcernsGlo s)) = .ok (n2', callsOf (ConcernsGlo s) ops cs) ∧ SimG s n' n2' := by
  induction ops with
  | nil =>
    intro n n2 n' cs hs h
    rw [run_nil] at h
    obtain ⟨rfl, rfl⟩ := h
    exact ⟨n2, run_nil.mpr ⟨rfl, rfl⟩, hs⟩
  | cons op ops ih =>
    intro n n2 n' cs hs h
    rw [run_cons] at h
    obtain ⟨n1, c, cs', h1, h2, rfl⟩ := h
    rw [callsOf_cons]
    cases hc : ConcernsGlo s op with
    | true =>
      obtain ⟨n3, h3, hs3⟩ := simG_step hs h1 hc
      obtain ⟨n4, h4, hs4⟩ := ih hs3 h2
      refine ⟨n4, ?_, hs4⟩
      rw [List.filter_cons_of_pos hc, if_pos rfl, run_cons]
      exact ⟨n3, c, _, h3, h4, rfl⟩
    | false =>
      obtain ⟨n4, h4, hs4⟩ := ih (simG_skip hs h1 hc) h2
      refine ⟨n4, ?_, hs4⟩
      rw [List.filter_cons_of_neg (by rw [hc]; decide), if_neg (by decide)]
      exact h4

end Ublox.Nav
