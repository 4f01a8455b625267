import Verif.Lemmas.NavGalRun

/-! Helper lemmas: a rejected Galileo page has no effect, now or later; which messages can go wrong. -/

namespace Ublox.Nav

/-- A relation between parsers that every operation keeps, with the same callbacks or the same failure. -/
structure Bisim (md : Mode) (R : Nav → Nav → Prop) : Prop where
  ok : ∀ {n n2 n' op c}, R n n2 → n.step md op = .ok (n', c) → ∃ n2', n2.step md op = .ok (n2', c) ∧ R n' n2'
  err : ∀ {n n2 op u}, R n n2 → n.step md op = .error u → n2.step md op = .error u

theorem Bisim.run {md : Mode} {R : Nav → Nav → Prop} (hR : Bisim md R) {ops : List NavOp} : ∀ {n n2 : Nav}, R n n2 →
    (n2.run md ops).map (·.2) = (n.run md ops).map (·.2) := by
  induction ops with
  | nil => intro n n2 _; rfl
  | cons op ops ih =>
    intro n n2 hs
    unfold Nav.run
    cases h : n.step md op with
    | error u => rw [hR.err hs h]
    | ok r =>
      obtain ⟨n', c⟩ := r
      obtain ⟨n2', h2, hs'⟩ := hR.ok hs h
      rw [h2, ok_bind, ok_bind]
      have := ih hs'
      dsimp only
      cases ha : n'.run md ops with
      | error u =>
        rw [ha] at this
        cases hb : n2'.run md ops with
        | error v => rw [hb] at this; injection this with this; subst this; rfl
        | ok r => rw [hb] at this; cases this
      | ok r =>
        rw [ha] at this
        cases hb : n2'.run md ops with
        | error v => rw [hb] at this; cases this
        | ok r2 =>
          rw [hb] at this
          injection this with this
          have this : r2.2 = r.2 := this
          show Except.ok (c :: r2.2) = Except.ok (c :: r.2)
          rw [this]

theorem Bisim.skip {md : Mode} {R : Nav → Nav → Prop} (hR : Bisim md R) {ops : List NavOp} {op : NavOp} {n n' : Nav}
    (h : n.step md op = .ok (n', [])) (hs : R n n') :
    (n.run md (op :: ops)).map (·.2) = (n.run md ops).map (fun r => [] :: r.2) := by
  have := hR.run (ops := ops) hs
  conv => lhs; unfold Nav.run
  rw [h, ok_bind]
  dsimp only
  cases ha : n.run md ops with
  | error u =>
    rw [ha] at this
    cases hb : n'.run md ops with
    | error v => rw [hb] at this; injection this with this; subst this; rfl
    | ok r => rw [hb] at this; cases this
  | ok r =>
    rw [ha] at this
    cases hb : n'.run md ops with
    | error v => rw [hb] at this; cases this
    | ok r2 =>
      rw [hb] at this
      injection this with this
      have this : r2.2 = r.2 := this
      show Except.ok ([] :: r2.2) = Except.ok ([] :: r.2)
      rw [this]

/-- An entry without its satellite number and constellation (which every message overwrites first). -/
def Eph.anon (e : Eph) : Eph := { e with sat := 0, gnssID := 0 }

theorem anon_over {e e2 : Eph} (h : e2.anon = e.anon) (s g : Byte) :
    ({ e2 with sat := s, gnssID := g } : Eph) = { e with sat := s, gnssID := g } := by
  have h1 : ({ e2 with sat := s, gnssID := g } : Eph) = { e2.anon with sat := s, gnssID := g } := rfl
  have h2 : ({ e with sat := s, gnssID := g } : Eph) = { e.anon with sat := s, gnssID := g } := rfl
  rw [h1, h2, h]

theorem ephStep_anon {e e2 : Eph} (h : e2.anon = e.anon) (md : Mode) (junk : List Byte) (t : UTCTime) (row : List Byte)
    (m : Sfrbx) : ephStep md junk t row m e2 = ephStep md junk t row m e := by
  unfold ephStep
  dsimp only
  rw [anon_over h]

/-- The two parsers cannot be told apart: they differ in the names on entries (or in unused fresh entries) only. -/
structure SameEph (n n2 : Nav) : Prop where
  entry : ∀ s, (n2.cur s).anon = (n.cur s).anon
  geph : n2.geph = n.geph
  cbs : n2.ephCbs = n.ephCbs ∧ n2.gephCbs = n.gephCbs
  time : n2.gpsTime = n.gpsTime
  gal : n2.gal = n.gal

theorem convertGlo_eph {md : Mode} {n n2 : Nav} {m : Sfrbx} (hs : SameEph n n2) :
    (∀ o, convertGlo md n m = .ok o → convertGlo md n2 m = .ok { o with nav := { n2 with geph := o.nav.geph } } ∧
      o.nav = { n with geph := o.nav.geph }) ∧
    (∀ u, convertGlo md n m = .error u → convertGlo md n2 m = .error u) := by
  have hg := hs.geph
  have ht := hs.time
  have hc := hs.cbs.2
  clear hs
  obtain ⟨a1, _, a2, _, _, a3⟩ := n2
  dsimp only at hg ht hc
  subst hg ht hc
  have fin : ∀ (l : List GEph) (i : Nat),
      (∀ o, (match l[i]? with
        | none => .error .oobRead
        | some g => (do
          let o ← decodeGlonass md n.gpsTime m.gnssId m.svId m.freqId m.dwrd g
          .ok ⟨{ n with geph := l.set i o.geph }, gephCalls n.gephCbs o.reports, some o.ret⟩) : M NavOut) = .ok o →
        (match l[i]? with
        | none => .error .oobRead
        | some g => (do
          let o ← decodeGlonass md n.gpsTime m.gnssId m.svId m.freqId m.dwrd g
          .ok ⟨⟨a1, n.gephCbs, a2, l.set i o.geph, n.gpsTime, a3⟩, gephCalls n.gephCbs o.reports, some o.ret⟩) : M NavOut) =
          .ok { o with nav := ⟨a1, n.gephCbs, a2, o.nav.geph, n.gpsTime, a3⟩ } ∧ o.nav = { n with geph := o.nav.geph }) ∧
      (∀ u, (match l[i]? with
        | none => .error .oobRead
        | some g => (do
          let o ← decodeGlonass md n.gpsTime m.gnssId m.svId m.freqId m.dwrd g
          .ok ⟨{ n with geph := l.set i o.geph }, gephCalls n.gephCbs o.reports, some o.ret⟩) : M NavOut) = .error u →
        (match l[i]? with
        | none => .error .oobRead
        | some g => (do
          let o ← decodeGlonass md n.gpsTime m.gnssId m.svId m.freqId m.dwrd g
          .ok ⟨⟨a1, n.gephCbs, a2, l.set i o.geph, n.gpsTime, a3⟩, gephCalls n.gephCbs o.reports, some o.ret⟩) : M NavOut) = .error u) := by
    intro l i
    cases l[i]? with
    | none => exact ⟨fun o h => (by cases h), fun u h => h⟩
    | some x =>
      dsimp only
      cases decodeGlonass md n.gpsTime m.gnssId m.svId m.freqId m.dwrd x with
      | error u => exact ⟨fun o h => (by cases h), fun u h => h⟩
      | ok r =>
        refine ⟨fun o h => ?_, fun u h => by cases h⟩
        have h := Except.ok.inj h
        subst h
        exact ⟨rfl, rfl⟩
  unfold convertGlo
  dsimp only
  cases findLast m.svId (n.geph.map (·.sat)) 0 none with
  | none => exact fin (n.geph ++ [{ GEph.fresh with sat := m.svId }]) n.geph.length
  | some i => exact fin n.geph i

theorem sameEph_bisim (md : Mode) : Bisim md SameEph := by
  constructor
  · intro n n2 n' op c hs h
    obtain ⟨f1, f2, ⟨f3, f3'⟩, f4, f5⟩ := hs
    cases op with
    | setTime t =>
      injection h with h; injection h with ha hb; subst ha; subst hb
      exact ⟨_, rfl, ⟨f1, f2, ⟨f3, f3'⟩, rfl, f5⟩⟩
    | addGephCb =>
      injection h with h; injection h with ha hb; subst ha; subst hb
      exact ⟨_, rfl, ⟨f1, f2, ⟨f3, by show n2.gephCbs + 1 = _; rw [f3']⟩, f4, f5⟩⟩
    | addEphCb =>
      injection h with h; injection h with ha hb; subst ha; subst hb
      exact ⟨_, rfl, ⟨f1, f2, ⟨by show n2.ephCbs + 1 = _; rw [f3], f3'⟩, f4, f5⟩⟩
    | sfrbx junk m =>
      by_cases hg : m.gnssId = GLONASS
      · unfold Nav.step convertUBX at h
        dsimp only at h
        rw [if_pos hg, bind_ok] at h
        obtain ⟨o, h1, h⟩ := h
        injection h with h; injection h with ha hb; subst ha; subst hb
        obtain ⟨h2, h3⟩ := (convertGlo_eph ⟨f1, f2, ⟨f3, f3'⟩, f4, f5⟩).1 o h1
        refine ⟨{ n2 with geph := o.nav.geph }, ?_, ?_⟩
        · unfold Nav.step convertUBX
          dsimp only
          rw [if_pos hg, h2, ok_bind]
        · rw [h3]
          exact ⟨f1, rfl, ⟨f3, f3'⟩, f4, f5⟩
      · obtain ⟨r, h1, h2, nx⟩ := step_eph hg h
        rw [← ephStep_anon (f1 m.svId), ← f4, ← f5] at h1
        obtain ⟨n2', h4, nx2⟩ := (convertEph_spec md junk n2 m).1 _ h1
        refine ⟨n2', ?_, ⟨?_, ?_, ⟨?_, ?_⟩, ?_, ?_⟩⟩
        · unfold Nav.step convertUBX
          dsimp only
          rw [if_neg hg, h4, ok_bind, h2, f3]
        · intro s
          by_cases hsv : s = m.svId
          · unfold Nav.cur; rw [hsv, nx.own, nx2.own]
          · rw [cur_of_entry (nx.other s hsv), cur_of_entry (nx2.other s hsv)]; exact f1 s
        · rw [nx.geph, nx2.geph, f2]
        · rw [nx.cbs.1, nx2.cbs.1, f3]
        · rw [nx.cbs.2, nx2.cbs.2, f3']
        · rw [nx.time, nx2.time]
        · funext k
          by_cases hk : k = m.svId.toNat
          · rw [hk, nx.row, nx2.row]
          · rw [nx.rows k hk, nx2.rows k hk, f5]
  · intro n n2 op u hs h
    cases op with
    | setTime t => cases h
    | addGephCb => cases h
    | addEphCb => cases h
    | sfrbx junk m =>
      unfold Nav.step convertUBX at *
      dsimp only at *
      by_cases hg : m.gnssId = GLONASS
      · rw [if_pos hg] at *
        cases hr : convertGlo md n m with
        | ok o => rw [hr] at h; cases h
        | error v => rw [hr] at h; rw [(convertGlo_eph hs).2 v hr]; exact h
      · rw [if_neg hg] at *
        cases hr : ephStep md junk n.gpsTime (n.gal m.svId.toNat) m (n.cur m.svId) with
        | ok r =>
          obtain ⟨n', e, -⟩ := (convertEph_spec md junk n m).1 r hr
          rw [e] at h; cases h
        | error v =>
          rw [(convertEph_spec md junk n m).2 v hr] at h
          rw [← ephStep_anon (hs.entry m.svId), ← hs.time, ← hs.gal] at hr
          rw [(convertEph_spec md junk n2 m).2 v hr]
          exact h

/-- A page that is not good has no effect. -/
theorem bad_step {md : Mode} {n : Nav} {junk : List Byte} {m : Sfrbx} (hm : m.gnssId = 2) (hd : 32 ≤ m.dwrd.length)
    (hg : ¬ GoodPage m.dwrd) : ∃ n', n.step md (.sfrbx junk m) = .ok (n', []) ∧ SameEph n n' := by
  have h1 := gal_bad (md := md) (junk := junk) (t := n.gpsTime) (row := n.gal m.svId.toNat) (n.cur m.svId) hm hd hg
  obtain ⟨n', h4, nx⟩ := (convertEph_spec md junk n m).1 _ h1
  refine ⟨n', ?_, ?_, nx.geph, nx.cbs, nx.time, ?_⟩
  · unfold Nav.step convertUBX
    dsimp only
    rw [if_neg (by rw [hm]; decide), h4]; rfl
  · intro s
    by_cases hsv : s = m.svId
    · subst hsv
      conv => lhs; unfold Nav.cur
      rw [nx.own]; rfl
    · rw [cur_of_entry (nx.other s hsv)]
  · funext k
    by_cases hk : k = m.svId.toNat
    · rw [hk, nx.row]
    · rw [nx.rows k hk]

/-! ## What can go wrong -/

theorem step_eph_err {md : Mode} {junk : List Byte} {n : Nav} {m : Sfrbx} {u : UB} (hg : m.gnssId ≠ GLONASS)
    (h : n.step md (.sfrbx junk m) = .error u) :
    ephStep md junk n.gpsTime (n.gal m.svId.toNat) m (n.cur m.svId) = .error u := by
  unfold Nav.step convertUBX at h
  dsimp only at h
  rw [if_neg hg] at h
  cases hr : ephStep md junk n.gpsTime (n.gal m.svId.toNat) m (n.cur m.svId) with
  | ok r =>
    obtain ⟨n', e, -⟩ := (convertEph_spec md junk n m).1 r hr
    rw [e] at h; cases h
  | error v =>
    rw [(convertEph_spec md junk n m).2 v hr] at h
    injection h with h; rw [h]

/-- How a Galileo message can fail. -/
theorem gal_err {md : Mode} {junk : List Byte} {t : UTCTime} {row : List Byte} {m : Sfrbx} {e : Eph} {u : UB}
    {P : List (List Byte)} (hm : m.gnssId = 2) (hd : 32 ≤ m.dwrd.length) (hc : GalColl P row)
    (h : ephStep md junk t row m e = .error u) :
    GoodPage m.dwrd ∧
    ((m.svId = 0 ∧ u = .oobWrite) ∨
     (m.svId ≠ 0 ∧ Complete (addPage P m.dwrd) ∧ ConsistentP (addPage P m.dwrd) ∧
      ((u = .overflow ∧
        ¬ DatesFit (wordOf (addPage P m.dwrd) 0) (wordOf (addPage P m.dwrd) 1) (wordOf (addPage P m.dwrd) 4)) ∨
       (md = .strict ∧ u = .missingReturn)))) := by
  by_cases hg : GoodPage m.dwrd
  · refine ⟨hg, ?_⟩
    rw [ephStep_gal hm] at h
    obtain ⟨buf, hh, g1, g2, -⟩ := decodeGalileo_eq (md := md) (row := row) hd { e with sat := m.svId, gnssID := m.gnssId }
    by_cases hs : m.svId = 0
    · rw [g2 hg hs] at h
      injection h with h
      exact .inl ⟨hs, h.symm⟩
    · right
      rw [g1 hg hs] at h
      obtain ⟨row', hc', a1, a2, a3, a4⟩ := accept_cases (md := md) hh hg.type hc { e with sat := m.svId, gnssID := m.gnssId }
      generalize addPage P m.dwrd = Q at *
      by_cases b1 : Complete Q
      · by_cases b2 : ConsistentP Q
        · refine ⟨hs, b1, b2, ?_⟩
          by_cases b3 : DatesFit (wordOf Q 0) (wordOf Q 1) (wordOf Q 4)
          · right
            rw [a4 b1 b2 b3] at h
            cases md with
            | lenient => cases h
            | strict => injection h with h; exact ⟨rfl, h.symm⟩
          · left
            rw [a3 b1 b2 b3] at h
            injection h with h
            exact ⟨h.symm, b3⟩
        · rw [a2 b1 b2] at h; cases h
      · rw [a1 b1] at h; cases h
  · rw [gal_bad e hm hd hg] at h; cases h

/-- How a GLONASS message can fail. -/
theorem glo_err {md : Mode} {T : UTCTime} {gn sv fr : Byte} {d : List Byte} {g : GEph} {u : UB}
    (hd : 16 ≤ d.length) (h : decodeGlonass md T gn sv fr d g = .error u) :
    Seen T sv d ∧ 1 ≤ gloNum d ∧ gloNum d ≤ 4 ∧
      (u = .overflow ∧ (gloNum d = 1 ∨ gloNum d = 2) ∧ ¬ (0 ≤ T.sec ∧ T.sec ≤ 2147000000) ∨ md = .strict ∧ u = .missingReturn) := by
  by_cases hs : Seen T sv d
  · rw [decodeGlonass_seen hd g hs] at h
    by_cases hk : gloNum d < 1 ∨ 4 < gloNum d
    · rw [if_pos hk] at h; cases h
    · rw [if_neg hk] at h
      refine ⟨hs, by omega, by omega, ?_⟩
      rw [bind_err] at h
      have ovf : ∀ {tod : Nat} {u : UB}, UTCTime.fromGlonassTimeOfDay T ((tod * 1000 : Nat) : Int) = .error u → u = .overflow := by
        intro tod u h
        unfold UTCTime.fromGlonassTimeOfDay UTCTime.fromGlonass at h
        rw [bind_err] at h
        rcases h with h | ⟨x, -, h⟩
        · unfold UTCTime.int32 at h
          split at h
          · cases h
          · injection h with h; exact h.symm
        · cases h
      have off : offEnd md = .error u → md = .strict ∧ u = .missingReturn := by
        intro h
        cases md with
        | lenient => cases h
        | strict => injection h with h; exact ⟨rfl, h.symm⟩
      rcases h with h | ⟨g1, -, h⟩
      · unfold gloBody at h
        split at h
        · rw [bind_err] at h
          rcases h with h | ⟨x, -, h⟩
          · refine .inl ⟨ovf h, .inl ‹_›, fun hT => ?_⟩
            obtain ⟨t1, e1⟩ := tod_ok hT (frameTod_lt d)
            rw [e1] at h; cases h
          · rw [bind_err] at h
            rcases h with h | ⟨x, -, h⟩
            · exact .inr (off h)
            · cases h
        · rw [bind_err] at h
          rcases h with h | ⟨x, -, h⟩
          · refine .inl ⟨ovf h, .inr ‹_›, fun hT => ?_⟩
            obtain ⟨t1, e1⟩ := tod_ok hT (ephTod_lt d)
            rw [e1] at h; cases h
          · rw [bind_err] at h
            rcases h with h | ⟨x, -, h⟩
            · exact .inr (off h)
            · cases h
        · rw [bind_err] at h
          rcases h with h | ⟨x, -, h⟩
          · exact .inr (off h)
          · cases h
        · rw [bind_err] at h
          rcases h with h | ⟨x, -, h⟩
          · exact .inr (off h)
          · cases h
      · split at h
        all_goals cases h
  · obtain ⟨r, h1, -⟩ := decodeGlonass_unseen (md := md) (gn := gn) (fr := fr) hd g hs
    rw [h1] at h; cases h

end Ublox.Nav
