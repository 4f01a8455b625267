import Verif.Model.ReadSerialRun
import Verif.Spec.Console
import Verif.Props.ReadSerial
import Verif.Props.NavInputGlo

/-!
# C124: read_serial, from the serial line to the lists of satellites
-/

namespace Ublox.ReadSerial

open Nav Dev

theorem onEffs_calls (es : List Eff) : ∀ f, onEffs f es = calls f (es.filterMap Eff.nav?) := by
  induction es with
  | nil => intro f; rfl
  | cons e es ih =>
    intro f
    cases e with
    | nav c =>
      cases c <;> simp only [onEffs, onEff, ih, List.filterMap_cons, Eff.nav?, calls]
    | _ => simp only [onEffs, onEff, ih, List.filterMap_cons, Eff.nav?, List.nil_append]

/-- The satellite number and constellation an RXM-SFRBX payload names. -/
def Names (gnss : Byte) (s : Nat) : NavIn → Prop
  | .sfrbx p => p[0]? = some gnss ∧ ∃ b, p[1]? = some b ∧ b.toNat = s
  | _ => False

theorem names_of {p buf : List Byte} {gnss : Byte} {s : Nat} (hl : 2 ≤ p.length) (hb : buf.length = 2048)
    (hp : buf.take p.length = p) (h0 : (Sfrbx.ofBuffer buf).gnssId = gnss) (h1 : (Sfrbx.ofBuffer buf).svId.toNat = s) :
    Names gnss s (.sfrbx p) := by
  have e : ∀ k, k < 2 → p[k]? = some (buf.getD k 0) := by
    intro k hk
    conv_lhs => rw [← hp]
    rw [List.getElem?_take, if_pos (by omega), List.getElem?_eq_getElem (by omega), List.getD_eq_getElem?_getD,
      List.getElem?_eq_getElem (by omega)]
    rfl
  refine ⟨?_, _, e 1 (by omega), h1⟩
  rw [e 0 (by omega)]
  exact congrArg some h0

/-- Every callback of a device's life comes from a received message that names its satellite. -/
theorem source {md : Mode} {ss : List Ubx.Sched} {evs : List Ev} {d : Dev} {es : List Eff} (h : Life md ss evs d es)
    (hb : ∀ i s, Ev.configBase i s ∉ evs) (hlen : ∀ p, .sfrbx p ∈ navLife ss evs → 2 ≤ p.length) (call : NavCall)
    (hc : call ∈ es.filterMap Eff.nav?) : ∃ x ∈ navLife ss evs,
      match call with
      | .eph _ e => Names e.gnssID e.sat.toNat x
      | .geph _ g => Names 6 g.sat.toNat x := by
  obtain ⟨ops, cs, hs, hr, he⟩ := c112 h hb
  rw [he, List.mem_flatten] at hc
  obtain ⟨c, hc, hm⟩ := hc
  obtain ⟨hl, hat⟩ := c100_attributed md ops d.nav cs hr
  obtain ⟨k, hk⟩ := List.mem_iff_getElem?.1 hc
  have hk' : k < cs.length := (List.getElem?_eq_some_iff.1 hk).1
  have hop := List.getElem?_eq_getElem (show k < ops.length by omega)
  have hlen' := hs.length_eq
  have hin := List.getElem?_eq_getElem (show k < (navLife ss evs).length by omega)
  have hsame := hs.get (show k < (navLife ss evs).length by omega) (show k < ops.length by omega)
  have hat := hat k _ c hop hk
  have hmem := List.mem_of_getElem? hin
  simp only [List.get_eq_getElem] at hsame
  generalize ops[k]'(by omega) = op at hat hsame
  generalize (navLife ss evs)[k]'(by omega) = x at hmem hsame
  cases hsame with
  | eph => rw [hat] at hm; exact absurd hm (by simp)
  | geph => rw [hat] at hm; exact absurd hm (by simp)
  | sfrbx p buf h1 h2 =>
    refine ⟨_, hmem, ?_⟩
    rcases hat with hat | ⟨e, a, b, -, hat⟩ | ⟨g, a, b, g6, -, hat⟩
    · rw [hat] at hm; exact absurd hm (by simp)
    · rw [hat] at hm
      obtain ⟨i, -, rfl⟩ := List.mem_map.1 hm
      exact names_of (hlen p hmem) h1 h2 b.symm (by rw [← a])
    · rw [hat] at hm
      obtain ⟨i, -, rfl⟩ := List.mem_map.1 hm
      exact names_of (hlen p hmem) h1 h2 g6 (by rw [← a])

theorem no_base {evs : List Ev} (hc : Print.calls evs = mainCalls) : ∀ i s, Ev.configBase i s ∉ evs := by
  intro i s hm
  have : Ev.configBase i s ∈ Print.calls evs := List.mem_filter.2 ⟨hm, rfl⟩
  rw [hc] at this
  simp [mainCalls] at this

/-- C124: whatever the receiver sends, the three lists are ascending without repetition, and every satellite in them is named
by an RXM-SFRBX frame of its constellation in the stream. -/
theorem c124_only_received {md : Mode} {ss : List Ubx.Sched} {evs : List Ev} {d : Dev} {es : List Eff}
    (h : Life md ss evs d es) (hc : Print.calls evs = mainCalls)
    (hlen : ∀ p, .sfrbx p ∈ navLife ss evs → 2 ≤ p.length) :
    let f := (onEffs nothing es).1
    (f.gps.Pairwise (· < ·) ∧ f.gal.Pairwise (· < ·) ∧ f.glo.Pairwise (· < ·)) ∧
    (∀ s ∈ f.gps, ∃ x ∈ navLife ss evs, Names 0 s x) ∧ (∀ s ∈ f.gal, ∃ x ∈ navLife ss evs, Names 2 s x) ∧
    (∀ s ∈ f.glo, ∃ x ∈ navLife ss evs, Names 6 s x) := by
  have hb := no_base hc
  have hs := calls_spec (es.filterMap Eff.nav?) nothing .nil .nil .nil
  rw [← onEffs_calls] at hs
  obtain ⟨a, b, c, g⟩ := hs
  refine ⟨a, fun s hs => ?_, fun s hs => ?_, fun s hs => ?_⟩
  · rcases (b s).1 hs with h' | ⟨i, e, he, h0, rfl⟩
    · exact absurd h' (by simp [nothing])
    · have := source h hb hlen _ he
      rw [← h0]; exact this
  · rcases (c s).1 hs with h' | ⟨i, e, he, h0, rfl⟩
    · exact absurd h' (by simp [nothing])
    · have := source h hb hlen _ he
      rw [← h0]; exact this
  · rcases (g s).1 hs with h' | ⟨i, e, he, rfl⟩
    · exact absurd h' (by simp [nothing])
    · exact source h hb hlen _ he

/-- C124: what is listed stays listed. -/
theorem c124_stays (es es' : List Eff) :
    let f := (onEffs nothing es).1
    let f' := (onEffs nothing (es ++ es')).1
    (∀ s ∈ f.gps, s ∈ f'.gps) ∧ (∀ s ∈ f.gal, s ∈ f'.gal) ∧ (∀ s ∈ f.glo, s ∈ f'.glo) := by
  have h1 := calls_spec (es.filterMap Eff.nav?) nothing .nil .nil .nil
  have h2 := calls_spec ((es ++ es').filterMap Eff.nav?) nothing .nil .nil .nil
  rw [← onEffs_calls] at h1 h2
  have hm : ∀ {c}, c ∈ es.filterMap Eff.nav? → c ∈ (es ++ es').filterMap Eff.nav? := by
    intro c hc
    rw [List.filterMap_append]
    exact List.mem_append_left _ hc
  refine ⟨fun s hs => ?_, fun s hs => ?_, fun s hs => ?_⟩
  · rcases (h1.2.1 s).1 hs with h' | ⟨i, e, he, h0⟩
    · exact (h2.2.1 s).2 (.inl h')
    · exact (h2.2.1 s).2 (.inr ⟨i, e, hm he, h0⟩)
  · rcases (h1.2.2.1 s).1 hs with h' | ⟨i, e, he, h0⟩
    · exact (h2.2.2.1 s).2 (.inl h')
    · exact (h2.2.2.1 s).2 (.inr ⟨i, e, hm he, h0⟩)
  · rcases (h1.2.2.2 s).1 hs with h' | ⟨i, e, he, h0⟩
    · exact (h2.2.2.2 s).2 (.inl h')
    · exact (h2.2.2.2 s).2 (.inr ⟨i, e, hm he, h0⟩)

theorem count_sfrbx (x : NavIn) (hx : ∀ p, x ≠ .sfrbx p) (ps : List (List Byte)) : (ps.map NavIn.sfrbx).count x = 0 :=
  List.count_eq_zero.2 (by
    intro h
    obtain ⟨p, -, e⟩ := List.mem_map.1 h
    exact hx p e.symm)

theorem navIns_ephs (evs : List Ev) : ∀ old, (navIns old evs).count .addEph = evs.count .ephCb ∧
    (navIns old evs).count .addGeph = evs.count .gephCb := by
  induction evs with
  | nil => intro old; exact ⟨rfl, rfl⟩
  | cons e evs ih =>
    intro old
    cases e <;> simp [navIns, List.count_append, count_sfrbx, ih]

theorem regs_eq {ss : List Ubx.Sched} {evs : List Ev} (hc : Print.calls evs = mainCalls) :
    (navLife ss evs).count .addEph = 1 ∧ (navLife ss evs).count .addGeph = 1 := by
  obtain ⟨a, b⟩ := navIns_ephs evs (ctorBytes ss)
  unfold navLife
  rw [List.count_append, List.count_append, count_sfrbx _ (by simp), count_sfrbx _ (by simp), a, b]
  have e1 : evs.count .ephCb = (Print.calls evs).count .ephCb := (List.count_filter rfl).symm
  have e2 : evs.count .gephCb = (Print.calls evs).count .gephCb := (List.count_filter rfl).symm
  rw [e1, e2, hc]
  exact ⟨rfl, rfl⟩

theorem gps_of {es : List Eff} {i : Nat} {e : Eph} (he : .eph i e ∈ es.filterMap Eff.nav?) (hg : e.gnssID = 0) :
    e.sat.toNat ∈ (onEffs nothing es).1.gps := by
  rw [onEffs_calls]
  exact ((calls_spec (es.filterMap Eff.nav?) nothing .nil .nil .nil).2.1 _).2 (.inr ⟨i, e, he, hg, rfl⟩)

theorem gal_of {es : List Eff} {i : Nat} {e : Eph} (he : .eph i e ∈ es.filterMap Eff.nav?) (hg : e.gnssID = 2) :
    e.sat.toNat ∈ (onEffs nothing es).1.gal := by
  rw [onEffs_calls]
  exact ((calls_spec (es.filterMap Eff.nav?) nothing .nil .nil .nil).2.2.1 _).2 (.inr ⟨i, e, he, hg, rfl⟩)

theorem glo_of {es : List Eff} {i : Nat} {g : GEph} (he : .geph i g ∈ es.filterMap Eff.nav?) :
    g.sat.toNat ∈ (onEffs nothing es).1.glo := by
  rw [onEffs_calls]
  exact ((calls_spec (es.filterMap Eff.nav?) nothing .nil .nil .nil).2.2.2 _).2 (.inr ⟨i, g, he, rfl⟩)

/-- C124, GPS: a satellite whose three subframes of one data set arrive without another message under its number in between
is listed, whatever else is received. -/
theorem c124_gps {md : Mode} {ss : List Ubx.Sched} {evs : List Ev} {d : Dev} {es : List Eff} (h : Life md ss evs d es)
    (hc : Print.calls evs = mainCalls) (s : Byte) (p : GpsParams) (hp : p.Ok) (a b c : Nat)
    (habc : [a, b, c].Perm [1, 2, 3]) (ha : a ≠ 3) (fa fb fc : Nat → Nat → Bool)
    (ra xa cha va ea rb xb chb vb eb rc xc chc vc ec : Byte) (i0 i1 i2 : List NavIn)
    (u0 : ∀ i ∈ i0, NotAbout s i) (u1 : ∀ i ∈ i1, NotAbout s i) (u2 : ∀ i ∈ i2, NotAbout s i)
    (hin : navLife ss evs = i0 ++ .sfrbx (gpsPayload s ra xa cha va ea (subframe fa p a)) ::
      (i1 ++ .sfrbx (gpsPayload s rb xb chb vb eb (subframe fb p b)) ::
      (i2 ++ [.sfrbx (gpsPayload s rc xc chc vc ec (subframe fc p c))]))) :
    s.toNat ∈ (onEffs nothing es).1.gps := by
  obtain ⟨e, pre, he, hrep, -⟩ := c113 h (no_base hc) s p hp a b c habc ha fa fb fc ra xa cha va ea rb xb chb vb eb rc xc chc
    vc ec i0 i1 i2 u0 u1 u2 hin
  have hk : Dev.ephRegs (i0 ++ i1 ++ i2) = 1 := by
    have := (regs_eq (ss := ss) hc).1
    rw [hin] at this
    simp [List.count_append] at this
    unfold Dev.ephRegs
    rw [List.count_append, List.count_append]
    omega
  rw [hk] at he
  have := gps_of (i := 0) (e := e) (by rw [he]; exact List.mem_append_right _ (by simp [reportTo])) hrep.gnss
  rwa [hrep.sat] at this

/-- C124, Galileo: a satellite whose seven words of one issue of data arrive is listed. -/
theorem c124_galileo {ss : List Ubx.Sched} {evs : List Ev} {d : Dev} {es : List Eff} (h : Life .lenient ss evs d es)
    (hc : Print.calls evs = mainCalls) (s : Byte) (hs : s ≠ 0) (p : GalParams) (hp : p.Ok) (t2 : GalTime)
    (i0 i1 : List NavIn) (pl2 page2 pl page : List Byte) (h2 : IsGalPage s page2 pl2) (hs2 : SentPage p t2 2 (padded page2))
    (hl : IsGalPage s page pl) (hgood : GoodPage page)
    (hin : navLife ss evs = i0 ++ .sfrbx pl2 :: (i1 ++ [.sfrbx pl]))
    (htr : Dev.GalTraffic s p (i1 ++ [.sfrbx pl]))
    (harr : ∀ k, k ≤ 6 → k ≠ 2 → ∃ t, Dev.GalArrives s p t k (i1 ++ [.sfrbx pl]))
    (hfit : ∀ t, GalTime.Ok t → Dev.GalArrives s p t 0 (i1 ++ [.sfrbx pl]) → p.Fits t) :
    s.toNat ∈ (onEffs nothing es).1.gal := by
  obtain ⟨e, t, pre, he, hrep, -⟩ := c117 h (no_base hc) s hs p hp t2 i0 i1 pl2 page2 pl page h2 hs2 hl hgood hin htr harr hfit
  have hk : Dev.ephRegs (i0 ++ i1) = 1 := by
    have := (regs_eq (ss := ss) hc).1
    rw [hin] at this
    simp [List.count_append] at this
    unfold Dev.ephRegs
    rw [List.count_append]
    omega
  rw [hk] at he
  have := gal_of (i := 0) (e := e) (by rw [he]; exact List.mem_append_right _ (by simp [reportTo])) hrep.gnss
  rwa [hrep.sat] at this

/-- C124, GLONASS: once a GPS ephemeris has been reported, a satellite whose strings 1 to 4 of one frame arrive is listed. -/
theorem c124_glonass {md : Mode} {ss : List Ubx.Sched} {evsA evsB : List Ev} {dA dB : Dev} {esA esB : List Eff}
    (hA : Life md ss evsA dA esA) (hB : Dev.run md dA evsB = .ok (dB, esB)) (hc : Print.calls (evsA ++ evsB) = mainCalls)
    (e0 : Nav.Eph) (hgps : (gpsReports esA).getLast? = some e0)
    (D : Int) (hD : D ≤ 43199) (hrefs : Nav.Refs D ((e0 :: gpsReports esB).map (·.toe))) (hpos : ∀ e ∈ e0 :: gpsReports esB, 0 < e.toe.sec)
    (eL : Nav.Eph) (heL : (e0 :: gpsReports esB).getLast? = some eL)
    (s : Byte) (h255 : s ≠ 255) (p : GloParams) (hp : p.Ok) (mark : Nat) (hmark : mark < 65536) (i1 : List NavIn)
    (pl : List Byte) (f : Byte) (fill : Nat → Bool) (rest : Nat → Byte)
    (hlast : IsGloString s f (gloString fill rest mark p 4) pl) (hin : navLater ss evsA evsB = i1 ++ [.sfrbx pl])
    (htr : Dev.GloTraffic s p mark i1)
    (harr : ∀ k, 1 ≤ k → k ≤ 3 → Dev.GloArrives s p mark k i1) :
    s.toNat ∈ (onEffs nothing (esA ++ esB)).1.glo := by
  have hb := no_base hc
  obtain ⟨g, pre, he, hrep, -⟩ := c118 hA hB (fun i t hm => hb i t (List.mem_append_left _ hm))
    (fun i t hm => hb i t (List.mem_append_right _ hm)) e0 hgps D hD hrefs hpos eL heL s h255 p hp mark hmark i1 pl f fill rest hlast hin
    htr harr
  have hk : Dev.gephRegs (navLife ss evsA ++ i1) = 1 := by
    have e1 : (evsA ++ evsB).count .gephCb = (Print.calls (evsA ++ evsB)).count .gephCb := (List.count_filter rfl).symm
    rw [hc, List.count_append] at e1
    have e2 := (navIns_ephs evsA (ctorBytes ss)).2
    have e3 := (navIns_ephs evsB (ctorBytes ss ++ evsA.flatMap fun | .rx b => b | _ => [])).2
    have e4 := congrArg (List.count .addGeph) hin
    have e5 : (navLater ss evsA evsB).count .addGeph = evsB.count .gephCb := e3
    rw [List.count_append] at e4
    have e6 : ([NavIn.sfrbx pl]).count .addGeph = 0 := rfl
    have e7 : mainCalls.count .gephCb = 1 := rfl
    unfold Dev.gephRegs navLife
    rw [List.count_append, List.count_append, count_sfrbx _ (by simp)]
    omega
  rw [hk] at he
  have := glo_of (es := esA ++ esB) (i := 0) (g := g) (by
    rw [List.filterMap_append, he]
    exact List.mem_append_right _ (List.mem_append_right _ (by simp [greportTo])))
  rwa [hrep.sat] at this

/-- A run of the program: subframes of satellite 7 in frames cut in the middle, one of satellite 8, a damaged frame. -/
def exProg : List Ev :=
  [.subscribe 0 0x01 0x07, .subscribe 0 0x02 0x15, .listen 0, .rx (exSub 7 2 ++ exSub 8 1), .rx ((exSub 7 3).take 20), .ephCb,
   .rx ((exSub 7 3).drop 20), .gephCb, .rx ((exSub 7 1).dropLast ++ [0] ++ exSub 7 1)]

/-- The hypotheses of `c124_only_received` and `c124_gps` are met; satellite 7 is listed, satellite 8 is not. -/
example : Print.calls exProg = mainCalls ∧ (∃ d es, Life .strict [exSched] exProg d es ∧ (onEffs nothing es).1 = ⟨[7], [], []⟩) ∧
    (∀ p, .sfrbx p ∈ navLife [exSched] exProg → 2 ≤ p.length) ∧
    navLife [exSched] exProg = [] ++ .sfrbx (gpsPayload 7 0 0 3 2 0 (subframe (fun _ _ => true) Nav.exParams 2)) ::
      ([.sfrbx (gpsPayload 8 0 0 3 2 0 (subframe (fun _ _ => true) Nav.exParams 1)), .addEph] ++
        .sfrbx (gpsPayload 7 0 0 3 2 0 (subframe (fun _ _ => true) Nav.exParams 3)) ::
        ([.addGeph] ++ [.sfrbx (gpsPayload 7 0 0 3 2 0 (subframe (fun _ _ => true) Nav.exParams 1))])) := by
  have hl : navLife [exSched] exProg = [] ++ .sfrbx (gpsPayload 7 0 0 3 2 0 (subframe (fun _ _ => true) Nav.exParams 2)) ::
      ([.sfrbx (gpsPayload 8 0 0 3 2 0 (subframe (fun _ _ => true) Nav.exParams 1)), .addEph] ++
        .sfrbx (gpsPayload 7 0 0 3 2 0 (subframe (fun _ _ => true) Nav.exParams 3)) ::
        ([.addGeph] ++ [.sfrbx (gpsPayload 7 0 0 3 2 0 (subframe (fun _ _ => true) Nav.exParams 1))])) := by decide +kernel
  have hm : (exRun exProg).map (fun x => (onEffs nothing x.2).1) = some ⟨[7], [], []⟩ := by decide +kernel
  refine ⟨rfl, ?_, ?_, hl⟩
  · obtain ⟨⟨d, es⟩, hx, he⟩ := Option.map_eq_some_iff.1 hm
    exact ⟨d, es, exRun_life hx, he⟩
  · intro p hp
    rw [hl] at hp
    simp at hp
    rcases hp with rfl | rfl | rfl | rfl <;> simp [gpsPayload]

end Ublox.ReadSerial
