import Verif.Props.BaseLife
import Verif.Props.NavInputGps
import Verif.Props.NavInputGal
import Verif.Props.NavInputGlo
import Verif.Props.NavGpsLive
import Verif.Props.NavGpsLoss

/-!
# C147: transmitted ephemerides reach the callbacks of base stations too, through all changes of role
-/

namespace Ublox
namespace Dev

open Nav (Nav NavCall Mode Sfrbx NavOp GpsParams GalParams GalTime GloParams subframe reportTo greportTo ReportsGps ReportsGal ReportsGlo ClosestTod gloString)
open Rtcm (RTail REvent rtStep rtRun)

/-- **C147**, GPS: in a life with any changes of role between messages, among the RXM-SFRBX messages found are the three with the
subframes of the parameters `p` of satellite `s`, subframe 3 not first, nothing else about that satellite before or in between.
With the last of them each callback registered by then is called once, with exactly those parameters; and none was called for that
satellite before. -/
theorem c147_gps {md : Mode} {evs : List Ev} {d : Dev} {ins : List NavIn} {es : List Eff} (h : Course md evs d ins es)
    (s : Byte) (p : GpsParams) (hp : p.Ok) (a b c : Nat)
    (habc : [a, b, c].Perm [1, 2, 3]) (ha : a ≠ 3) (fa fb fc : Nat → Nat → Bool)
    (ra xa cha va ea rb xb chb vb eb rc xc chc vc ec : Byte) (i0 i1 i2 : List NavIn)
    (u0 : ∀ i ∈ i0, NotAbout s i) (u1 : ∀ i ∈ i1, NotAbout s i) (u2 : ∀ i ∈ i2, NotAbout s i)
    (hin : ins = i0 ++ .sfrbx (gpsPayload s ra xa cha va ea (subframe fa p a)) ::
      (i1 ++ .sfrbx (gpsPayload s rb xb chb vb eb (subframe fb p b)) ::
      (i2 ++ [.sfrbx (gpsPayload s rc xc chc vc ec (subframe fc p c))]))) :
    ∃ e pre, es.filterMap Eff.nav? = pre ++ reportTo (ephRegs (i0 ++ i1 ++ i2)) e ∧ ReportsGps e s p ∧
      ∀ i e', NavCall.eph i e' ∈ pre → e'.sat ≠ s :=
  c113_told (c146 h) s p hp a b c habc ha fa fb fc ra xa cha va ea rb xb chb vb eb rc xc chc vc ec i0 i1 i2 u0 u1 u2 hin

/-- **C147**, GPS after anything at all: the subframes that arrive may be lost, repeated and reordered. -/
theorem c147_gps_any {md : Mode} {evs : List Ev} {d : Dev} {ins : List NavIn} {es : List Eff} (h : Course md evs d ins es)
    (s : Byte) (p : GpsParams) (hp : p.Ok) (i0 iA iB iC : List NavIn)
    (hA : ∀ i ∈ iA, SendsIn s p i) (hB : ∀ i ∈ iB, SendsIn s p i) (hC : ∀ i ∈ iC, SendsIn s p i)
    (a1 : HasIn s p 1 iA) (a2 : HasIn s p 2 iA) (b3 : HasIn s p 3 iB) (c1 : HasIn s p 1 iC) (c2 : HasIn s p 2 iC) (c3 : HasIn s p 3 iC)
    (hin : ins = i0 ++ (iA ++ (iB ++ iC))) :
    ∃ (cs0 csC : List (List NavCall)), es.filterMap Eff.nav? = (cs0 ++ csC).flatten ∧ cs0.length = (i0 ++ iA ++ iB).length ∧
      csC.length = iC.length ∧
      ∃ (i : Nat) (e : Nav.Eph), csC[i]? = some (reportTo (ephRegs (i0 ++ iA ++ iB ++ iC.take i)) e) ∧ ReportsGps e s p :=
  c134_told (c146 h) s p hp i0 iA iB iC hA hB hC a1 a2 b3 c1 c2 c3 hin

/-- **C147**, Galileo: as C117, through all changes of role. -/
theorem c147_gal {evs : List Ev} {d : Dev} {ins : List NavIn} {es : List Eff} (h : Course .lenient evs d ins es)
    (s : Byte) (hs : s ≠ 0) (p : GalParams) (hp : p.Ok) (t2 : GalTime)
    (i0 i1 : List NavIn) (pl2 page2 pl page : List Byte) (h2 : IsGalPage s page2 pl2) (hs2 : Nav.SentPage p t2 2 (padded page2))
    (hl : IsGalPage s page pl) (hgood : Nav.GoodPage page)
    (hin : ins = i0 ++ .sfrbx pl2 :: (i1 ++ [.sfrbx pl]))
    (htr : GalTraffic s p (i1 ++ [.sfrbx pl]))
    (harr : ∀ k, k ≤ 6 → k ≠ 2 → ∃ t, GalArrives s p t k (i1 ++ [.sfrbx pl]))
    (hfit : ∀ t, GalTime.Ok t → GalArrives s p t 0 (i1 ++ [.sfrbx pl]) → p.Fits t) :
    ∃ e t pre, es.filterMap Eff.nav? = pre ++ reportTo (ephRegs (i0 ++ i1)) e ∧ ReportsGal e s p t ∧
      GalTime.Ok t ∧ GalArrives s p t 0 (i1 ++ [.sfrbx pl]) :=
  c117_told (c146 h) s hs p hp t2 i0 i1 pl2 page2 pl page h2 hs2 hl hgood hin htr harr hfit

/-- **C147**, GLONASS: as C118, through all changes of role; the last GPS ephemeris was reported before the last stage. -/
theorem c147_glo {md : Mode} {evsA evsB : List Ev} {dA dB : Dev} {insA insB : List NavIn} {esA esB : List Eff}
    (hA : Course md evsA dA insA esA) (hB : Stage md evsA dA evsB dB insB esB)
    (e0 : Nav.Eph) (hgps : (gpsReports esA).getLast? = some e0)
    (D : Int) (hD : D ≤ 43199) (hrefs : Nav.Refs D ((e0 :: gpsReports esB).map (·.toe))) (hpos : ∀ e ∈ e0 :: gpsReports esB, 0 < e.toe.sec)
    (eL : Nav.Eph) (heL : (e0 :: gpsReports esB).getLast? = some eL)
    (s : Byte) (h255 : s ≠ 255) (p : GloParams) (hp : p.Ok) (mark : Nat) (hmark : mark < 65536) (i1 : List NavIn)
    (pl : List Byte) (f : Byte) (fill : Nat → Bool) (rest : Nat → Byte)
    (hlast : IsGloString s f (gloString fill rest mark p 4) pl) (hin : insB = i1 ++ [.sfrbx pl])
    (htr : GloTraffic s p mark i1)
    (harr : ∀ k, 1 ≤ k → k ≤ 3 → GloArrives s p mark k i1) :
    ∃ g pre, esB.filterMap Eff.nav? = pre ++ greportTo (gephRegs (insA ++ i1)) g ∧ ReportsGlo g s f p ∧
      (0 < gephRegs (insA ++ i1) →
        (p.hour * 3600 + p.minute * 60 + p.half * 30 + D ≤ 129600 →
          ClosestTod eL.toe g.tof (p.hour * 3600 + p.minute * 60 + p.half * 30)) ∧
        (p.tb * 900 + D ≤ 129600 → ClosestTod eL.toe g.toe (p.tb * 900))) :=
  c118_told (c146 hA) (hB.told hA.reach) e0 hgps D hD hrefs hpos eL heL s h255 p hp mark hmark i1 pl f fill rest hlast hin htr harr

/-! ### A concrete case -/

theorem newly_append (prev : Byte) (h a b : List Byte) :
    newly (mixed prev) h (a ++ b) = newly (mixed prev) h a ++ newly (mixed prev) (h ++ a) b := by
  rw [newly_mixed, newly_mixed, newly_mixed, dRun_append true (.idle prev) .idle h a, dRun_append, msgs_append]

theorem newly_nil (prev : Byte) (h : List Byte) : newly (mixed prev) h [] = [] := by
  unfold newly
  rw [List.append_nil, List.drop_length]

theorem newly_whole (prev : Byte) (s : List Byte) : newly (mixed prev) [] s = mixed prev s := by
  unfold newly mixed
  rw [show demux prev [] = ([], .idle prev) by rw [demux]]
  rfl

/-- Without registrations, the decoder is told the RXM-SFRBX messages of the whole stream, however it was cut. -/
theorem insBy_rx (prev : Byte) (evs : List Ev) (h1 : .ephCb ∉ evs) (h2 : .gephCb ∉ evs) :
    insBy (mixed prev) [] evs = ((mixed prev (received evs)).filterMap Msg.sfrbx?).map .sfrbx := by
  have main : ∀ old, insBy (mixed prev) old evs = ((newly (mixed prev) old (received evs)).filterMap Msg.sfrbx?).map .sfrbx := by
    induction evs with
    | nil => intro old; rw [show received [] = [] from rfl, newly_nil]; rfl
    | cons e evs ih =>
      intro old
      have ih := ih (fun h => h1 (List.mem_cons_of_mem _ h)) (fun h => h2 (List.mem_cons_of_mem _ h))
      cases e with
      | rx b =>
        rw [show received (.rx b :: evs) = b ++ received evs from rfl, newly_append, List.filterMap_append, List.map_append, ← ih]
        rfl
      | ephCb => exact absurd List.mem_cons_self h1
      | gephCb => exact absurd List.mem_cons_self h2
      | _ => exact ih old
  rw [main, newly_whole]

theorem exRun_more {a b : List Ev} {d d' : Dev} {es es' : List Eff} (h1 : exRun a = some (d, es)) (h2 : exRun (a ++ b) = some (d', es')) :
    ∃ es2, run .strict d b = .ok (d', es2) ∧ es' = es ++ es2 := by
  unfold exRun at h1 h2
  split at h1
  · rename_i d0 e0 hc
    rw [hc] at h2
    dsimp only at h2
    split at h1
    · rename_i x hx
      cases h1
      split at h2
      · rename_i y hy
        cases h2
        obtain ⟨d2, f1, f2, k1, k2, k3⟩ := run_ok_append hy
        rw [hx] at k1
        cases k1
        exact ⟨f2, k2, k3⟩
      · cases h2
    · cases h1
  · cases h1

/-- The three subframes of satellite 7, one of satellite 8 and two RTCM3 frames, in one mixed stream. -/
def exMix : List Msg :=
  [.ubx 0x02 0x13 (gpsPayload 7 0 0 3 2 0 (subframe (fun _ _ => true) Nav.exParams 2)), .rtcm exFrame,
   .ubx 0x02 0x13 (gpsPayload 8 0 0 3 2 0 (subframe (fun _ _ => true) Nav.exParams 1)),
   .ubx 0x02 0x13 (gpsPayload 7 0 0 3 2 0 (subframe (fun _ _ => true) Nav.exParams 3)), .rtcm exFrame,
   .ubx 0x02 0x13 (gpsPayload 7 0 0 3 2 0 (subframe (fun _ _ => true) Nav.exParams 1))]

/-- A callback is registered, the device is made a base, and the stream arrives in three pieces. -/
def exMixBase : List Ev :=
  [.configBase 9 false, .rx ((wire exMix).take 58), .rx (((wire exMix).drop 58).take 80), .listen 3, .rx ((wire exMix).drop 138)]

theorem exMix_wf : ∀ m ∈ exMix, m.WF := by
  intro m hm
  have hr : (Msg.rtcm exFrame).WF := exMsgs_wf _ (by simp [exMsgs])
  simp only [exMix, List.mem_cons, List.not_mem_nil, or_false] at hm
  rcases hm with rfl | rfl | rfl | rfl | rfl | rfl
  · exact ⟨by decide +kernel, by decide +kernel⟩
  · exact hr
  · exact ⟨by decide +kernel, by decide +kernel⟩
  · exact ⟨by decide +kernel, by decide +kernel⟩
  · exact hr
  · exact ⟨by decide +kernel, by decide +kernel⟩

/-- All hypotheses of `c147_gps` (and of `c146`, `c146_link`) are met by a base that gets this stream: its callback is called, for
satellite 7, and both RTCM3 frames are passed on. -/
example : ∃ d ins es e, Course .strict ([.ephCb] ++ exMixBase) d ins es ∧ es.filterMap Eff.nav? = reportTo 1 e ∧
    ReportsGps e 7 Nav.exParams ∧ es.filterMap Eff.rtk? = [(9, exFrame), (9, exFrame)] := by
  have h0 : (exRun [.ephCb]).map (fun x => (x.1.ubx.parsingMessage, x.1.rtcm.parsingMessage, x.2.isEmpty)) = some (false, false, true) := by
    decide +kernel
  have h1 : (exRun ([.ephCb] ++ exMixBase)).map (fun x => ((x.2.filterMap Eff.nav?).length, x.2.filterMap Eff.rtk?)) =
      some (1, [(9, exFrame), (9, exFrame)]) := by decide +kernel
  cases hx : exRun [.ephCb] with
  | none => rw [hx] at h0; cases h0
  | some x =>
    cases hy : exRun ([.ephCb] ++ exMixBase) with
    | none => rw [hy] at h1; cases h1
    | some y =>
      obtain ⟨d, es⟩ := x
      obtain ⟨d', es'⟩ := y
      rw [hx] at h0
      rw [hy] at h1
      obtain ⟨q1, q2⟩ := Prod.mk.inj (Option.some.inj h0)
      obtain ⟨q2, q3⟩ := Prod.mk.inj q2
      obtain ⟨p1, p2⟩ := Prod.mk.inj (Option.some.inj h1)
      obtain ⟨es2, k1, k2⟩ := exRun_more hx hy
      have hl := exRun_life hx
      have hc := Course.start hl (by intro i s; simp)
      have st : Stage .strict [.ephCb] d exMixBase d' _ es2 := .base q1 q2 (by intro i; simp) k1
      have co := hc.stage st
      have hi : insBy (mixed d.ubx.prev) [] [.rx ((wire exMix).take 58), .rx (((wire exMix).drop 58).take 80), .listen 3,
          .rx ((wire exMix).drop 138)] = (exMix.filterMap Msg.sfrbx?).map .sfrbx := by
        rw [insBy_rx _ _ (by simp) (by simp)]
        have : received [.rx ((wire exMix).take 58), .rx (((wire exMix).drop 58).take 80), .listen 3, .rx ((wire exMix).drop 138)] =
            wire exMix := by decide +kernel
        rw [this]
        unfold mixed
        rw [demux_wire' exMix exMix_wf]
      rw [hi] at co
      have hn : navLife [exSched] [.ephCb] = [.addEph] := by decide +kernel
      rw [hn] at co
      rw [← k2] at co
      obtain ⟨e, pre, r1, r2, -⟩ := c147_gps co 7 Nav.exParams Nav.exParams_ok 2 3 1 (by decide) (by decide) (fun _ _ => true) (fun _ _ => true)
        (fun _ _ => true) 0 0 3 2 0 0 0 3 2 0 0 0 3 2 0 [.addEph] [.sfrbx (gpsPayload 8 0 0 3 2 0 (subframe (fun _ _ => true) Nav.exParams 1))] []
        (by simp [NotAbout]) (by
          intro i hi
          rw [List.mem_singleton.1 hi]
          exact ⟨by decide +kernel, .inr (by decide +kernel)⟩) (by simp) (by rfl)
      have hr : ephRegs ([.addEph] ++ [.sfrbx (gpsPayload 8 0 0 3 2 0 (subframe (fun _ _ => true) Nav.exParams 1))] ++ []) = 1 := by
        decide +kernel
      rw [hr] at r1
      refine ⟨d', _, es', e, co, ?_, r2, p2⟩
      rw [r1] at p1 ⊢
      have : pre = [] := by
        rw [List.length_append, show (reportTo 1 e).length = 1 from rfl] at p1
        exact List.length_eq_zero_iff.mp (by omega)
      rw [this]; rfl

end Dev
end Ublox
