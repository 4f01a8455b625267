import Verif.Spec.Version
import Verif.Props.MonVer
import Verif.Props.Contiguous
/-! # C149: the driver knows the version its receiver reported last, and speaks the protocol of that version -/

namespace Ublox.Ubx
open MonVer

/-- What a byte that completes a version report does to the version. -/
theorem version_good {u u' : Ubx} {t : Tail} {b : Byte} {r : Bool} {ds : List Delivery} {p : List Byte} (hwf : WF u)
    (ha : Abs u t) (h : readCb u b = .ok (u', r, ds)) (hit : (rxStep t b).2 = some (.good 0x0A 0x04 p)) :
    ∃ v w : Ubx, v.inMsg.take p.length = p ∧ v.modName.length = 10 ∧ versionCb v = .ok w ∧ u'.major = w.major ∧
      u'.minor = w.minor ∧ u'.modName = w.modName := by
  obtain ⟨w1, w2, w3⟩ := hwf
  match t with
  | .idle p =>
    have : (rxStep (.idle p) b).2 = none := by simp only [rxStep]; split <;> rfl
    rw [this] at hit; cases hit
  | .opened [] => cases hit
  | .opened [c] => cases hit
  | .opened [c, i] => cases hit
  | .opened [c, i, lo] =>
    obtain ⟨hst, hen, hs, hh, hc, hi, hl⟩ := ha
    by_cases h2 : 2048 < lo.toNat + 256 * b.toNat
    · have e : rxStep (.opened [c, i, lo]) b = (.idle b, some .tooLong) := by
        simp only [rxStep, List.cons_append, List.nil_append]; rw [if_pos h2]
      rw [e] at hit; cases hit
    · have e : (rxStep (.opened [c, i, lo]) b).2 = none := by
        simp only [rxStep, List.cons_append, List.nil_append]; rw [if_neg h2]
        split
        · rfl
        · rw [if_neg (by simp)]
      rw [e] at hit; cases hit
  | .opened (c :: i :: lo :: hi :: p) =>
    obtain ⟨hst, hen, hc, hi', hl, hle, hcase⟩ := ha
    rcases hcase with ⟨h0, hs, hh⟩ | ⟨hpl, hs, hh, hp⟩ | ⟨h0, hpl, hs, hp⟩ | ⟨h0, hpl, hs, hp⟩
    · have e : rxStep (.opened (c :: i :: lo :: hi :: p)) b = (.opened (c :: i :: lo :: hi :: (p ++ [b])), none) := by
        simp only [rxStep, List.cons_append]; rw [if_neg (by omega), if_pos (by omega)]
      rw [e] at hit; cases hit
    · have e : rxStep (.opened (c :: i :: lo :: hi :: p)) b = (.opened (c :: i :: lo :: hi :: (p ++ [b])), none) := by
        simp only [rxStep, List.cons_append]
        rw [if_neg (by omega), if_neg (by omega), if_neg (by simp; omega)]
      rw [e] at hit; cases hit
    · have e : rxStep (.opened (c :: i :: lo :: hi :: p)) b = (.opened (c :: i :: lo :: hi :: (p ++ [b])), none) := by
        simp only [rxStep, List.cons_append]
        rw [if_neg (by omega), if_neg (by omega), if_neg (by simp; omega)]
      rw [e] at hit; cases hit
    · unfold readCb at h
      simp only [hs] at h
      unfold afterSwitch at h
      rw [if_pos rfl] at h
      have hbody : u.inMsg.take u.length = p.take u.length := by
        rw [← hp, List.take_append_of_le_length (by simp; omega), List.take_take, Nat.min_self]
      have hd : p = p.take u.length ++ [u.ckA] := by rw [← hbody]; exact hp.symm
      have hlp : (p.take u.length).length = u.length := by simp; omega
      have eD : ∀ (v : Ubx), v.inMsg = u.inMsg → v.cls = c → v.typ = i → v.length = u.length →
          calcChecksum v.cls v.typ v.length v.inMsg =
            .ok (fletcherA (c :: i :: lo :: hi :: p.take u.length),
                 fletcherB (c :: i :: lo :: hi :: p.take u.length)) := by
        intro v h1 h2 h3 h4
        rw [h1, h2, h3, h4, calcChecksum_ok c i lo hi u.length u.inMsg (by omega) hl, hbody]
      have e : rxStep (.opened (c :: i :: lo :: hi :: p)) b = (.idle b, some
          (if u.ckA = fletcherA (c :: i :: lo :: hi :: p.take u.length) ∧
              b = fletcherB (c :: i :: lo :: hi :: p.take u.length)
           then .good c i (p.take u.length) else .badChecksum)) := by
        simp only [rxStep, List.cons_append]
        rw [if_neg (by omega), if_neg (by omega), if_pos (by simp; omega), ← hl]
        have t1 : (p ++ [b]).take u.length = p.take u.length := List.take_append_of_le_length (by omega)
        have t2 : (p ++ [b]).drop u.length = [u.ckA, b] := by
          rw [hd]
          generalize p.take u.length = q at *
          rw [List.append_assoc, ← hlp, List.drop_left]; rfl
        rw [t1, t2]
        simp
      rw [e] at hit
      clear hp
      have hin : u.inMsg.take (p.take u.length).length = p.take u.length := by rw [hlp]; exact hbody
      generalize hq : p.take u.length = q at *
      obtain ⟨⟨v, ok, ds'⟩, hdec, h⟩ := bind_ok.1 h
      unfold decodeMessage at hdec
      rw [eD _ rfl hc hi' rfl] at hdec
      simp only [ok_bind] at hdec
      split at hdec
      · rename_i hbad
        rw [if_neg (by rintro ⟨h1, h2⟩; simp [h1, h2] at hbad)] at hit
        cases hit
      · rename_i hgood
        obtain ⟨w, hw, hdec⟩ := bind_ok.1 hdec
        cases hdec
        simp only [if_true, Except.ok.injEq, Prod.mk.injEq] at h
        obtain ⟨rfl, rfl, rfl⟩ := h
        have hg := not_or.1 hgood
        rw [if_pos ⟨(Decidable.of_not_not hg.1).symm, (Decidable.of_not_not hg.2).symm⟩] at hit
        simp only [Option.some.injEq, Item.good.injEq] at hit
        obtain ⟨rfl, rfl, rfl⟩ := hit
        unfold handleMessage at hw
        dsimp only at hw
        rw [hc, hi', if_neg (by decide), if_pos (by decide), if_pos (by decide)] at hw
        refine ⟨_, v, ?_, ?_, hw, rfl, rfl, rfl⟩
        · exact hin
        · exact w3

theorem reports_append (a b : List Item) : reports (a ++ b) = reports a ++ reports b := List.filterMap_append ..

/-- **C149.** For every history of received bytes, calls and registrations: if the last good version report received says
version `maj.min` and module `name`, then this is what the driver knows, whatever was received before it and after it. -/
theorem c149_known {u : Ubx} {hist : List Byte} (h : Reach u hist) (p maj min name : List Byte)
    (hlast : (reports (scan 0 hist).1).getLast? = some p) (ht : Tells p maj min name) :
    u.major = decVal maj ∧ u.minor = decVal min ∧ u.modName.takeWhile (· ≠ 0) = name := by
  rw [scan_zero] at hlast
  dsimp only at hlast
  induction h with
  | init a b c ma mi h1 h2 h3 => cases hlast
  | @byte u u' hist b r ds hu hr ih =>
    obtain ⟨-, hs⟩ := readCb_sim hu.inv.wf hu.inv.abs hr
    rw [itemsOf_snoc, reports_append] at hlast
    by_cases hg : ∃ q, (rxStep (tailOf hist) b).2 = some (.good 0x0A 0x04 q)
    · obtain ⟨q, hq⟩ := hg
      obtain ⟨v, w, hv, hm, hcb, e1, e2, e3⟩ := version_good hu.inv.wf hu.inv.abs hr hq
      have : reports (some (Item.good 0x0A 0x04 q)).toList = [q] := rfl
      rw [hq, this, List.getLast?_append] at hlast
      obtain rfl : q = p := by simpa using hlast
      obtain ⟨rp, a, b', rfl, hf, h7, ha, hb, hsay⟩ := ht
      have hvt := versionText hf hsay ha hb v.inMsg (.inl h7)
      have hvt : VersionText v.inMsg (3 * a) (3 * b') maj min name := by
        have e : v.inMsg = rp.payload ++ v.inMsg.drop rp.payload.length := by
          conv_lhs => rw [← List.take_append_drop rp.payload.length v.inMsg, hv]
        rw [e]; exact hvt
      rw [versionCb_text v hvt hm] at hcb
      have hw := Except.ok.inj hcb
      rw [← hw] at e1 e2 e3
      refine ⟨e1, e2, ?_⟩
      rw [e3]
      dsimp only
      rw [List.append_assoc, List.takeWhile_append_of_pos fun d hd => by simpa using hvt.nameZ d hd]
      simp
    · have hk := hs.verKeep fun q hq => hg ⟨q, hq⟩
      have hn : reports (rxStep (tailOf hist) b).2.toList = [] := by
        generalize (rxStep (tailOf hist) b).2 = it at hg
        match it with
        | none => rfl
        | some .badChecksum => rfl
        | some .tooLong => rfl
        | some (.good c i q) =>
          have : ¬ (c = 0x0A ∧ i = 0x04) := by rintro ⟨rfl, rfl⟩; exact hg ⟨q, rfl⟩
          simp [reports]
          exact fun h1 h2 => this ⟨h1, h2⟩
      rw [hn, List.append_nil] at hlast
      obtain ⟨i1, i2, i3⟩ := ih hlast
      exact ⟨hk.1.trans i1, hk.2.1.trans i2, by rw [hk.2.2]; exact i3⟩
  | register _ _ ih => exact ih hlast
  | subscribe _ _ _ _ ih => exact ih hlast
  | @command u u' hist w c hu hr ih =>
    obtain ⟨o, g, w', ho, e⟩ := run_shape c u hu.inv.wf.2
    rw [e] at hr
    cases hr
    exact ih hlast
  | clearAck _ ih => exact ih hlast

/-- **C149, commands.** Every configuration call then writes the messages of that protocol version. -/
theorem c149_commands {u : Ubx} {hist : List Byte} (h : Reach u hist) (p maj min name : List Byte)
    (hlast : (reports (scan 0 hist).1).getLast? = some p) (ht : Tells p maj min name) (c : Command)
    (hc : c ≠ .startSurveyIn) : ∃ u', c.run u = .ok (u', wireBytes (expectedMessages (decVal maj) c)) := by
  obtain ⟨u', e⟩ := c21_partial h.inv.wf.outLen c hc
  rw [(c149_known h p maj min name hlast ht).1] at e
  exact ⟨u', e⟩

end Ublox.Ubx

namespace Ublox.Dev
open Ubx MonVer
open Nav (Nav NavCall Mode Sfrbx NavOp)

theorem reports_nil {its : List Item} : reports its = [] ↔ ∀ p, Item.good 0x0A 0x04 p ∉ its := by
  unfold reports
  rw [List.filterMap_eq_nil_iff]
  constructor
  · intro h p hp; have := h _ hp; simp at this
  · intro h it hit
    match it with
    | .badChecksum => rfl
    | .tooLong => rfl
    | .good c i q =>
      have : ¬ (c = 0x0A ∧ i = 0x04) := by rintro ⟨rfl, rfl⟩; exact h q hit
      simp
      exact fun h1 h2 => this ⟨h1, h2⟩

/-- **C149, constructor.** A constructor that returns has received a version report; if the last one says version
`maj.min`, the receiver is configured with the messages of that version. -/
theorem c149_setup {md : Mode} {u : Ubx} {r g : Rtcm} {ss : List Ubx.Sched} {d : Dev} {es : List Eff}
    (hu : FreshUbx u) (hr : FreshRtcm r) (hg : FreshRtcm g)
    (h : construct md (start u r g) ss = .ok (some (some d, es))) :
    ∃ p, (reports (scan 0 (ctorBytes ss)).1).getLast? = some p ∧ ∀ maj min name, Tells p maj min name →
      es = List.replicate ss.length (.toReceiver (ubxFrame 0x0A 0x04 [])) ++
        [.toReceiver (wireBytes (setupMessages (decVal maj)))] := by
  obtain ⟨h1, -, -, h4⟩ := c19_constructor hu hr hg h
  have hne : reports (scan 0 (ctorBytes ss)).1 ≠ [] := fun hn => by
    have := h1.2 (reports_nil.1 hn); cases this
  obtain ⟨p, hp⟩ := List.getLast?_isSome.2 hne |> Option.isSome_iff_exists.1
  refine ⟨p, hp, fun maj min name ht => ?_⟩
  have t0 := Life.track (md := md) (ss := ss) (evs := []) (d := d) (es := []) ⟨u, r, g, d, es, hu, hr, hg, h, rfl⟩ (by simp)
  have := c149_known t0.reach p maj min name (by simpa using hp) ht
  rw [h4, Option.toList_some, List.map_singleton, this.1]

/-- **C149, life.** At every moment in the life of a device that has not been made a base, the version it knows is that of
the last version report received, during the construction or after it. -/
theorem c149_life {md : Mode} {ss : List Ubx.Sched} {evs : List Ev} {d : Dev} {es : List Eff} (h : Life md ss evs d es)
    (hb : ∀ i s, Ev.configBase i s ∉ evs) : ∃ p, (reports (scan 0 (sentBy ss evs)).1).getLast? = some p ∧
      ∀ maj min name, Tells p maj min name →
        d.ubx.major = decVal maj ∧ d.ubx.minor = decVal min ∧ d.ubx.modName.takeWhile (· ≠ 0) = name := by
  have t0 := h.track hb
  have hx : heardIn = rxOf := funext fun e => by cases e <;> rfl
  unfold sentBy
  rw [hx]
  obtain ⟨u, r, g, d0, e0, hu, hr, hg, hc, -⟩ := h
  obtain ⟨q, hq, -⟩ := c149_setup hu hr hg hc
  have hne : reports (scan 0 (ctorBytes ss ++ evs.flatMap rxOf)).1 ≠ [] := by
    rw [Ubx.scan_append, reports_append]
    intro hn
    rw [(List.append_eq_nil_iff.1 hn).1] at hq
    cases hq
  obtain ⟨p, hp⟩ := List.getLast?_isSome.2 hne |> Option.isSome_iff_exists.1
  exact ⟨p, hp, fun maj min name ht => c149_known t0.reach p maj min name hp ht⟩

/-- A report with seven extension fields. -/
def exSeven : Report := { exReport with ext := exReport.ext ++ [txt "SBAS"] }

theorem exSeven_tells : Tells exSeven.payload (txt "27") (txt "11") (txt "ZED-F9P") := by
  refine ⟨exSeven, 2, 3, rfl, ⟨by decide +kernel, by decide +kernel, by decide +kernel⟩, by decide +kernel, by decide,
    by decide, by decide +kernel, by decide +kernel, only_of (by decide +kernel), only_of (by decide +kernel), ?_, ?_, ?_⟩
  · unfold Number; decide +kernel
  · unfold Number; decide +kernel
  · unfold Name; decide +kernel

def exSeven_sched : Ubx.Sched := ⟨[], [([], 3), (ubxFrame 0x0A 0x04 exSeven.payload, 5)], []⟩

/-- A receiver of protocol version 27 is found and configured with the messages of the new protocol; the first of them
is a CFG-VALSET. -/
example : ∃ d es, construct .strict exStart [exSeven_sched] = .ok (some (some d, es)) ∧
    es = [.toReceiver (ubxFrame 0x0A 0x04 []), .toReceiver (wireBytes (setupMessages 27))] ∧
    (setupMessages 27).head?.map (fun m => (m.1, m.2.1)) = some (0x06, 0x8A) := by
  have hr : (match construct .strict exStart [exSeven_sched] with
      | .ok (some (some _, _)) => true
      | _ => false) = true := by decide +kernel
  split at hr
  · rename_i d es e
    obtain ⟨p, hp, h⟩ := c149_setup (md := .strict)
      (u := Ubx.init (List.replicate 2048 0) (List.replicate 2048 0) (List.replicate 10 0) 0 0)
      ⟨_, _, _, _, _, List.length_replicate, List.length_replicate, List.length_replicate, rfl⟩
      (r := Rtcm.init (List.replicate 1024 0) 0 0 0) ⟨_, _, _, _, List.length_replicate, rfl⟩
      (g := Rtcm.init (List.replicate 1024 0) 0 0 0) ⟨_, _, _, _, List.length_replicate, rfl⟩ e
    have hp' : (reports (scan 0 (ctorBytes [exSeven_sched])).1).getLast? = some exSeven.payload := by decide +kernel
    rw [hp'] at hp
    obtain rfl := Option.some.inj hp
    refine ⟨d, es, e, ?_, by decide +kernel⟩
    rw [h _ _ _ exSeven_tells, show ((decVal (txt "27") : Nat) : Int) = 27 by decide +kernel]
    rfl
  · cases hr

end Ublox.Dev
