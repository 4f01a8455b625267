import Verif.Props.Harmless
import Verif.Props.BaseLife
import Verif.Lemmas.DemuxPart
import Verif.Props.NavInputGps
/-! # C150: a base that receives harmless data -/

namespace Ublox.Dev
open Ubx MonVer
open Nav (Nav NavCall Mode Sfrbx NavOp)
open Rtcm (RTail REvent rtStep rtRun)

theorem dStep_completes {t : Tail} {r : RTail} {b : Byte} {it : Item} (hg : (dStep true t r b).2.2.1 = some it) : uOpen t = true := by
  cases t with
  | opened x => rfl
  | idle x =>
    exfalso
    unfold dStep at hg
    simp only [uOpen, Bool.false_eq_true, if_false] at hg
    split at hg
    · cases hg
    · simp only [rxStep] at hg; split at hg <;> cases hg

theorem demux_good {prev : Byte} {s : List Byte} {b c i : Byte} {p : List Byte}
    (hg : (dStep true (dRun true (.idle prev) .idle s).1 (dRun true (.idle prev) .idle s).2.1 b).2.2.1 = some (.good c i p)) :
    (demux prev (s ++ [b])).1 = (demux prev s).1 ++ [.ubx c i p] := by
  have hopen := dStep_completes hg
  rw [← (demux_eq prev s).2.2, ← (demux_eq prev (s ++ [b])).2.2, dRun_append, msgs_append]
  congr 1
  have hnone : (dStep true (dRun true (.idle prev) .idle s).1 (dRun true (.idle prev) .idle s).2.1 b).2.2.2 = none := by
    unfold dStep; rw [if_pos hopen]
  simp only [dRun, msgs, hg, hnone]
  rfl

theorem demux_left (prev : Byte) (s t : List Byte) : ∃ x, (demux prev (s ++ t)).1 = (demux prev s).1 ++ x :=
  ⟨_, by rw [← (demux_eq prev s).2.2, ← (demux_eq prev (s ++ t)).2.2, dRun_append, msgs_append]⟩

theorem HarmlessMixed.left {prev : Byte} {s t : List Byte} (h : HarmlessMixed prev (s ++ t)) : HarmlessMixed prev s := by
  obtain ⟨x, hx⟩ := demux_left prev s t
  refine ⟨fun p hp => h.versions p (by rw [hx]; exact List.mem_append_left _ hp), fun p hp => h.navs p (by rw [hx]; exact List.mem_append_left _ hp), ?_⟩
  intro k b1 b2 rest hk
  refine h.rtcm (min k s.length) b1 b2 rest ?_
  rw [List.take_append_of_le_length (by omega), ← hk]
  congr 2
  rcases Nat.le_total k s.length with hl | hl
  · rw [Nat.min_eq_left hl]
  · rw [Nat.min_eq_right hl, List.take_length, List.take_of_length_le hl]

/-- What is needed of a mixed stream after the navigation messages `old`: good version reports tell a version, no RTCM frame is
over-long, and a decoder that is told these and the old navigation messages, in any order and any number, is defined. -/
structure TameMixed (md : Mode) (old : List Byte → Prop) (prev : Byte) (s : List Byte) : Prop where
  versions : ∀ p, Msg.ubx 0x0A 0x04 p ∈ (demux prev s).1 → ∃ maj min name, Tells p maj min name
  navs : ∀ ins ops, List.Forall₂ SameIn ins ops →
    (∀ p, NavIn.sfrbx p ∈ ins → old p ∨ Msg.ubx 0x02 0x13 p ∈ (demux prev s).1) → ∃ r, Nav.init.run md ops = .ok r
  rtcm : ∀ k b1 b2 rest, (demux prev (s.take k)).2 = .rtcm (0xD3 :: b1 :: b2 :: rest) → rtcmLen b1 b2 ≤ 1018

theorem TameMixed.left {md : Mode} {old : List Byte → Prop} {prev : Byte} {s t : List Byte} (h : TameMixed md old prev (s ++ t)) :
    TameMixed md old prev s := by
  obtain ⟨x, hx⟩ := demux_left prev s t
  refine ⟨fun p hp => h.versions p (by rw [hx]; exact List.mem_append_left _ hp), fun ins ops f hp => h.navs ins ops f fun p hi =>
    (hp p hi).imp_right fun hm => by rw [hx]; exact List.mem_append_left _ hm, ?_⟩
  intro k b1 b2 rest hk
  refine h.rtcm (min k s.length) b1 b2 rest ?_
  rw [List.take_append_of_le_length (by omega), ← hk]
  congr 2
  rcases Nat.le_total k s.length with hl | hl
  · rw [Nat.min_eq_left hl]
  · rw [Nat.min_eq_right hl, List.take_length, List.take_of_length_le hl]

theorem HarmlessMixed.tame {prev : Byte} {s : List Byte} (h : HarmlessMixed prev s) (md : Mode) :
    TameMixed md (fun p => p.head? = some 0) prev s := by
  refine ⟨h.versions, fun ins ops f hp => ?_, h.rtcm⟩
  have key : ∀ op ∈ ops, op.WF ∧ ∀ j m, op = .sfrbx j m → m.gnssId = 0 := by
    have hgps := h.navs
    intro op hop
    obtain ⟨a, ha, hs⟩ := forall2_mem f hop
    refine ⟨sameIn_wf hs, fun j m e => ?_⟩
    cases hs with
    | sfrbx p buf hl hb =>
      cases e
      exact gnss_zero ((hp p ha).elim id (hgps p)) hb
    | eph => cases e
    | geph => cases e
  exact gps_total md ops (fun op h => (key op h).1) fun j m hm => (key _ hm).2 j m rfl

/-- A base that has received the stream `hist`, after the navigation messages `old`. -/
structure BCalm (md : Mode) (old : List Byte → Prop) (n0 : Nav) (prev : Byte) (d : Dev) (evs : List Ev) (hist : List Byte) : Prop where
  track : ∃ ins effs, BTrack md n0 true prev .idle d evs hist ins effs ∧
    ∀ p, NavIn.sfrbx p ∈ ins → Msg.ubx 0x02 0x13 p ∈ (demux prev hist).1
  first : ∃ ins ops cs, List.Forall₂ SameIn ins ops ∧ (∀ p, NavIn.sfrbx p ∈ ins → old p) ∧ Nav.init.run md ops = .ok (n0, cs)

theorem new_ins {prev : Byte} {hist s : List Byte} {ins : List NavIn}
    (hi : ∀ p, NavIn.sfrbx p ∈ ins → Msg.ubx 0x02 0x13 p ∈ (demux prev hist).1) :
    ∀ p, NavIn.sfrbx p ∈ ins ++ ((newly (mixed prev) hist s).filterMap Msg.sfrbx?).map .sfrbx →
      Msg.ubx 0x02 0x13 p ∈ (demux prev (hist ++ s)).1 := by
  intro p hp
  rcases List.mem_append.1 hp with hp | hp
  · obtain ⟨x, hx⟩ := demux_left prev hist s
    rw [hx]; exact List.mem_append_left _ (hi p hp)
  · obtain ⟨q, hq, e⟩ := List.mem_map.1 hp
    cases e
    obtain ⟨m, hm, e⟩ := List.mem_filterMap.1 hq
    have hm' : m ∈ (demux prev (hist ++ s)).1 := List.mem_of_mem_drop hm
    cases m with
    | rtcm f => cases e
    | ubx c i q' =>
      unfold Msg.sfrbx? at e
      dsimp only at e
      split at e
      · rename_i hc
        obtain ⟨rfl, rfl⟩ := hc
        cases e
        exact hm'
      · cases e

theorem BCalm.more {md : Mode} {old : List Byte → Prop} {n0 : Nav} {prev : Byte} {d d' : Dev} {evs : List Ev} {hist s : List Byte} {es : List Eff}
    (h : BCalm md old n0 prev d evs hist) (hr : Dev.readCb md d s = .ok (d', es)) : BCalm md old n0 prev d' evs (hist ++ s) := by
  obtain ⟨ins, effs, t, hi⟩ := h.track
  exact ⟨⟨_, _, t.readCb hr, new_ins hi⟩, h.first⟩

theorem BCalm.byte_total {md : Mode} {old : List Byte → Prop} {n0 : Nav} {prev : Byte} {d : Dev} {evs : List Ev} {hist : List Byte} {b : Byte}
    (h : BCalm md old n0 prev d evs hist) (hs : TameMixed md old prev (hist ++ [b])) : ∃ d' es, Dev.readCb md d [b] = .ok (d', es) := by
  obtain ⟨ins, effs, t, hi⟩ := h.track
  obtain ⟨hh, hreach⟩ := t.inv.ubx
  have ha := t.abs
  have hrole := t.role
  cases hx : Dev.readCb md d [b] with
  | ok q => exact ⟨q.1, q.2, rfl⟩
  | error e =>
    exfalso
    rw [Dev.readCb_cons, bind_err] at hx
    rcases hx with hx | ⟨_, -, hx⟩
    · rcases rxByte_err ha hx with ⟨-, p, hp0, hp⟩ | ⟨p, msg, hp0, hp, hl, hm, hn⟩ | ⟨-, -, bs, hbs, hl⟩
      · rw [hrole] at hp0
        obtain ⟨maj, min, name, ht⟩ := hs.versions p (by rw [demux_good hp0]; simp)
        obtain ⟨⟨u', r, ds⟩, hq⟩ := version_total hreach.inv.wf ha.ubx hp ht
        have ho := dStep_completes hp0
        unfold Dev.rxByte at hx
        rw [uOpen_iff ha.ubx, if_pos ho] at hx
        unfold rxUbx at hx
        rw [hq, ok_bind] at hx
        dsimp only at hx
        obtain ⟨-, hsim⟩ := Ubx.readCb_sim hreach.inv.wf ha.ubx hq
        obtain ⟨msg, -, -, m3⟩ := hsim.calls _ _ p hp
        rw [m3, deliver_eq md t.inv.wired, bind_err] at hx
        rcases hx with hx | ⟨_, _, hx⟩
        · unfold ubxEffs at hx
          rw [if_neg (by decide)] at hx
          cases hx
        · cases hx
      · rw [hrole] at hp0
        obtain ⟨ops, cs, f, w, r, -⟩ := t.nav
        obtain ⟨ins0, ops0, cs0, f0, o0, r0⟩ := h.first
        obtain ⟨q, hq⟩ : ∃ q, d.nav.step md (.sfrbx (List.replicate 30 0) (Sfrbx.ofBuffer msg)) = .ok q := by
          obtain ⟨q, hq⟩ := hs.navs ((ins0 ++ ins) ++ [.sfrbx p]) ((ops0 ++ ops) ++ [.sfrbx (List.replicate 30 0) (Sfrbx.ofBuffer msg)])
            (forall2_snoc (List.rel_append f0 f) (.sfrbx p msg hl hm)) (fun x hx => by
              rcases List.mem_append.1 hx with hx | hx
              · rcases List.mem_append.1 hx with hx | hx
                · exact .inl (o0 x hx)
                · obtain ⟨y, hy⟩ := demux_left prev hist [b]
                  exact .inr (by rw [hy]; exact List.mem_append_left _ (hi x hx))
              · rw [NavIn.sfrbx.inj (List.mem_singleton.1 hx)]
                exact .inr (by rw [demux_good hp0]; simp))
          obtain ⟨n1, c1, c2, r1, r2, -⟩ := Nav.run_append.1 hq
          rw [Nav.run_append.mpr ⟨_, _, _, r0, r, rfl⟩] at r1
          obtain ⟨e1, -⟩ := Prod.mk.inj (Except.ok.inj r1)
          rw [← e1] at r2
          obtain ⟨n2, c, cs', r3, -, -⟩ := Nav.run_cons.1 r2
          exact ⟨_, r3⟩
        have hn' : d.nav.step md (.sfrbx (List.replicate 30 0) (Sfrbx.ofBuffer msg)) = .error e := hn
        rw [hq] at hn'
        cases hn'
      · obtain ⟨-, k2, -⟩ := demux_eq prev hist
        have habs := ha.rtcm
        rw [hbs] at habs
        rw [k2] at hbs
        have h6 := habs.2.2.2.2.2
        match bs, hl, h6 with
        | [x], hl, _ => simp at hl
        | [x, y], hl, _ => simp at hl
        | x :: b1 :: b2 :: rest, hl, ⟨hx, _, _, h6⟩ =>
          subst hx
          have hd : (demux prev hist).2 = .rtcm (0xD3 :: b1 :: b2 :: rest) := by
            cases hm : (demux prev hist).2 with
            | idle l => rw [hm] at hbs; cases hbs
            | ubx l => rw [hm] at hbs; cases hbs
            | rtcm l => rw [hm] at hbs; cases hbs; rfl
          have := hs.left.rtcm hist.length b1 b2 rest (by rw [List.take_length]; exact hd)
          simp only [List.length_cons] at hl
          omega
    · cases hx

theorem BCalm.read {md : Mode} {old : List Byte → Prop} {n0 : Nav} {prev : Byte} {evs : List Ev} : ∀ {s hist : List Byte} {d : Dev},
    BCalm md old n0 prev d evs hist → TameMixed md old prev (hist ++ s) → ∃ d' es, Dev.readCb md d s = .ok (d', es) := by
  intro s
  induction s with
  | nil => intro hist d h _; exact ⟨d, [], rfl⟩
  | cons b bs ih =>
    intro hist d h hs
    have hs' : TameMixed md old prev ((hist ++ [b]) ++ bs) := by simpa using hs
    obtain ⟨d1, e1, h1⟩ := h.byte_total hs'.left
    obtain ⟨d2, e2, h2⟩ := ih (h.more h1) hs'
    refine ⟨d2, e1 ++ e2, ?_⟩
    have : b :: bs = [b] ++ bs := rfl
    rw [this, Dev.readCb_append, h1, ok_bind]
    dsimp only
    rw [h2]; rfl

theorem BCalm.run {md : Mode} {old : List Byte → Prop} {n0 : Nav} {prev : Byte} : ∀ {evs' evs : List Ev} {d : Dev} {hist : List Byte} {es0 : List Eff},
    BCalm md old n0 prev d evs hist → Reach md d evs es0 → StaysBase evs' → TameMixed md old prev (hist ++ evs'.flatMap rxOf) →
    (∀ j b, Ev.rtkRx j b ∈ evs' → ¬ RoverOn evs j) → ∃ d' es, d.run md evs' = .ok (d', es) := by
  intro evs'
  induction evs' with
  | nil => intro evs d hist es0 _ _ _ _ _; exact ⟨_, _, rfl⟩
  | cons e rest ih =>
    intro evs d hist es0 h hreach hb hs hk
    rw [List.flatMap_cons, ← List.append_assoc] at hs
    obtain ⟨d1, e1, h1⟩ : ∃ d1 e1, d.step md e = .ok (d1, e1) := by
      by_cases hrx : ∃ b, e = .rx b
      · obtain ⟨b, rfl⟩ := hrx
        exact h.read hs.left
      · by_cases hrt : ∃ j b, e = .rtkRx j b
        · obtain ⟨j, b, rfl⟩ := hrt
          refine ⟨d, [], ?_⟩
          unfold Dev.step Dev.rtkRx
          dsimp only
          rw [if_neg]
          intro hm
          exact hk j b (by simp) ((hreach.inv.fwd j).1 hm)
        · exact c70_calls hreach e (fun b he => hrx ⟨b, he⟩) (fun j b he => hrt ⟨j, b, he⟩)
    obtain ⟨ins, effs, t, hi⟩ := h.track
    have hstay : StaysBase [e] := fun i hm => hb i (List.mem_singleton.1 hm ▸ List.mem_cons_self)
    have k := t.step hstay.keeps h1
    have k' : BCalm md old n0 prev d1 (evs ++ [e]) (hist ++ rxOf e) := by
      refine ⟨⟨_, _, k, ?_⟩, h.first⟩
      cases e with
      | rx b =>
        have := new_ins (s := b) hi
        simpa [insBy, splitOf, rxOf] using this
      | _ => simpa [insBy, rxOf] using hi
    obtain ⟨d2, e2, h2⟩ := ih k' (hreach.snoc h1) (fun i hm => hb i (by simp [hm])) hs (by
      intro j b hm hR
      refine hk j b (by simp [hm]) ?_
      rcases List.mem_append.1 hR with hR | hR
      · exact hR
      · exact absurd hR (hstay j))
    refine ⟨d2, e1 ++ e2, ?_⟩
    unfold Dev.run
    rw [h1, ok_bind]
    dsimp only
    rw [h2]; rfl

/-- A device is made a base between two messages.  While its receiver sends a tame mixture of UBX and RTCM messages (and nothing arrives on an interface on
which it had been a rover), it never runs into undefined behaviour: it reaches the end of every such stage of its life. -/
theorem tame_base {md : Mode} {evs evs' : List Ev} {d : Dev} {ins : List NavIn} {es : List Eff} (h : Course md evs d ins es)
    {old : List Byte → Prop} (hold : ∀ p, NavIn.sfrbx p ∈ ins → old p) (hu : d.ubx.parsingMessage = false)
    (hr : d.rtcm.parsingMessage = false) (i : Nat) (st : Bool) (hb : StaysBase evs')
    (hs : TameMixed md old d.ubx.prev (received evs')) (hk : ∀ j b, Ev.rtkRx j b ∈ evs' → ¬ RoverOn evs j) :
    ∃ d' es', run md d (.configBase i st :: evs') = .ok (d', es') ∧
      Course md (evs ++ .configBase i st :: evs') d' (ins ++ insBy (mixed d.ubx.prev) [] evs') (es ++ es') := by
  have hreach := h.reach
  obtain ⟨ops, cs, f, hrun, -⟩ := c146 h
  obtain ⟨hh, hr1⟩ := hreach.inv.ubx
  obtain ⟨o, g, w, -, -, e⟩ := command_ok (d := { d with role := .base, rtk := some i, rtcm := d.rtcm.registerListener 0 })
    (baseCommands st) hr1.inv.wf.outLen
  obtain ⟨d1, e1, h1, p1, p2, p3, p4⟩ : ∃ d1 e1, d.step md (.configBase i st) = .ok (d1, e1) ∧ d1.nav = d.nav ∧
      d1.ubx.parsingMessage = d.ubx.parsingMessage ∧ d1.rtcm.parsingMessage = d.rtcm.parsingMessage ∧ d1.ubx.prev = d.ubx.prev := by
    unfold Dev.step Dev.configBase
    dsimp only
    rw [e]
    exact ⟨_, _, rfl, rfl, rfl, rfl, rfl⟩
  have hreach1 := hreach.snoc h1
  have hconf : (configured (evs ++ [.configBase i st])).1 = .base := by rw [configured_snoc]
  have t := BTrack.start hreach1 hconf (p2.trans hu) (p3.trans hr)
  have hc : BCalm md old d1.nav d1.ubx.prev d1 (evs ++ [.configBase i st]) [] :=
    ⟨⟨_, _, t, fun p hp => by cases hp⟩, ins, ops, cs, f, hold, by rw [p1]; exact hrun⟩
  obtain ⟨d', es', h2⟩ := hc.run hreach1 hb (by rw [List.nil_append, rxOf_received, p4]; exact hs) (by
    intro j b hm hR
    rcases List.mem_append.1 hR with hR | hR
    · exact hk j b hm hR
    · cases List.mem_singleton.1 hR)
  have hall : run md d (.configBase i st :: evs') = .ok (d', e1 ++ es') := by
    unfold Dev.run
    rw [h1, ok_bind]
    dsimp only
    rw [h2]; rfl
  exact ⟨d', _, hall, .stage h (.base hu hr hb hall)⟩

/-- **C150, base.** A device that has been told GPS navigation messages only so far, in whatever roles, is made a base between
two messages.  While its receiver sends a harmless mixture of UBX and RTCM messages (and nothing arrives on an interface on
which it had been a rover), it never runs into undefined behaviour: it reaches the end of every such stage of its life. -/
theorem c150_base {md : Mode} {evs evs' : List Ev} {d : Dev} {ins : List NavIn} {es : List Eff} (h : Course md evs d ins es)
    (hgps : ∀ p, NavIn.sfrbx p ∈ ins → p.head? = some 0) (hu : d.ubx.parsingMessage = false)
    (hr : d.rtcm.parsingMessage = false) (i : Nat) (st : Bool) (hb : StaysBase evs')
    (hs : HarmlessMixed d.ubx.prev (received evs')) (hk : ∀ j b, Ev.rtkRx j b ∈ evs' → ¬ RoverOn evs j) :
    ∃ d' es', run md d (.configBase i st :: evs') = .ok (d', es') ∧
      Course md (evs ++ .configBase i st :: evs') d' (ins ++ insBy (mixed d.ubx.prev) [] evs') (es ++ es') :=
  tame_base h hgps hu hr i st hb (hs.tame md) hk

/-- Well-formed messages of a receiver with GPS enabled are harmless. -/
theorem harmless_wire (prev : Byte) (ms : List Msg) (hw : ∀ m ∈ ms, m.WF)
    (hv : ∀ p, Msg.ubx 0x0A 0x04 p ∈ ms → ∃ maj min name, Tells p maj min name)
    (hn : ∀ p, Msg.ubx 0x02 0x13 p ∈ ms → p.head? = some 0) : HarmlessMixed prev (wire ms) := by
  refine ⟨?_, ?_, fun k b1 b2 rest h => demux_short ms hw prev k b1 b2 rest h⟩
  · rw [demux_wire' ms hw]; exact hv
  · rw [demux_wire' ms hw]; exact hn

/-- **C150, base, in terms of the messages sent.** In whatever portions the bytes of well-formed messages arrive - UBX payloads
of 1 to 2048 bytes, RTCM frames of 1 to 1018 - a base survives them, when its version reports say a version and its navigation
messages are of GPS satellites. -/
theorem c150_base_messages {md : Mode} {evs evs' : List Ev} {d : Dev} {ins : List NavIn} {es : List Eff}
    (h : Course md evs d ins es) (hgps : ∀ p, NavIn.sfrbx p ∈ ins → p.head? = some 0) (hu : d.ubx.parsingMessage = false)
    (hr : d.rtcm.parsingMessage = false) (i : Nat) (st : Bool) (hb : StaysBase evs')
    {ms : List Msg} (hw : ∀ m ∈ ms, m.WF) (hv : ∀ p, Msg.ubx 0x0A 0x04 p ∈ ms → ∃ maj min name, Tells p maj min name)
    (hn : ∀ p, Msg.ubx 0x02 0x13 p ∈ ms → p.head? = some 0) {n : Nat} (hs : received evs' = (wire ms).take n)
    (hk : ∀ j b, Ev.rtkRx j b ∈ evs' → ¬ RoverOn evs j) :
    ∃ d' es', run md d (.configBase i st :: evs') = .ok (d', es') := by
  have hm := harmless_wire d.ubx.prev ms hw hv hn
  rw [← List.take_append_drop n (wire ms)] at hm
  obtain ⟨d', es', h1, -⟩ := c150_base h hgps hu hr i st hb (by rw [hs]; exact hm.left) hk
  exact ⟨d', es', h1⟩

/-- What a base's receiver sends: positions, corrections, a GPS navigation message, its version once more. -/
def exBaseMsgs : List Msg :=
  exMsgs ++ [.ubx 0x02 0x13 (gpsPayload 7 0 0 0 2 0 (List.replicate 40 1)), .rtcm exFrame, .ubx 0x0A 0x04 exSeven.payload]

theorem exBaseMsgs_wf : ∀ m ∈ exBaseMsgs, m.WF := by
  intro m hm
  rcases List.mem_append.1 hm with hm | hm
  · exact exMsgs_wf m hm
  · simp only [List.mem_cons, List.not_mem_nil, or_false] at hm
    rcases hm with rfl | rfl | rfl
    · exact ⟨by decide, by decide⟩
    · exact ⟨_, Rtcm.exFrame, by decide, by decide⟩
    · exact ⟨by decide +kernel, by decide +kernel⟩

theorem exBaseMsgs_tell : ∀ p, Msg.ubx 0x0A 0x04 p ∈ exBaseMsgs → ∃ maj min name, Tells p maj min name := by
  intro p hm
  have : p = exSeven.payload := by
    simpa [exBaseMsgs, exMsgs] using hm
  exact ⟨_, _, _, this ▸ exSeven_tells⟩

theorem exBaseMsgs_gps : ∀ p, Msg.ubx 0x02 0x13 p ∈ exBaseMsgs → p.head? = some 0 := by
  intro p hm
  have : p = gpsPayload 7 0 0 0 2 0 (List.replicate 40 1) := by
    simpa [exBaseMsgs, exMsgs] using hm
  rw [this]; rfl

/-- A device that was made a base in such a life, and that gets these messages in two portions, the second of them cut off. -/
example : ∃ d d' es es', Course .strict [.ephCb] d [.addEph] es ∧
    run .strict d [.configBase 9 true, .rx ((wire exBaseMsgs).take 20), .listen 3, .rx (((wire exBaseMsgs).drop 20).take 60)] = .ok (d', es') := by
  have h0 : (exRun [.ephCb]).map (fun x => (x.1.ubx.parsingMessage, x.1.rtcm.parsingMessage)) = some (false, false) := by decide +kernel
  have hn : navLife [exSched] [.ephCb] = [.addEph] := by decide +kernel
  cases hx : exRun [.ephCb] with
  | none => rw [hx] at h0; cases h0
  | some x =>
    rw [hx, Option.map_some] at h0
    have hp := Prod.mk.inj (Option.some.inj h0)
    have hc : Course .strict [.ephCb] x.1 [.addEph] x.2 := by
      have := Course.start (exRun_life (d := x.1) (es := x.2) hx) (fun i s hm => by simp at hm)
      rw [hn] at this
      exact this
    obtain ⟨d', es', h⟩ := c150_base_messages hc (fun p hp => by simp at hp) hp.1 hp.2 9 true
      (evs' := [.rx ((wire exBaseMsgs).take 20), .listen 3, .rx (((wire exBaseMsgs).drop 20).take 60)]) (fun i hm => by simp at hm) exBaseMsgs_wf exBaseMsgs_tell
      exBaseMsgs_gps
      (n := 80) (by
        show (wire exBaseMsgs).take 20 ++ (((wire exBaseMsgs).drop 20).take 60 ++ []) = _
        rw [List.append_nil, show (80 : Nat) = 20 + 60 from rfl, List.take_add])
      (fun j b hm => by simp at hm)
    exact ⟨x.1, d', x.2, es', hc, h⟩

end Ublox.Dev
