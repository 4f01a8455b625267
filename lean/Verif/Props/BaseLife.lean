import Verif.Spec.BaseLife
import Verif.Props.NavInput
import Verif.Props.ResyncDevice

/-!
# C146: a base station over its whole life
-/

namespace Ublox
namespace Dev

open Nav (Nav NavCall Mode Sfrbx NavOp)
open Rtcm (RTail REvent rtStep rtRun)

theorem sfrbxOf_eq (ms : List Msg) : ms.filterMap Msg.sfrbx? = sfrbxOf ms := by
  unfold sfrbxOf
  refine List.filterMap_congr fun m _ => ?_
  cases m <;> rfl

theorem newly_mixed (prev : Byte) (old new : List Byte) :
    newly (mixed prev) old new =
      msgs (dRun true (dRun true (.idle prev) .idle old).1 (dRun true (.idle prev) .idle old).2.1 new).2.2 := by
  unfold newly mixed
  rw [← (demux_eq prev (old ++ new)).2.2, ← (demux_eq prev old).2.2, dRun_append, msgs_append, List.drop_left]

theorem plain_eq (prev : Byte) (s : List Byte) : plain prev s = goodMsgs ((rxRun (.idle prev) s).2.filterMap id) := by
  unfold plain goodMsgs
  rw [scan_eq_rxRun]
  rfl

theorem plain_msgs (prev : Byte) (r : RTail) (s : List Byte) :
    (msgs (dRun false (.idle prev) r s).2.2).filterMap Msg.ubx? = plain prev s := by
  rw [msgs_ubx, (dRun_ubx_all _ r s).2, plain_eq]

theorem newly_plain (prev : Byte) (r : RTail) (old new : List Byte) :
    newly (plain prev) old new =
      (msgs (dRun false (dRun false (.idle prev) r old).1 (dRun false (.idle prev) r old).2.1 new).2.2).filterMap Msg.ubx? := by
  unfold newly
  rw [← plain_msgs prev r (old ++ new), ← plain_msgs prev r old, dRun_append, msgs_append, List.filterMap_append, List.drop_left]

theorem sfrbxOf_ubx (ms : List Msg) : sfrbxOf (ms.filterMap Msg.ubx?) = sfrbxOf ms := by
  unfold sfrbxOf
  rw [List.filterMap_filterMap]
  refine List.filterMap_congr fun m _ => ?_
  cases m <;> rfl

/-- How a device splits the stream. -/
noncomputable def splitOf (base : Bool) (prev : Byte) : List Byte → List Msg := if base then mixed prev else plain prev

/-- A device in a role that was between messages when it had received the byte `prev`, and has received `hist` since; `ins` is
what its decoder was told since, `effs` are the effects since. -/
structure BTrack (md : Mode) (n0 : Nav) (base : Bool) (prev : Byte) (r0 : RTail) (d : Dev) (evs : List Ev) (hist : List Byte)
    (ins : List NavIn) (effs : List Eff) : Prop where
  inv : Inv md d evs
  role : (d.role == .base) = base
  idle : base = true → r0 = .idle
  abs : DAbs d (registered evs) (dRun base (.idle prev) r0 hist).1 (dRun base (.idle prev) r0 hist).2.1
  nav : ∃ ops cs, List.Forall₂ SameIn ins ops ∧ (∀ op ∈ ops, op.WF) ∧ n0.run md ops = .ok (d.nav, cs) ∧
    effs.filterMap Eff.nav? = cs.flatten

theorem BTrack.start {md : Mode} {d : Dev} {evs : List Ev} {es0 : List Eff} (h : Reach md d evs es0)
    (hb : (configured evs).1 = .base) (hu : d.ubx.parsingMessage = false) (hr : d.rtcm.parsingMessage = false) :
    BTrack md d.nav true d.ubx.prev .idle d evs [] [] [] := by
  refine ⟨h.inv, ?_, fun _ => rfl, h.idle hu hr, [], [], .nil, by simp, rfl, rfl⟩
  have := h.inv.role
  rw [← this] at hb
  rw [beq_base]
  exact decide_eq_true hb

theorem BTrack.shows {md : Mode} {n0 : Nav} {base : Bool} {prev : Byte} {r0 : RTail} {d d' : Dev} {evs : List Ev} {hist s : List Byte}
    {ins : List NavIn} {effs es : List Eff} (h : BTrack md n0 base prev r0 d evs hist ins effs) (hr : Dev.readCb md d s = .ok (d', es)) :
    Shows md (recipients evs) (links evs) d.nav (newly (splitOf base prev) hist s) d'.nav es := by
  obtain ⟨-, -, w⟩ := readCb_shows h.abs hr
  rw [h.inv.recipients, h.inv.links, h.role] at w
  cases hb : base with
  | true =>
    have := h.idle hb
    subst this; subst hb
    show Shows md _ _ _ (newly (mixed prev) hist s) _ _
    rw [newly_mixed]
    exact w
  | false =>
    subst hb
    have hl : links evs = [] := by
      rw [← h.inv.links]
      unfold lks
      split
      · rename_i hx _
        have := h.role
        rw [hx] at this; cases this
      · rfl
    show Shows md _ _ _ (newly (plain prev) hist s) _ _
    rw [newly_plain prev r0]
    rw [hl] at w ⊢
    exact w.noLink

theorem BTrack.readCb {md : Mode} {n0 : Nav} {base : Bool} {prev : Byte} {r0 : RTail} {d d' : Dev} {evs : List Ev} {hist s : List Byte}
    {ins : List NavIn} {effs es : List Eff} (h : BTrack md n0 base prev r0 d evs hist ins effs) (hr : Dev.readCb md d s = .ok (d', es)) :
    BTrack md n0 base prev r0 d' evs (hist ++ s) (ins ++ ((newly (splitOf base prev) hist s).filterMap Msg.sfrbx?).map .sfrbx) (effs ++ es) := by
  have w := h.shows hr
  obtain ⟨a, sm, -⟩ := readCb_shows h.abs hr
  rw [h.role] at a
  refine ⟨h.inv.readCb hr, by rw [sm.role]; exact h.role, h.idle, ?_, ?_⟩
  · rw [dRun_append]; exact a
  · obtain ⟨ops2, cs2, a1, a2, a3, a4⟩ := w.track
    obtain ⟨ops, cs, b1, b2, b3, b4⟩ := h.nav
    rw [sfrbxOf_eq]
    refine ⟨ops ++ ops2, cs ++ cs2, List.rel_append b1 a1, ?_, Nav.run_append.mpr ⟨_, _, _, b3, a3, rfl⟩, ?_⟩
    · intro op hop
      rcases List.mem_append.1 hop with hop | hop
      · exact b2 op hop
      · exact a2 op hop
    · rw [List.filterMap_append, a4, b4, List.flatten_append]

theorem BTrack.mute {md : Mode} {n0 : Nav} {base : Bool} {prev : Byte} {r0 : RTail} {d : Dev} {evs : List Ev} {hist : List Byte}
    {ins : List NavIn} {effs es : List Eff} (h : BTrack md n0 base prev r0 d evs hist ins effs) (he : es.filterMap Eff.nav? = []) :
    BTrack md n0 base prev r0 d evs hist ins (effs ++ es) := by
  refine ⟨h.inv, h.role, h.idle, h.abs, ?_⟩
  rw [List.filterMap_append, he, List.append_nil]
  exact h.nav

/-- The role stays what it is. -/
def Keeps (base : Bool) (evs : List Ev) : Prop := (base = true → StaysBase evs) ∧ (base = false → NeverBase evs)

theorem BTrack.step {md : Mode} {n0 : Nav} {base : Bool} {prev : Byte} {r0 : RTail} {d d' : Dev} {evs : List Ev} {e : Ev} {es effs : List Eff}
    {hist : List Byte} {ins : List NavIn} (h : BTrack md n0 base prev r0 d evs hist ins effs) (hb : Keeps base [e])
    (hr : d.step md e = .ok (d', es)) :
    BTrack md n0 base prev r0 d' (evs ++ [e]) (hist ++ rxOf e) (ins ++ insBy (splitOf base prev) hist [e]) (effs ++ es) := by
  have i := h.inv.step hr
  have hw := i.wired
  obtain ⟨-, hu, ht⟩ := h.abs
  cases e with
  | rx buf =>
    have k := h.readCb hr
    refine ⟨i, k.role, k.idle, ⟨hw, k.abs.ubx, k.abs.rtcm⟩, ?_⟩
    simp only [insBy, List.append_nil]
    exact k.nav
  | rtkRx j buf =>
    unfold Dev.step Dev.rtkRx at hr
    dsimp only at hr
    simp only [insBy, rxOf, List.append_nil]
    split at hr
    · rw [bind_ok] at hr
      obtain ⟨⟨g, x⟩, h1, hr⟩ := hr
      cases hr
      exact BTrack.mute ⟨i, h.role, h.idle, ⟨hw, hu, ht⟩, h.nav⟩ rfl
    · cases hr; exact BTrack.mute ⟨i, h.role, h.idle, ⟨hw, hu, ht⟩, h.nav⟩ rfl
  | listen l =>
    cases hr
    simp only [insBy, rxOf, List.append_nil]
    exact ⟨i, h.role, h.idle, ⟨hw, hu, ht⟩, h.nav⟩
  | subscribe l c j =>
    cases hr
    simp only [insBy, rxOf, List.append_nil]
    exact ⟨i, h.role, h.idle, ⟨hw, hu, ht⟩, h.nav⟩
  | ephCb =>
    cases hr
    simp only [insBy, rxOf, List.append_nil]
    exact ⟨i, h.role, h.idle, ⟨hw, hu, ht⟩, Track.op .eph trivial rfl h.nav⟩
  | gephCb =>
    cases hr
    simp only [insBy, rxOf, List.append_nil]
    exact ⟨i, h.role, h.idle, ⟨hw, hu, ht⟩, Track.op .geph trivial rfl h.nav⟩
  | configRover j =>
    have hf : base = false := by
      cases hx : base with
      | false => rfl
      | true => exact absurd (List.mem_singleton.2 rfl) (hb.1 hx j)
    unfold Dev.step Dev.configRover at hr
    dsimp only at hr
    rw [bind_ok] at hr
    obtain ⟨⟨d1, e1⟩, h1, hr⟩ := hr
    cases hr
    simp only [insBy, rxOf, List.append_nil]
    obtain ⟨hh, hr1⟩ := h.inv.ubx
    obtain ⟨o, g, w, ho, e, e2⟩ := command_ok (d := { d with role := .rover }) roverCommands hr1.inv.wf.outLen
    rw [e2] at h1
    cases h1
    exact BTrack.mute ⟨i, (by rw [hf]; rfl), h.idle, ⟨hw, hu, ht⟩, h.nav⟩ rfl
  | configBase j s =>
    have hf : base = true := by
      cases hx : base with
      | true => rfl
      | false => exact absurd (List.mem_singleton.2 rfl) (hb.2 hx j s)
    unfold Dev.step Dev.configBase at hr
    dsimp only at hr
    simp only [insBy, rxOf, List.append_nil]
    obtain ⟨hh, h1⟩ := h.inv.ubx
    obtain ⟨o, g, w, ho, e, e2⟩ := command_ok (d := { d with role := .base, rtk := some j, rtcm := d.rtcm.registerListener 0 })
      (baseCommands s) h1.inv.wf.outLen
    rw [e2] at hr
    cases hr
    exact BTrack.mute ⟨i, (by rw [hf]; rfl), h.idle, ⟨hw, hu, ht⟩, h.nav⟩ rfl

theorem insBy_cons (split : List Byte → List Msg) (hist : List Byte) (e : Ev) (evs : List Ev) :
    insBy split hist (e :: evs) = insBy split hist [e] ++ insBy split (hist ++ rxOf e) evs := by
  cases e <;> simp [insBy, rxOf]

theorem rxOf_received (evs : List Ev) : evs.flatMap rxOf = received evs := by
  unfold received
  congr 1

theorem Keeps.cons {base : Bool} {e : Ev} {evs : List Ev} (h : Keeps base (e :: evs)) : Keeps base [e] ∧ Keeps base evs :=
  ⟨⟨fun hb i he => h.1 hb i (List.mem_singleton.1 he ▸ List.mem_cons_self), fun hb i s he => h.2 hb i s (List.mem_singleton.1 he ▸ List.mem_cons_self)⟩,
    fun hb i he => h.1 hb i (List.mem_cons_of_mem _ he), fun hb i s he => h.2 hb i s (List.mem_cons_of_mem _ he)⟩

theorem BTrack.run {md : Mode} {n0 : Nav} {base : Bool} {prev : Byte} {r0 : RTail} {d d' : Dev} {evs evs' : List Ev} {es effs : List Eff}
    {hist : List Byte} {ins : List NavIn} (h : BTrack md n0 base prev r0 d evs hist ins effs) (hb : Keeps base evs')
    (hr : d.run md evs' = .ok (d', es)) :
    BTrack md n0 base prev r0 d' (evs ++ evs') (hist ++ received evs') (ins ++ insBy (splitOf base prev) hist evs') (effs ++ es) := by
  rw [← rxOf_received]
  induction evs' generalizing d evs hist ins effs es with
  | nil => cases hr; simpa [insBy] using h
  | cons e evs' ih =>
    unfold Dev.run at hr
    rw [bind_ok] at hr
    obtain ⟨⟨d1, f1⟩, h1, hr⟩ := hr
    dsimp only at hr
    rw [bind_ok] at hr
    obtain ⟨⟨d2, f2⟩, h2, hr⟩ := hr
    cases hr
    have k := ih (h.step hb.cons.1 h1) hb.cons.2 h2
    rw [insBy_cons, List.flatMap_cons]
    simp only [List.append_assoc] at k ⊢
    exact k

theorem StaysBase.keeps {evs : List Ev} (h : StaysBase evs) : Keeps true evs := ⟨fun _ => h, fun h => (by cases h)⟩
theorem NeverBase.keeps {evs : List Ev} (h : NeverBase evs) : Keeps false evs := ⟨fun h => (by cases h), fun _ => h⟩

/-- **C146**, at any moment of a base's life: a device that was a base between messages has been through any further calls and
received any bytes in any pieces (but was not made a rover); then a buffer arrives. What happens is exactly what the messages
show that this buffer completes in the mixed stream, at the listeners subscribed and the RTK interfaces configured by then. -/
theorem c146_moment {md : Mode} {d d1 d2 : Dev} {evs evs' : List Ev} {es0 e1 e2 : List Eff} {b : List Byte} (h : Reach md d evs es0)
    (hb : (configured evs).1 = .base) (hu : d.ubx.parsingMessage = false) (hr : d.rtcm.parsingMessage = false)
    (hs : StaysBase evs') (h1 : d.run md evs' = .ok (d1, e1)) (h2 : d1.step md (.rx b) = .ok (d2, e2)) :
    Shows md (recipients (evs ++ evs')) (links (evs ++ evs')) d1.nav (newly (mixed d.ubx.prev) (received evs') b) d2.nav e2 :=
  ((BTrack.start h hb hu hr).run hs.keeps h1).shows h2

theorem run_ok_append {md : Mode} {d d' : Dev} {a b : List Ev} {es : List Eff} (h : d.run md (a ++ b) = .ok (d', es)) :
    ∃ d1 e1 e2, d.run md a = .ok (d1, e1) ∧ d1.run md b = .ok (d', e2) ∧ es = e1 ++ e2 := by
  rw [run_append, bind_ok] at h
  obtain ⟨⟨d1, e1⟩, h1, h⟩ := h
  dsimp only at h
  rw [bind_ok] at h
  obtain ⟨⟨d2, e2⟩, h2, h⟩ := h
  cases h
  exact ⟨d1, e1, e2, h1, h2, rfl⟩

theorem run_cons_ok {md : Mode} {d d' : Dev} {e : Ev} {b : List Ev} {es : List Eff} (h : d.run md (e :: b) = .ok (d', es)) :
    ∃ d1 e1 e2, d.step md e = .ok (d1, e1) ∧ d1.run md b = .ok (d', e2) ∧ es = e1 ++ e2 := by
  unfold Dev.run at h
  rw [bind_ok] at h
  obtain ⟨⟨d1, e1⟩, h1, h⟩ := h
  dsimp only at h
  rw [bind_ok] at h
  obtain ⟨⟨d2, e2⟩, h2, h⟩ := h
  cases h
  exact ⟨d1, e1, e2, h1, h2, rfl⟩

theorem baseCalls_append (a b : List Ev) : baseCalls (a ++ b) = baseCalls a + baseCalls b := List.countP_append

theorem links_stay {evs evs' : List Ev} (hc : ∀ i s, Ev.configBase i s ∉ evs') (hs : StaysBase evs') :
    links (evs ++ evs') = links evs := by
  have h1 : configured (evs ++ evs') = configured evs := by
    unfold configured
    rw [List.foldl_append]
    generalize evs.foldl _ _ = q
    induction evs' with
    | nil => rfl
    | cons e evs' ih =>
      rw [List.foldl_cons]
      have k := ih (fun i s h => hc i s (List.mem_cons_of_mem _ h)) (fun i h => hs i (List.mem_cons_of_mem _ h))
      cases e with
      | configBase i s => exact absurd List.mem_cons_self (hc i s)
      | configRover i => exact absurd List.mem_cons_self (hs i)
      | _ => exact k
  have h2 : baseCalls evs' = 0 := by
    unfold baseCalls
    rw [List.countP_eq_zero]
    intro e he
    cases e with
    | configBase i s => exact absurd he (hc i s)
    | _ => simp
  unfold links
  rw [h1, baseCalls_append, h2, Nat.add_zero]

/-- **C146**, the RTK link: what a base writes to its interface from a moment on at which it is between messages are the valid
RTCM3 frames of the mixed stream, in order, however the stream is cut and whatever else is called in between. -/
theorem c146_link {md : Mode} {d d' : Dev} {evs evs' : List Ev} {es0 es : List Eff} (h : Reach md d evs es0)
    (hb : (configured evs).1 = .base) (hu : d.ubx.parsingMessage = false) (hr : d.rtcm.parsingMessage = false)
    (hs : StaysBase evs') (hc : ∀ i s, Ev.configBase i s ∉ evs') (h1 : d.run md evs' = .ok (d', es)) :
    es.filterMap Eff.rtk? =
      ((mixed d.ubx.prev (received evs')).filterMap Msg.rtcm?).flatMap fun f => (links evs).map fun i => (i, f) := by
  have main : ∀ pre post d1 e1, evs' = pre ++ post → d.run md pre = .ok (d1, e1) → e1.filterMap Eff.rtk? =
      ((demux d.ubx.prev (received pre)).1.filterMap Msg.rtcm?).flatMap fun f => (links evs).map fun i => (i, f) := by
    intro pre
    induction pre using List.reverseRecOn with
    | nil =>
      intro post d1 e1 _ hx
      cases hx
      show [] = _
      rw [show received [] = [] from rfl, show demux d.ubx.prev [] = ([], .idle d.ubx.prev) from by rw [demux]]
      rfl
    | append_singleton pre e ih =>
      intro post d1 e1 he hx
      obtain ⟨d2, f1, f2, k1, k2, rfl⟩ := run_ok_append hx
      obtain ⟨d3, g1, g2, k3, k4, rfl⟩ := run_cons_ok k2
      cases k4
      have hpre : ∀ x ∈ pre ++ [e], x ∈ evs' := fun x hx => by rw [he]; exact List.mem_append_left _ hx
      have hsp : StaysBase pre := fun i hi => hs i (hpre _ (List.mem_append_left _ hi))
      have hcp : ∀ i s, Ev.configBase i s ∉ pre := fun i s hi => hc i s (hpre _ (List.mem_append_left _ hi))
      have ih := ih ([e] ++ post) d2 f1 (by rw [he, List.append_assoc]) k1
      have hrec : received (pre ++ [e]) = received pre ++ rxOf e := by
        rw [← rxOf_received, ← rxOf_received, List.flatMap_append]; simp
      rw [List.filterMap_append, ih, hrec, List.append_nil]
      have quiet : ∀ x : List Eff, x.filterMap Eff.rtk? = [] → rxOf e = [] → (((demux d.ubx.prev (received pre)).1.filterMap Msg.rtcm?).flatMap
          fun f => (links evs).map fun i => (i, f)) ++ x.filterMap Eff.rtk? = (((demux d.ubx.prev (received pre ++ rxOf e)).1.filterMap
          Msg.rtcm?).flatMap fun f => (links evs).map fun i => (i, f)) := by
        intro x hx hy
        rw [hx, hy, List.append_nil, List.append_nil]
      cases e with
      | rx b =>
        have w := (((BTrack.start h hb hu hr).run hsp.keeps k1).shows k3).rtk
        rw [links_stay hcp hsp] at w
        rw [w]
        have hm : (demux d.ubx.prev (received pre ++ b)).1 = (demux d.ubx.prev (received pre)).1 ++ newly (mixed d.ubx.prev) (received pre) b := by
          rw [newly_mixed, ← (demux_eq _ _).2.2, ← (demux_eq _ _).2.2, dRun_append, msgs_append]
        show _ = (((demux d.ubx.prev (received pre ++ b)).1.filterMap Msg.rtcm?).flatMap fun f => (links evs).map fun i => (i, f))
        rw [hm, List.filterMap_append, List.flatMap_append]
        rfl
      | rtkRx j buf =>
        refine quiet _ ?_ rfl
        unfold Dev.step Dev.rtkRx at k3
        dsimp only at k3
        split at k3
        · rw [bind_ok] at k3
          obtain ⟨⟨g, x⟩, -, k3⟩ := k3
          cases k3; rfl
        · cases k3; rfl
      | configBase j s => exact absurd (hpre _ (by simp)) (hc j s)
      | configRover j => exact absurd (hpre _ (by simp)) (hs j)
      | listen l => cases k3; exact quiet _ rfl rfl
      | subscribe l c j => cases k3; exact quiet _ rfl rfl
      | ephCb => cases k3; exact quiet _ rfl rfl
      | gephCb => cases k3; exact quiet _ rfl rfl
  exact main evs' [] d' es (by simp) h1

theorem BTrack.told {md : Mode} {n0 : Nav} {base : Bool} {prev : Byte} {r0 : RTail} {d : Dev} {evs : List Ev} {hist : List Byte}
    {ins : List NavIn} {effs : List Eff} (h : BTrack md n0 base prev r0 d evs hist ins effs) : Told md n0 ins d.nav effs := by
  obtain ⟨ops, cs, b1, -, b3, b4⟩ := h.nav
  exact ⟨ops, cs, b1, b3, b4⟩

theorem Stage.run {md : Mode} {evs evs' : List Ev} {d d' : Dev} {ins : List NavIn} {es : List Eff} (h : Stage md evs d evs' d' ins es) :
    Dev.run md d evs' = .ok (d', es) := by
  cases h <;> assumption

theorem Course.reach {md : Mode} {evs : List Ev} {d : Dev} {ins : List NavIn} {es : List Eff} (h : Course md evs d ins es) :
    Reach md d evs es := by
  induction h with
  | start h _ =>
    obtain ⟨u, r, g, d0, e0, k⟩ := h
    exact ⟨u, r, g, _, d0, e0, k⟩
  | stage _ h2 ih =>
    obtain ⟨u, r, g, ss, d0, e0, k1, k2, k3, k4, k5⟩ := ih
    refine ⟨u, r, g, ss, d0, e0, k1, k2, k3, k4, ?_⟩
    rw [run_append, k5, ok_bind]
    dsimp only
    rw [h2.run, ok_bind]

/-- A stage, whatever came before. -/
theorem Stage.told {md : Mode} {evs evs' : List Ev} {d d' : Dev} {ins : List NavIn} {es0 es : List Eff} (hc : Reach md d evs es0)
    (h : Stage md evs d evs' d' ins es) : Told md d.nav ins d'.nav es := by
  have i0 := hc.inv
  obtain ⟨h1', r1⟩ := i0.ubx
  obtain ⟨h2', r2⟩ := i0.rtcm
  obtain ⟨t, ht, -⟩ := r2.inv.tail
  cases h with
  | @base evs' _ _ _ i st hu hr hs h1 =>
    have a0 := hc.idle hu hr
    obtain ⟨d2, e1, e2, k1, k2, rfl⟩ := run_cons_ok h1
    have hi := i0.step k1
    have t0 : BTrack md d.nav true d.ubx.prev .idle d2 (evs ++ [.configBase i st]) [] [] e1 := by
      unfold Dev.step Dev.configBase at k1
      dsimp only at k1
      obtain ⟨o, g, w, ho, e, e2⟩ := command_ok (d := { d with role := .base, rtk := some i, rtcm := d.rtcm.registerListener 0 })
        (baseCommands st) r1.inv.wf.outLen
      rw [e2] at k1
      cases k1
      exact ⟨hi, rfl, fun _ => rfl, ⟨hi.wired, a0.ubx, a0.rtcm⟩, [], [], .nil, by simp, rfl, rfl⟩
    exact (t0.run hs.keeps k2).told
  | @rover evs' _ _ _ i hu hs h1 =>
    obtain ⟨last, -, ha⟩ := Ubx.idle_of_reach r1 hu
    obtain ⟨d2, e1, e2, k1, k2, rfl⟩ := run_cons_ok h1
    have hi := i0.step k1
    have t0 : BTrack md d.nav false d.ubx.prev t d2 (evs ++ [.configRover i]) [] [] e1 := by
      unfold Dev.step Dev.configRover at k1
      dsimp only at k1
      rw [bind_ok] at k1
      obtain ⟨⟨d1, f1⟩, k1, k3⟩ := k1
      cases k3
      obtain ⟨o, g, w, ho, e, e2⟩ := command_ok (d := { d with role := .rover }) roverCommands r1.inv.wf.outLen
      rw [e2] at k1
      cases k1
      exact ⟨hi, rfl, fun h => (by cases h), ⟨hi.wired, ⟨ha.1, ha.2.1, rfl⟩, ht⟩, [], [], .nil, by simp, rfl, rfl⟩
    exact (t0.run hs.keeps k2).told
  | stillBase hb hu hr hs h1 => exact ((BTrack.start hc hb hu hr).run hs.keeps h1).told
  | stillOther hb hu hs h1 =>
    obtain ⟨last, -, ha⟩ := Ubx.idle_of_reach r1 hu
    have hrole : (d.role == .base) = false := by
      have := i0.role
      rw [← this] at hb
      rw [beq_base]
      exact decide_eq_false hb
    have t0 : BTrack md d.nav false d.ubx.prev t d evs [] [] [] :=
      ⟨i0, hrole, fun h => (by cases h), ⟨i0.wired, ⟨ha.1, ha.2.1, rfl⟩, ht⟩, [], [], .nil, by simp, rfl, rfl⟩
    exact (t0.run hs.keeps h1).told

/-- **C146**, the ephemeris callbacks through all changes of role: they are exactly those of a decoder that is told, from its
construction on, the good RXM-SFRBX messages received (on a base: found in the mixed stream) and the registrations, in the order
in which they came, and nothing else. -/
theorem c146 {md : Mode} {evs : List Ev} {d : Dev} {ins : List NavIn} {es : List Eff} (h : Course md evs d ins es) :
    ∃ ops cs, List.Forall₂ SameIn ins ops ∧ Nav.init.run md ops = .ok (d.nav, cs) ∧ es.filterMap Eff.nav? = cs.flatten := by
  show Told md Nav.init ins d.nav es
  induction h with
  | start h hb => exact c112 h hb
  | stage hc h ih => exact ih.append (h.told hc.reach)

/-- The hypotheses of `c146_moment` and `c146_link` are met: a base between messages; the first piece of a stream ends inside a UBX
message, the second brings its rest and an RTCM3 frame. -/
example : ∃ d d1 d2 es0 e1 e2, Reach .strict d exBase es0 ∧ (configured exBase).1 = .base ∧ d.ubx.parsingMessage = false ∧
    d.rtcm.parsingMessage = false ∧ StaysBase [.rx ((wire exMsgs).take 7)] ∧ d.run .strict [.rx ((wire exMsgs).take 7)] = .ok (d1, e1) ∧
    d1.step .strict (.rx ((wire exMsgs).drop 7)) = .ok (d2, e2) ∧
    e2.filterMap brief = [(5, [0x01, 0x07, 0xD3, 0x00, 0x01, 0xB5, 0x62]), (9, exFrame), (9, exFrame)] := by
  have h0 : (exRun exBase).bind (fun x => match x.1.run .strict [.rx ((wire exMsgs).take 7)] with
      | .ok y => (match y.1.step .strict (.rx ((wire exMsgs).drop 7)) with
        | .ok z => some (x.1.ubx.parsingMessage, x.1.rtcm.parsingMessage, z.2.filterMap brief)
        | .error _ => none)
      | .error _ => none) = some (false, false, [(5, [0x01, 0x07, 0xD3, 0x00, 0x01, 0xB5, 0x62]), (9, exFrame), (9, exFrame)]) := by
    decide +kernel
  cases hx : exRun exBase with
  | none => rw [hx] at h0; cases h0
  | some x =>
    rw [hx, Option.bind_some] at h0
    cases hy : x.1.run .strict [.rx ((wire exMsgs).take 7)] with
    | error e => rw [hy] at h0; cases h0
    | ok y =>
      rw [hy] at h0
      dsimp only at h0
      cases hz : y.1.step .strict (.rx ((wire exMsgs).drop 7)) with
      | error e => rw [hz] at h0; cases h0
      | ok z =>
        rw [hz] at h0
        obtain ⟨q1, q2⟩ := Prod.mk.inj (Option.some.inj h0)
        obtain ⟨q2, q3⟩ := Prod.mk.inj q2
        exact ⟨x.1, y.1, z.1, x.2, y.2, z.2, exRun_reach hx, by decide, q1, q2, by intro i; simp, hy, hz, q3⟩

end Dev
end Ublox
