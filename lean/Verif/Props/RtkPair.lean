import Verif.Props.BaseLife
import Verif.Props.DatagramLink
import Verif.Spec.RtkPair

/-!
# C148: an RTK pair at work
-/

namespace Ublox
namespace Dev

open Nav (Nav NavCall Mode Sfrbx NavOp)

/-- A plain event leaves the monitor of the RTK link alone and writes nothing to the receiver. -/
theorem plain_step {md : Mode} {d d' : Dev} {evs : List Ev} {es0 es : List Eff} {e : Ev} (h : Reach md d evs es0) (hp : e.Plain)
    (hs : d.step md e = .ok (d', es)) : d'.dbg = d.dbg ∧ es.filterMap Eff.receiver? = [] := by
  have hk := c32_other_calls h hs
  cases e with
  | rx s =>
    refine ⟨?_, (c32_receiver_data h hs).1⟩
    have i0 := h.inv
    obtain ⟨h1, r1⟩ := i0.ubx
    obtain ⟨h2, r2⟩ := i0.rtcm
    obtain ⟨r, hr, -⟩ := r2.inv.tail
    exact (readCb_shows ⟨i0.wired, r1.inv.abs, hr⟩ hs).2.1.dbg
  | listen l => cases hs; exact ⟨rfl, rfl⟩
  | subscribe l c i => cases hs; exact ⟨rfl, rfl⟩
  | ephCb => cases hs; exact ⟨rfl, rfl⟩
  | gephCb => cases hs; exact ⟨rfl, rfl⟩
  | rtkRx => exact hp.elim
  | configBase => exact hp.elim
  | configRover => exact hp.elim

theorem sentTo_append (i : Nat) (a b : List Eff) : sentTo i (a ++ b) = sentTo i a ++ sentTo i b := by
  unfold sentTo
  rw [List.filterMap_append, List.filterMap_append]

theorem run_snoc_ok {md : Mode} {d d1 d2 : Dev} {evs : List Ev} {e : Ev} {e1 e2 : List Eff} (h1 : d.run md evs = .ok (d1, e1))
    (h2 : d1.step md e = .ok (d2, e2)) : d.run md (evs ++ [e]) = .ok (d2, e1 ++ e2) := by
  rw [run_append, h1, ok_bind]
  dsimp only
  unfold Dev.run
  rw [h2, ok_bind]
  dsimp only
  rw [show Dev.run md d2 [] = .ok (d2, []) from rfl, ok_bind, ok_bind, List.append_nil]

/-- What holds all the time while a pair is at work. -/
structure PInv (mb mr : Mode) (i j : Nat) (s : Pair) (as : List PAct) (s' : Pair) (ws : List (List Byte)) : Prop where
  base : ∃ es, s.b.run mb (as.filterMap PAct.base?) = .ok (s'.b, es) ∧ s'.sent = s.sent ++ sentTo i es
  rover : ∃ evr er, Reach mr s'.r evr er ∧ RoverOn evr j
  writes : ws.map some = (as.filterMap PAct.deliver?).map fun k => s'.sent[k]?
  idle : s.r.dbg.parsingMessage = false → s'.r.dbg.parsingMessage = false

theorem getElem?_grow {α : Type} (a b : List α) {ks : List Nat} {ws : List α} (h : ws.map some = ks.map fun k => a[k]?) :
    ws.map some = ks.map fun k => (a ++ b)[k]? := by
  rw [h]
  refine List.map_congr_left fun k hk => ?_
  have hm : a[k]? ∈ ws.map some := by rw [h]; exact List.mem_map_of_mem hk
  obtain ⟨w, -, hw⟩ := List.mem_map.1 hm
  obtain ⟨hl, -⟩ := List.getElem?_eq_some_iff.1 hw.symm
  rw [List.getElem?_append_left hl]

theorem PRun.inv {mb mr : Mode} {i j : Nat} {s s' : Pair} {as : List PAct} {ws : List (List Byte)} (h : PRun mb mr i j s as s' ws)
    {evb evr : List Ev} {eb er : List Eff} (hb : Reach mb s.b evb eb) (hs0 : s.sent = []) (hr : Reach mr s.r evr er) (hj : RoverOn evr j) (hp : ∀ a ∈ as, a.Plain) :
    PInv mb mr i j s as s' ws := by
  induction h with
  | nil => exact ⟨⟨[], rfl, by rw [hs0]; rfl⟩, ⟨_, _, hr, hj⟩, rfl, id⟩
  | @base s' as ws e b' es h1 h2 ih =>
    obtain ⟨⟨e0, k1, k2⟩, k3, k4, k5⟩ := ih (fun a ha => hp a (List.mem_append_left _ ha))
    refine ⟨⟨e0 ++ es, ?_, ?_⟩, k3, ?_, k5⟩
    · rw [List.filterMap_append]
      exact run_snoc_ok k1 h2
    · show s'.sent ++ sentTo i es = _
      rw [sentTo_append, k2, List.append_assoc]
    · rw [List.filterMap_append, show [PAct.base e].filterMap PAct.deliver? = [] from rfl, List.append_nil]
      exact getElem?_grow _ _ k4
  | @rover s' as ws e r' es h1 h2 ih =>
    obtain ⟨⟨e0, k1, k2⟩, ⟨ev, er', k3, k3'⟩, k4, k5⟩ := ih (fun a ha => hp a (List.mem_append_left _ ha))
    obtain ⟨q1, q2⟩ := plain_step k3 (hp (.rover e) (by simp)) h2
    refine ⟨⟨e0, ?_, k2⟩, ⟨_, _, k3.snoc h2, List.mem_append_left _ k3'⟩, ?_, fun hx => ?_⟩
    · rw [List.filterMap_append, show [PAct.rover e].filterMap PAct.base? = [] from rfl, List.append_nil]
      exact k1
    · rw [q2, List.append_nil, List.filterMap_append, show [PAct.rover e].filterMap PAct.deliver? = [] from rfl, List.append_nil]
      exact k4
    · show r'.dbg.parsingMessage = false
      rw [q1]; exact k5 hx
  | @deliver s' as ws k f r' es h1 h2 h3 ih =>
    obtain ⟨⟨e0, k1, k2⟩, ⟨ev, er', k3, k3'⟩, k4, k5⟩ := ih (fun a ha => hp a (List.mem_append_left _ ha))
    have q := (c32_rtk_data k3 h3).1 k3'
    refine ⟨⟨e0, ?_, k2⟩, ⟨_, _, k3.snoc h3, List.mem_append_left _ k3'⟩, ?_, fun hx => ?_⟩
    · rw [List.filterMap_append, show [PAct.deliver k].filterMap PAct.base? = [] from rfl, List.append_nil]
      exact k1
    · rw [q, List.filterMap_append, List.map_append, List.map_append, k4]
      show _ ++ [some f] = _ ++ [s'.sent[k]?]
      rw [h2]
    · have hf : ∃ p, RtcmFrame p f ∧ 1 ≤ p.length ∧ p.length ≤ 1018 := by
        have hm : f ∈ sentTo i e0 := by
          have := List.mem_of_getElem? h2
          rw [k2, hs0] at this
          simpa using this
        unfold sentTo at hm
        rw [List.mem_filterMap] at hm
        obtain ⟨⟨i', f'⟩, m1, m2⟩ := hm
        dsimp only at m2
        split at m2
        · cases m2; exact run_writes hb k1 i' f m1
        · cases m2
      obtain ⟨hist, hd⟩ := k3.inv.dbg
      obtain ⟨g, css, e, hg⟩ := rtcm_stream_total [f] (by simpa using hf) hd (k5 hx)
      have := rtkRx_chunks (md := mr) ((k3.inv.fwd j).2 k3') e
      rw [show [f].map (Ev.rtkRx j) = [.rtkRx j f] from rfl] at this
      obtain ⟨d1, f1, f2, m1, m2, -⟩ := run_cons_ok this
      rw [h3] at m1
      cases m1
      cases m2
      exact hg

theorem configured_links {evs : List Ev} {i : Nat} (hc : configured evs = (.base, some i)) (h1 : baseCalls evs = 1) : links evs = [i] := by
  unfold links
  rw [hc, h1]
  rfl

/-- **C148**. A base (interface `i`, between two messages) and a rover (interface `j`) are at work, in any interleaving: both
receive anything from their receivers in any pieces, listeners and callbacks are registered, and the network hands over any datagrams
sent before, in any order, repeatedly or never. Then at every moment the datagrams sent are exactly the valid RTCM3 frames of the
mixed stream the base has received; and the rover's receiver has been written exactly the datagrams delivered, in the order of
their delivery, each with one write, and nothing else. -/
theorem c148 {mb mr : Mode} {i j : Nat} {s s' : Pair} {as : List PAct} {ws : List (List Byte)} {evb evr : List Ev} {eb er : List Eff}
    (hb : Reach mb s.b evb eb) (hc : configured evb = (.base, some i)) (h1 : baseCalls evb = 1)
    (hu : s.b.ubx.parsingMessage = false) (hg : s.b.rtcm.parsingMessage = false) (hs0 : s.sent = [])
    (hr : Reach mr s.r evr er) (hj : RoverOn evr j) (hp : ∀ a ∈ as, a.Plain) (h : PRun mb mr i j s as s' ws) :
    s'.sent = (mixed s.b.ubx.prev (received (as.filterMap PAct.base?))).filterMap Msg.rtcm? ∧
    ws.map some = (as.filterMap PAct.deliver?).map fun k => s'.sent[k]? := by
  have q := h.inv hb hs0 hr hj hp
  refine ⟨?_, q.writes⟩
  obtain ⟨es, k1, k2⟩ := q.base
  have hpl : ∀ e ∈ as.filterMap PAct.base?, e.Plain := by
    intro e he
    obtain ⟨a, ha, hx⟩ := List.mem_filterMap.1 he
    have := hp a ha
    cases a with
    | base e' => cases hx; exact this
    | rover e' => cases hx
    | deliver k => cases hx
  have w := c146_link hb (by rw [hc]) hu hg (fun i hi => hpl _ hi) (fun i st hi => hpl _ hi) k1
  rw [configured_links hc h1] at w
  rw [k2, hs0, List.nil_append]
  unfold sentTo
  rw [w]
  generalize (mixed s.b.ubx.prev _).filterMap Msg.rtcm? = l
  induction l with
  | nil => rfl
  | cons f l ih =>
    simp only [List.map_cons, List.map_nil] at ih
    simp [ih]

/-- **C148**, a link without losses: if the datagrams are delivered once each in the order of sending, the bytes written to the
rover's receiver are at every moment the first frames of the base's stream; when the last has been delivered, all of them. -/
theorem c148_in_order {mb mr : Mode} {i j : Nat} {s s' : Pair} {as : List PAct} {ws : List (List Byte)} {evb evr : List Ev} {eb er : List Eff}
    (hb : Reach mb s.b evb eb) (hc : configured evb = (.base, some i)) (h1 : baseCalls evb = 1)
    (hu : s.b.ubx.parsingMessage = false) (hg : s.b.rtcm.parsingMessage = false) (hs0 : s.sent = [])
    (hr : Reach mr s.r evr er) (hj : RoverOn evr j) (hp : ∀ a ∈ as, a.Plain) (h : PRun mb mr i j s as s' ws)
    {n : Nat} (ho : as.filterMap PAct.deliver? = List.range n) :
    ws = ((mixed s.b.ubx.prev (received (as.filterMap PAct.base?))).filterMap Msg.rtcm?).take n := by
  obtain ⟨k1, k2⟩ := c148 hb hc h1 hu hg hs0 hr hj hp h
  rw [← k1]
  rw [ho] at k2
  have hl : ws.length = n := by simpa using congrArg List.length k2
  have hx : ∀ k : Nat, k < n → ws[k]? = s'.sent[k]? := by
    intro k hk
    have := congrArg (fun l => l[k]?) k2
    simp only [List.getElem?_map, List.getElem?_range hk, Option.map_some] at this
    cases hw : ws[k]? with
    | none => rw [List.getElem?_eq_none_iff] at hw; omega
    | some w => rw [hw] at this; exact Option.some.inj this
  refine List.ext_getElem? fun k => ?_
  rw [List.getElem?_take]
  split
  · exact hx k ‹_›
  · rw [List.getElem?_eq_none_iff]; omega

/-- **C148**: and a datagram that was sent can always be delivered: the rover does not fail on it, if the monitor of its RTK link
was between two frames at the beginning. -/
theorem c148_deliver {mb mr : Mode} {i j : Nat} {s s' : Pair} {as : List PAct} {ws : List (List Byte)} {evb evr : List Ev} {eb er : List Eff}
    (hb : Reach mb s.b evb eb) (hs0 : s.sent = []) (hr : Reach mr s.r evr er) (hj : RoverOn evr j) (hp : ∀ a ∈ as, a.Plain)
    (h : PRun mb mr i j s as s' ws) (hd : s.r.dbg.parsingMessage = false) {k : Nat} (hk : k < s'.sent.length) :
    ∃ r', PRun mb mr i j s (as ++ [.deliver k]) ⟨s'.b, r', s'.sent⟩ (ws ++ [s'.sent[k]]) := by
  obtain ⟨⟨e0, k1, k2⟩, ⟨ev, er', k3, k3'⟩, k4, k5⟩ := h.inv hb hs0 hr hj hp
  have hf : ∃ p, RtcmFrame p s'.sent[k] ∧ 1 ≤ p.length ∧ p.length ≤ 1018 := by
    have hm : s'.sent[k] ∈ sentTo i e0 := by
      have := List.getElem_mem hk
      rw [hs0, List.nil_append] at k2
      rw [← k2]; exact this
    unfold sentTo at hm
    rw [List.mem_filterMap] at hm
    obtain ⟨⟨i', f'⟩, m1, m2⟩ := hm
    dsimp only at m2
    split at m2
    · cases m2; exact run_writes hb k1 i' _ m1
    · cases m2
  obtain ⟨hist, hd'⟩ := k3.inv.dbg
  obtain ⟨g, css, e, hg⟩ := rtcm_stream_total [s'.sent[k]] (by simpa using hf) hd' (k5 hd)
  have := rtkRx_chunks (md := mr) ((k3.inv.fwd j).2 k3') e
  obtain ⟨d1, f1, f2, m1, m2, m3⟩ := run_cons_ok this
  have hf2 : f2 = [] := (congrArg Prod.snd (Except.ok.inj m2)).symm
  subst hf2
  refine ⟨d1, ?_⟩
  have := PRun.deliver h (List.getElem?_eq_getElem hk) m1
  rw [List.append_nil] at m3
  rw [← m3] at this
  exact this

/-- A pair at work, computed. -/
def pexec (mb mr : Mode) (i j : Nat) (s : Pair) (ws : List (List Byte)) : List PAct → Option (Pair × List (List Byte))
  | [] => some (s, ws)
  | .base e :: as => match s.b.step mb e with
    | .ok (b', es) => pexec mb mr i j ⟨b', s.r, s.sent ++ sentTo i es⟩ ws as
    | .error _ => none
  | .rover e :: as => match s.r.step mr e with
    | .ok (r', es) => pexec mb mr i j ⟨s.b, r', s.sent⟩ (ws ++ es.filterMap Eff.receiver?) as
    | .error _ => none
  | .deliver k :: as => match s.sent[k]? with
    | none => none
    | some f => match s.r.step mr (.rtkRx j f) with
      | .ok (r', es) => pexec mb mr i j ⟨s.b, r', s.sent⟩ (ws ++ es.filterMap Eff.receiver?) as
      | .error _ => none

theorem pexec_run {mb mr : Mode} {i j : Nat} {s0 s s' : Pair} {as0 as : List PAct} {ws ws' : List (List Byte)}
    (h0 : PRun mb mr i j s0 as0 s ws) (h : pexec mb mr i j s ws as = some (s', ws')) : PRun mb mr i j s0 (as0 ++ as) s' ws' := by
  induction as generalizing s ws as0 with
  | nil => cases h; rw [List.append_nil]; exact h0
  | cons a as ih =>
    rw [show as0 ++ a :: as = as0 ++ [a] ++ as by simp]
    cases a with
    | base e =>
      unfold pexec at h
      split at h
      · exact ih (.base h0 ‹_›) h
      · cases h
    | rover e =>
      unfold pexec at h
      split at h
      · exact ih (.rover h0 ‹_›) h
      · cases h
    | deliver k =>
      unfold pexec at h
      split at h
      · cases h
      · split at h
        · exact ih (.deliver h0 ‹_› ‹_›) h
        · cases h

/-- The hypotheses are met: the base receives a frame and the beginning of a second one; the first is delivered; the rover's
receiver sends something; the base receives the rest of the second frame; the second is delivered, twice, and the first once more. -/
def exActs : List PAct := [.base (.rx (exFrame ++ [0xB5, 0x00] ++ exFrame2.take 5)), .deliver 0, .rover (.rx [0xB5, 0x62, 0x01]),
  .rover (.subscribe 3 1 7), .base (.rx (exFrame2.drop 5)), .deliver 1, .deliver 1, .deliver 0]

example : ∃ (s s' : Pair) (eb er : List Eff), Reach .strict s.b [.configBase 9 false] eb ∧ configured [.configBase 9 false] = (.base, some 9) ∧
    baseCalls [.configBase 9 false] = 1 ∧ s.b.ubx.parsingMessage = false ∧ s.b.rtcm.parsingMessage = false ∧ s.sent = [] ∧
    Reach .strict s.r [.configRover 7] er ∧ RoverOn [.configRover 7] 7 ∧ s.r.dbg.parsingMessage = false ∧ (∀ a ∈ exActs, a.Plain) ∧
    PRun .strict .strict 9 7 s exActs s' [exFrame, exFrame2, exFrame2, exFrame] ∧ s'.sent = [exFrame, exFrame2] := by
  have h : ((exRun [.configBase 9 false]).bind fun x => (exRun [.configRover 7]).bind fun y =>
      (pexec .strict .strict 9 7 ⟨x.1, y.1, []⟩ [] exActs).map fun z => (z.2, z.1.sent,
        (x.1.ubx.parsingMessage || x.1.rtcm.parsingMessage || y.1.dbg.parsingMessage))) =
      some ([exFrame, exFrame2, exFrame2, exFrame], [exFrame, exFrame2], false) := by decide +kernel
  cases hx : exRun [.configBase 9 false] with
  | none => rw [hx] at h; cases h
  | some x =>
    rw [hx, Option.bind_some] at h
    cases hy : exRun [.configRover 7] with
    | none => rw [hy] at h; cases h
    | some y =>
      rw [hy, Option.bind_some] at h
      cases hz : pexec .strict .strict 9 7 ⟨x.1, y.1, []⟩ [] exActs with
      | none => rw [hz] at h; cases h
      | some z =>
        rw [hz] at h
        obtain ⟨z1, z2⟩ := z
        simp only [Option.map_some, Option.some.injEq, Prod.mk.injEq, Bool.or_eq_false_iff] at h
        obtain ⟨h1, h2, ⟨h3, h4⟩, h5⟩ := h
        refine ⟨⟨x.1, y.1, []⟩, z1, x.2, y.2, exRun_reach hx, rfl, rfl, h3, h4, rfl, exRun_reach hy, List.mem_singleton.2 rfl, h5, ?_, ?_, h2⟩
        · intro a ha
          simp only [exActs, List.mem_cons, List.not_mem_nil, or_false] at ha
          rcases ha with rfl | rfl | rfl | rfl | rfl | rfl | rfl | rfl <;> trivial
        · rw [← h1]
          exact pexec_run (as0 := []) .nil hz

end Dev
end Ublox
