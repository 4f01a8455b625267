import Verif.Spec.HarmlessAll
import Verif.Props.HarmlessBase
import Verif.Props.EarlyDays

/-! # C153: receivers of all constellations are safe to connect to and to live with until the end of 2037, in ordinary builds -/

namespace Ublox.Dev
open Ubx MonVer
open Nav (Nav NavCall Mode Sfrbx NavOp gpsId gpsU GoodPage wType galWeek)

theorem op_message {ins : List NavIn} {ops : List NavOp} (f : List.Forall₂ SameIn ins ops) {j : List Byte} {m : Sfrbx}
    (h : NavOp.sfrbx j m ∈ ops) : ∃ p, NavIn.sfrbx p ∈ ins ∧ SameIn (.sfrbx p) (.sfrbx j m) := by
  obtain ⟨a, ha, hs⟩ := forall2_mem f h
  cases a with
  | sfrbx p => exact ⟨p, ha, hs⟩
  | addEph => cases hs
  | addGeph => cases hs

theorem NavsUntil2037.run {P : List Byte → Prop} (h : NavsUntil2037 P) {ins : List NavIn} {ops : List NavOp}
    (f : List.Forall₂ SameIn ins ops) (hp : ∀ p, NavIn.sfrbx p ∈ ins → P p) : ∃ r, Nav.init.run .lenient ops = .ok r := by
  refine Nav.c152 ops (fun op hop => ?_) ⟨fun t ht => ?_, fun j m hm h0 h1 => ?_, fun j m hm h2 hgood => ?_, fun j m hm h0 op hop hi => ?_⟩
  · obtain ⟨a, -, hs⟩ := forall2_mem f hop
    exact sameIn_wf hs
  · obtain ⟨a, -, hs⟩ := forall2_mem f ht
    cases hs
  · obtain ⟨p, hi, hs⟩ := op_message f hm
    obtain ⟨ab, ew⟩ := gps_words hs (h.words p (hp p hi)) h0
    rw [ew] at h1 ⊢
    exact h.gps p (hp p hi) ab.1 h1
  · obtain ⟨p, hi, hs⟩ := op_message f hm
    obtain ⟨ab, ew⟩ := gal_words hs (h.words p (hp p hi)) h2
    obtain ⟨a, b⟩ := h.galileo p (hp p hi) ab.1 (goodPage_take ew hgood)
    refine ⟨fun h0 => a (by rw [ab.2, h0]), fun ht => ?_⟩
    have hb := b (by rw [← wType_take ew]; exact ht)
    unfold Nav.galWeek at hb ⊢
    rw [wU_take ew (by omega)]
    exact hb
  · cases op with
    | sfrbx j' m' =>
      obtain ⟨p, hi1, hs1⟩ := op_message f hm
      obtain ⟨q, hi2, hs2⟩ := op_message f hop
      obtain ⟨ab1, -⟩ := gps_words hs1 (h.words p (hp p hi1)) h0
      obtain ⟨ab2, -⟩ := gal_words hs2 (h.words q (hp q hi2)) hi.1
      refine h.apart p (hp p hi1) q (hp q hi2) ab1.1 ab2.1 ?_
      rw [ab1.2, ab2.2, hi.2]
    | setTime t => exact hi
    | addEphCb => exact hi
    | addGephCb => exact hi

theorem HarmlessAll.tame {s : List Byte} (h : HarmlessAll s) : Tame .lenient s :=
  ⟨h.versions, fun _ _ f hp => h.navs.run f hp, h.rtcm⟩

theorem HarmlessMixedAll.tame {old : List Byte → Prop} {prev : Byte} {s : List Byte} (h : HarmlessMixedAll old prev s) :
    TameMixed .lenient old prev s :=
  ⟨h.versions, fun _ _ f hp => h.navs.run f hp, h.rtcm⟩

/-- **C153, connecting.** In an ordinary build, whatever such data a receiver sends while the constructor polls it, in whatever
pieces and at whatever times: the constructor runs into no undefined behaviour; once its schedule is complete it has returned or
thrown. -/
theorem c153_connect {u : Ubx} {r g : Rtcm} {ss : List Ubx.Sched} (hu : FreshUbx u) (hr : FreshRtcm r)
    (hg : FreshRtcm g) (hs : HarmlessAll (ctorBytes ss)) :
    construct .lenient (start u r g) ss = .ok none ∨ ∃ res es, construct .lenient (start u r g) ss = .ok (some (res, es)) :=
  tame_connect hu hr hg hs.tame

/-- **C153, life.** A device that is not made a base, whose receiver sends such data from the construction on, and whose RTK
interfaces deliver no RTCM header that announces more than 1018 bytes, never runs into undefined behaviour in an ordinary build,
for any length of its life, any pieces in which the data arrives and any calls in between. -/
theorem c153_life {u : Ubx} {r g : Rtcm} {ss : List Ubx.Sched} {d0 : Dev} {e0 : List Eff} {evs : List Ev}
    (hu : FreshUbx u) (hr : FreshRtcm r) (hg : FreshRtcm g)
    (hc : construct .lenient (start u r g) ss = .ok (some (some d0, e0)))
    (hb : ∀ i s, Ev.configBase i s ∉ evs) (hs : HarmlessAll (sentBy ss evs)) (hk : ShortRtcm (rtkHeard [] evs)) :
    ∃ d es, run .lenient d0 evs = .ok (d, es) :=
  tame_life hu hr hg hc hb hs.tame hk

/-- **C153, base.** When such a device, in whatever roles it was before, is made a base between two messages, and its receiver goes
on sending such data in a mixture of UBX and RTCM messages (and nothing arrives on an interface on which it had been a rover), it
never runs into undefined behaviour in an ordinary build while it is one. -/
theorem c153_base {evs evs' : List Ev} {d : Dev} {ins : List NavIn} {es : List Eff} (h : Course .lenient evs d ins es)
    (hu : d.ubx.parsingMessage = false) (hr : d.rtcm.parsingMessage = false) (i : Nat) (st : Bool) (hb : StaysBase evs')
    (hs : HarmlessMixedAll (fun p => NavIn.sfrbx p ∈ ins) d.ubx.prev (received evs'))
    (hk : ∀ j b, Ev.rtkRx j b ∈ evs' → ¬ RoverOn evs j) :
    ∃ d' es', run .lenient d (.configBase i st :: evs') = .ok (d', es') ∧
      Course .lenient (evs ++ .configBase i st :: evs') d' (ins ++ insBy (mixed d.ubx.prev) [] evs') (es ++ es') :=
  tame_base h (fun _ hp => hp) hu hr i st hb hs.tame hk

/-- **C153, base, in terms of the messages sent.** In whatever portions the bytes of well-formed messages arrive. -/
theorem c153_base_messages {evs evs' : List Ev} {d : Dev} {ins : List NavIn} {es : List Eff} (h : Course .lenient evs d ins es)
    (hu : d.ubx.parsingMessage = false) (hr : d.rtcm.parsingMessage = false) (i : Nat) (st : Bool) (hb : StaysBase evs')
    {ms : List Msg} (hw : ∀ m ∈ ms, m.WF) (hv : ∀ p, Msg.ubx 0x0A 0x04 p ∈ ms → ∃ maj min name, Tells p maj min name)
    (hn : NavsUntil2037 fun p => NavIn.sfrbx p ∈ ins ∨ Msg.ubx 0x02 0x13 p ∈ ms) {n : Nat} (hs : received evs' = (wire ms).take n)
    (hk : ∀ j b, Ev.rtkRx j b ∈ evs' → ¬ RoverOn evs j) :
    ∃ d' es', run .lenient d (.configBase i st :: evs') = .ok (d', es') := by
  have hm : HarmlessMixedAll (fun p => NavIn.sfrbx p ∈ ins) d.ubx.prev (wire ms) := by
    refine ⟨?_, ?_, fun k b1 b2 rest h => demux_short ms hw d.ubx.prev k b1 b2 rest h⟩
    · rw [demux_wire' ms hw]; exact hv
    · rw [demux_wire' ms hw]; exact hn
  have ht := hm.tame
  rw [← List.take_append_drop n (wire ms)] at ht
  obtain ⟨d', es', h1, -⟩ := tame_base h (fun _ hp => hp) hu hr i st hb (by rw [hs]; exact ht.left) hk
  exact ⟨d', es', h1⟩

/-! ## Such receivers exist -/

/-- A check that suffices. -/
def harmlessAll (s : List Byte) : Bool :=
  (reports (scan 0 s).1).all (· == exSeven.payload) && shortRtcm (outside s) &&
    ((sfrbxIn s).all fun p => decide (AllWords p) &&
      decide (p[0]? = some 0 → gpsId (wordsIn p) = 1 → gpsU (wordsIn p) 3 1 10 ≤ 977) &&
      decide (p[0]? = some 2 → p[1]? ≠ some 0 ∧ (wType (wordsIn p) = 0 → galWeek (wordsIn p) ≤ 2520)) &&
      (sfrbxIn s).all fun q => decide (p[0]? = some 0 → q[0]? = some 2 → p[1]? ≠ q[1]?))

theorem harmlessAll_ok {s : List Byte} (h : harmlessAll s = true) : HarmlessAll s := by
  unfold harmlessAll at h
  simp only [Bool.and_eq_true, List.all_eq_true, beq_iff_eq, decide_eq_true_eq] at h
  obtain ⟨⟨h1, h2⟩, h3⟩ := h
  exact ⟨fun p hp => ⟨_, _, _, h1 p hp ▸ exSeven_tells⟩, ⟨fun p hp => (h3 p hp).1.1.1, fun p hp => (h3 p hp).1.1.2,
    fun p hp h0 _ => (h3 p hp).1.2 h0, fun p hp q hq => (h3 p hp).2 q hq⟩, shortRtcm_ok h2⟩

/-- Messages of three satellites: GPS 7, Galileo 8, GLONASS 3. -/
def exThree : List Byte :=
  ubxFrame 0x02 0x13 ([0, 7, 0, 0, 10, 0, 2, 0] ++ Nav.Data.gps1) ++ ubxFrame 0x02 0x13 ([2, 8, 0, 0, 10, 0, 2, 0] ++ Nav.Data.gal0) ++
    ubxFrame 0x02 0x13 ([6, 3, 0, 8, 10, 0, 2, 0] ++ Nav.Data.glo1)

def exMany : Ubx.Sched := ⟨[], [(ubxFrame 0x0A 0x04 exSeven.payload, 5)], exThree.take 9⟩

def exManyEvs : List Ev := [.ephCb, .gephCb, .rx (exThree.drop 9), .configRover 4, .rtkRx 4 [0xD3, 0x00, 0x02, 1, 2]]

def connects : M (Option (Option Dev × List Eff)) → Bool
  | .ok (some (some _, _)) => true
  | _ => false

theorem connects_ok {x : M (Option (Option Dev × List Eff))} (h : connects x = true) : ∃ d0 e0, x = .ok (some (some d0, e0)) := by
  unfold connects at h
  split at h
  · exact ⟨_, _, rfl⟩
  · cases h

theorem exMany_harmless : harmlessAll (sentBy [exMany] exManyEvs) = true := by decide +kernel

theorem exMany_messages : (sfrbxIn (sentBy [exMany] exManyEvs)).length = 3 := by decide +kernel

theorem exMany_connects : connects (construct .lenient exStart [exMany]) = true := by decide +kernel

/-- The hypotheses of C153 are met. -/
example : HarmlessAll (sentBy [exMany] exManyEvs) ∧ (sfrbxIn (sentBy [exMany] exManyEvs)).length = 3 ∧
    ∃ d0 e0, construct .lenient exStart [exMany] = .ok (some (some d0, e0)) :=
  ⟨harmlessAll_ok exMany_harmless, exMany_messages, connects_ok exMany_connects⟩

/-- What a base's receiver sends: navigation messages of three constellations, a correction frame, its version. -/
def exManyMsgs : List Msg :=
  [.ubx 0x02 0x13 ([0, 7, 0, 0, 10, 0, 2, 0] ++ Nav.Data.gps1), .rtcm exFrame, .ubx 0x02 0x13 ([2, 8, 0, 0, 10, 0, 2, 0] ++ Nav.Data.gal0),
    .ubx 0x02 0x13 ([6, 3, 0, 8, 10, 0, 2, 0] ++ Nav.Data.glo1), .ubx 0x0A 0x04 exSeven.payload]

/-- The hypotheses of `c153_base_messages` about the messages are met. -/
example : (∀ m ∈ exManyMsgs, m.WF) ∧ (∀ p, Msg.ubx 0x0A 0x04 p ∈ exManyMsgs → ∃ maj min name, Tells p maj min name) ∧
    NavsUntil2037 fun p => NavIn.sfrbx p ∈ ([.addEph] : List NavIn) ∨ Msg.ubx 0x02 0x13 p ∈ exManyMsgs := by
  have hp : ∀ p, (NavIn.sfrbx p ∈ ([.addEph] : List NavIn) ∨ Msg.ubx 0x02 0x13 p ∈ exManyMsgs) →
      p ∈ [[0, 7, 0, 0, 10, 0, 2, 0] ++ Nav.Data.gps1, [2, 8, 0, 0, 10, 0, 2, 0] ++ Nav.Data.gal0, [6, 3, 0, 8, 10, 0, 2, 0] ++ Nav.Data.glo1] := by
    intro p h
    rcases h with h | h
    · simp at h
    · unfold exManyMsgs at h
      simp only [List.mem_cons, List.not_mem_nil, or_false, Msg.ubx.injEq, reduceCtorEq, true_and, false_or] at h ⊢
      rcases h with h | h | h | ⟨h, -⟩
      · exact .inl h
      · exact .inr (.inl h)
      · exact .inr (.inr h)
      · exact absurd h (by decide)
  have all : ∀ x ∈ [[0, 7, 0, 0, 10, 0, 2, 0] ++ Nav.Data.gps1, [2, 8, 0, 0, 10, 0, 2, 0] ++ Nav.Data.gal0, [6, 3, 0, 8, 10, 0, 2, 0] ++ Nav.Data.glo1],
      (AllWords x ∧ (x[0]? = some 0 → gpsId (wordsIn x) = 1 → gpsU (wordsIn x) 3 1 10 ≤ 977)) ∧
      (x[0]? = some 2 → x[1]? ≠ some 0 ∧ (wType (wordsIn x) = 0 → galWeek (wordsIn x) ≤ 2520)) ∧
      (x[0]? = some 0 → x[1]? = some 7) ∧ (x[0]? = some 2 → x[1]? = some 8) := by decide +kernel
  refine ⟨fun m hm => ?_, fun p h => ?_, fun p h => (all p (hp p h)).1.1, fun p h => (all p (hp p h)).1.2,
    fun p h h0 _ => (all p (hp p h)).2.1 h0, fun p h q h' h0 h2 e => ?_⟩
  · unfold exManyMsgs at hm
    simp only [List.mem_cons, List.not_mem_nil, or_false] at hm
    rcases hm with rfl | rfl | rfl | rfl | rfl
    · exact ⟨by decide, by decide⟩
    · exact ⟨_, Rtcm.exFrame, by decide, by decide⟩
    · exact ⟨by decide, by decide⟩
    · exact ⟨by decide, by decide⟩
    · exact ⟨by decide +kernel, by decide +kernel⟩
  · have : p = exSeven.payload := by simpa [exManyMsgs] using h
    exact ⟨_, _, _, this ▸ exSeven_tells⟩
  · rw [(all p (hp p h)).2.2.1 h0, (all q (hp q h')).2.2.2 h2] at e
    exact absurd e (by decide)

end Ublox.Dev
