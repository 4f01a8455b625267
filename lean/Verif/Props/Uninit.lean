import Verif.Spec.Uninit
import Verif.Props.NavInput
import Verif.Props.DeviceCtor
import Verif.Props.Contiguous

/-!
# C127: uninitialised memory does not influence what a device does
-/

namespace Ublox
namespace Dev

open Nav (Nav NavCall Mode Sfrbx NavOp)

theorem ofBuffer_det {p buf : List Byte} (hp : 48 ≤ p.length) (h : buf.take p.length = p) :
    Sfrbx.ofBuffer buf = Sfrbx.ofBuffer p := by
  have hg : ∀ k, k < 48 → buf.getD k 0 = p.getD k 0 := by
    intro k hk
    have : p[k]? = buf[k]? := by
      conv_lhs => rw [← h]
      rw [List.getElem?_take, if_pos (by omega)]
    rw [List.getD_eq_getElem?_getD, List.getD_eq_getElem?_getD, this]
  have hd : (buf.drop 8).take 40 = (p.drop 8).take 40 := by
    conv_rhs => rw [← h]
    rw [List.drop_take, List.take_take, Nat.min_eq_left (by omega)]
  unfold Sfrbx.ofBuffer
  rw [hg 0 (by omega), hg 1 (by omega), hg 3 (by omega), hd]

/-- What messages show is determined, up to the bytes behind the payloads, if the navigation messages are complete. -/
theorem Shows.det {md : Mode} {rcv : Byte → Byte → List Nat} {lk : List Nat} {P : Byte → Byte → List Byte → Prop}
    {n n1 : Nav} {ms : List Msg} {es1 : List Eff} (h : Shows md rcv lk n ms n1 es1) :
    ∀ {n2 : Nav} {es2 : List Eff}, Shows md rcv lk n ms n2 es2 → (∀ p, Msg.ubx 0x02 0x13 p ∈ ms → 48 ≤ p.length) →
      (∀ c i p, Msg.ubx c i p ∈ ms → P c i p) → n1 = n2 ∧ List.Forall₂ (Agree P) es1 es2 := by
  have hu : ∀ (ls : List Nat) (c i : Byte) (p b b' : List Byte), P c i p → b.length = 2048 → b'.length = 2048 → b.take p.length = p →
      b'.take p.length = p → List.Forall₂ (Agree P) (ls.map fun l => Eff.ubx l c i b) (ls.map fun l => Eff.ubx l c i b') := by
    intro ls c i p b b' h1 h2 h3 h4 h5
    induction ls with
    | nil => exact .nil
    | cons l ls ih => exact .cons (.ubx l c i p b b' h1 h2 h3 h4 h5) ih
  induction h with
  | nil => intro n2 es2 h2 _ _; cases h2; exact ⟨rfl, .nil⟩
  | @rtcm n n' f ms es _ ih =>
    intro n2 es2 h2 hp hP
    cases h2 with
    | rtcm h2 =>
      obtain ⟨a, b⟩ := ih h2 (fun p hm => hp p (List.mem_cons_of_mem _ hm)) (fun c i p hm => hP c i p (List.mem_cons_of_mem _ hm))
      refine ⟨a, List.rel_append ?_ b⟩
      induction lk with
      | nil => exact .nil
      | cons j js ihj => exact .cons (.toRtk j f) (List.forall₂_same.2 fun x hx => by
          obtain ⟨k, -, rfl⟩ := List.mem_map.1 hx; exact .toRtk k f)
  | @ubx n n' c i p buf ms es hn h1 h3 _ ih =>
    intro n2 es2 h2 hp hP
    generalize hm : Msg.ubx c i p :: ms = l at h2
    cases h2 with
    | nil => cases hm
    | rtcm h2 => cases hm
    | @ubx _ _ c' i' p' buf' ms' es' hn' h1' h3' h2 =>
      injection hm with e1 e2
      injection e1 with e1 e3 e4
      subst e1 e2 e3 e4
      obtain ⟨a, b⟩ := ih h2 (fun p hm => hp p (List.mem_cons_of_mem _ hm)) (fun c i p hm => hP c i p (List.mem_cons_of_mem _ hm))
      exact ⟨a, List.rel_append (hu _ _ _ p _ _ (hP _ _ _ List.mem_cons_self) h1 h1' h3 h3') b⟩
    | sfrbx _ _ _ _ =>
      injection hm with e1 e2
      injection e1 with e1 e3 e4
      exact absurd ⟨e1, e3⟩ hn
  | @sfrbx n nm n' p buf cs ms es h1 h3 hs _ ih =>
    intro n2 es2 h2 hp hP
    generalize hm : Msg.ubx 0x02 0x13 p :: ms = l at h2
    cases h2 with
    | nil => cases hm
    | rtcm h2 => cases hm
    | ubx hn' _ _ _ =>
      injection hm with e1 e2
      injection e1 with e1 e3 e4
      exact absurd ⟨e1.symm, e3.symm⟩ hn'
    | @sfrbx _ nm' _ p' buf' cs' ms' es' h1' h3' hs' h2 =>
      injection hm with e1 e2
      injection e1 with _ _ e4
      subst e2 e4
      have hl := hp p List.mem_cons_self
      rw [ofBuffer_det hl h3] at hs
      rw [ofBuffer_det hl h3', hs] at hs'
      obtain ⟨rfl, rfl⟩ := Prod.mk.inj (Except.ok.inj hs')
      obtain ⟨a, b⟩ := ih h2 (fun p hm => hp p (List.mem_cons_of_mem _ hm)) (fun c i p hm => hP c i p (List.mem_cons_of_mem _ hm))
      refine ⟨a, List.rel_append (List.rel_append (List.forall₂_same.2 fun x hx => ?_)
        (hu _ _ _ p _ _ (hP _ _ _ List.mem_cons_self) h1 h1' h3 h3')) b⟩
      obtain ⟨k, -, rfl⟩ := List.mem_map.1 hx
      exact .nav k

theorem Track.shows {n0 : Nav} {md : Mode} {d d' : Dev} {evs : List Ev} {hist s : List Byte} {ins : List NavIn} {effs es : List Eff}
    (h : Track n0 md d evs hist ins effs) (hr : Dev.readCb md d s = .ok (d', es)) :
    Shows md (recipients evs) [] d.nav (goodMsgs ((rxRun (Ubx.tailOf hist) s).2.filterMap id)) d'.nav es := by
  obtain ⟨hR, r2⟩ := h.inv.rtcm
  obtain ⟨t, ht, -⟩ := r2.inv.tail
  have hd : DAbs d (registered evs) (Ubx.tailOf hist) t := ⟨h.inv.wired, h.reach.inv.abs, ht⟩
  obtain ⟨-, -, w⟩ := readCb_shows hd hr
  have hf : (d.role == .base) = false := by rw [beq_base]; exact decide_eq_false h.role
  have hl : lks d = [] := by
    unfold lks
    split
    · rename_i hx _; exact absurd hx h.role
    · rfl
  rw [hf, hl] at w
  have w := w.noLink
  rw [msgs_ubx, (dRun_ubx_all _ t s).2, h.inv.recipients] at w
  exact w

theorem ops_det {ins : List NavIn} (hp : ∀ p, NavIn.sfrbx p ∈ ins → 48 ≤ p.length) : ∀ {ops ops' : List NavOp},
    List.Forall₂ SameIn ins ops → List.Forall₂ SameIn ins ops' → ops = ops' := by
  induction ins with
  | nil => intro ops ops' h h'; cases h; cases h'; rfl
  | cons i ins ih =>
    intro ops ops' h h'
    cases h with
    | cons a h =>
      cases h' with
      | cons a' h' =>
        rw [ih (fun p hm => hp p (List.mem_cons_of_mem _ hm)) h h']
        congr 1
        cases a with
        | sfrbx p buf h1 h2 =>
          cases a' with
          | sfrbx _ buf' h1' h2' =>
            have := hp p List.mem_cons_self
            rw [ofBuffer_det this h2, ofBuffer_det this h2']
        | eph => cases a'; rfl
        | geph => cases a'; rfl

theorem Track.nav_det {n0 : Nav} {md : Mode} {d d' : Dev} {evs : List Ev} {hist : List Byte} {ins : List NavIn} {effs effs' : List Eff}
    (h : Track n0 md d evs hist ins effs) (h' : Track n0 md d' evs hist ins effs')
    (hp : ∀ p, NavIn.sfrbx p ∈ ins → 48 ≤ p.length) : d.nav = d'.nav := by
  obtain ⟨ops, cs, a1, -, a3, -⟩ := h.nav
  obtain ⟨ops', cs', b1, -, b3, -⟩ := h'.nav
  rw [ops_det hp a1 b1, b3] at a3
  exact (Prod.mk.inj (Except.ok.inj a3)).1.symm

theorem new_good {hist s : List Byte} {c i : Byte} {p : List Byte}
    (h : Msg.ubx c i p ∈ goodMsgs ((rxRun (Ubx.tailOf hist) s).2.filterMap id)) : InStream (hist ++ s) c i p := by
  unfold InStream
  rw [Ubx.scan_append]
  obtain ⟨it, h1, h2⟩ := List.mem_filterMap.1 h
  cases it with
  | good c' i' p' =>
    injection Option.some.inj h2 with e1 e2 e3
    subst e1 e2 e3
    exact List.mem_append_right _ h1
  | _ => cases h2

theorem InStream.mono {a b : List Byte} {c i : Byte} {p : List Byte} (h : InStream a c i p) : InStream (a ++ b) c i p := by
  unfold InStream at *
  rw [Ubx.scan_append]
  exact List.mem_append_left _ h

theorem Agree.mono {P Q : Byte → Byte → List Byte → Prop} (hPQ : ∀ c i p, P c i p → Q c i p) {a b : Eff} (h : Agree P a b) : Agree Q a b := by
  cases h with
  | ubx l c i p b b' h1 h2 h3 h4 h5 => exact .ubx l c i p b b' (hPQ _ _ _ h1) h2 h3 h4 h5
  | nav x => exact .nav x
  | toReceiver w => exact .toReceiver w
  | toRtk j f => exact .toRtk j f

theorem Track.step_agree {n0 : Nav} {md : Mode} {d d' d1 d1' : Dev} {evs : List Ev} {hist : List Byte} {ins : List NavIn}
    {effs effs' es es' : List Eff} {e : Ev} (h : Track n0 md d evs hist ins effs) (h' : Track n0 md d' evs hist ins effs')
    (hp : ∀ p, NavIn.sfrbx p ∈ ins ++ navIns hist [e] → 48 ≤ p.length) (hb : ∀ i s, e ≠ .configBase i s)
    (hs : d.step md e = .ok (d1, es)) (hs' : d'.step md e = .ok (d1', es')) :
    List.Forall₂ (Agree (InStream (hist ++ rxOf e))) es es' := by
  have hn := h.nav_det h' (fun p hm => hp p (List.mem_append_left _ hm))
  cases e with
  | rx buf =>
    have w := h.shows hs
    have w' := h'.shows hs'
    rw [← hn] at w'
    refine (w.det w' ?_ ?_).2
    · intro p hm
      refine hp p (List.mem_append_right _ ?_)
      simp only [navIns, List.append_nil]
      refine List.mem_map.2 ⟨p, ?_, rfl⟩
      rw [newSfrbx_eq]
      exact List.mem_filterMap.2 ⟨_, hm, if_pos ⟨rfl, rfl⟩⟩
    · intro c i p hm
      exact new_good hm
  | rtkRx j buf =>
    unfold Dev.step Dev.rtkRx at hs hs'
    dsimp only at hs hs'
    by_cases hj : j ∈ d.fwd
    · have hj' : j ∈ d'.fwd := (h'.inv.fwd j).2 ((h.inv.fwd j).1 hj)
      rw [if_pos hj, bind_ok] at hs
      rw [if_pos hj', bind_ok] at hs'
      obtain ⟨_, -, hs⟩ := hs
      obtain ⟨_, -, hs'⟩ := hs'
      cases hs; cases hs'
      exact .cons (.toReceiver buf) .nil
    · have hj' : ¬ j ∈ d'.fwd := fun hx => hj ((h.inv.fwd j).2 ((h'.inv.fwd j).1 hx))
      rw [if_neg hj] at hs
      rw [if_neg hj'] at hs'
      cases hs; cases hs'
      exact .nil
  | listen l => cases hs; cases hs'; exact .nil
  | subscribe l c i => cases hs; cases hs'; exact .nil
  | ephCb => cases hs; cases hs'; exact .nil
  | gephCb => cases hs; cases hs'; exact .nil
  | configBase j s => exact absurd rfl (hb j s)
  | configRover j =>
    have key : ∀ {d d1 : Dev} {es : List Eff}, d.ubx.outMsg.length = 2048 → d.step md (.configRover j) = .ok (d1, es) →
        es = [.toReceiver (wireBytes (rtcmRates 0))] := by
      intro d d1 es ho hs
      obtain ⟨o, g, -, e⟩ := runCommands_expected roverCommands d.ubx ho (noSurvey_rates 0)
      rw [rover_expected] at e
      have k := command_eq (d := { d with role := .rover }) e
      unfold Dev.step Dev.configRover at hs
      dsimp only at hs
      rw [k] at hs
      cases hs; rfl
    rw [key h.reach.inv.wf.outLen hs, key h'.reach.inv.wf.outLen hs']
    exact .cons (.toReceiver _) .nil

theorem Track.run_agree {n0 : Nav} {md : Mode} {d d' d1 d1' : Dev} {evs evs' : List Ev} {hist : List Byte} {ins : List NavIn}
    {effs effs' es es' : List Eff} (h : Track n0 md d evs hist ins effs) (h' : Track n0 md d' evs hist ins effs')
    (hp : ∀ p, NavIn.sfrbx p ∈ ins ++ navIns hist evs' → 48 ≤ p.length) (hb : ∀ i s, Ev.configBase i s ∉ evs')
    (hs : d.run md evs' = .ok (d1, es)) (hs' : d'.run md evs' = .ok (d1', es')) :
    List.Forall₂ (Agree (InStream (hist ++ evs'.flatMap rxOf))) es es' := by
  induction evs' generalizing d d' evs hist ins effs effs' es es' with
  | nil => cases hs; cases hs'; exact .nil
  | cons e evs' ih =>
    unfold Dev.run at hs hs'
    rw [bind_ok] at hs hs'
    obtain ⟨⟨a1, f1⟩, g1, hs⟩ := hs
    obtain ⟨⟨b1, k1⟩, g1', hs'⟩ := hs'
    dsimp only at hs hs'
    rw [bind_ok] at hs hs'
    obtain ⟨⟨a2, f2⟩, g2, hs⟩ := hs
    obtain ⟨⟨b2, k2⟩, g2', hs'⟩ := hs'
    cases hs; cases hs'
    have hb1 : ∀ i s, e ≠ .configBase i s := fun i s he => hb i s (he ▸ List.mem_cons_self)
    rw [navIns_cons, ← List.append_assoc] at hp
    have s1 := h.step_agree h' (fun p hm => hp p (List.mem_append_left _ hm)) hb1 g1 g1'
    have s2 := ih (h.step hb1 g1) (h'.step hb1 g1') hp (fun i s he => hb i s (List.mem_cons_of_mem _ he)) g2 g2'
    rw [List.flatMap_cons, ← List.append_assoc]
    refine List.rel_append (s1.imp fun a b hab => hab.mono fun c i p hc => hc.mono) s2

/-- C127. Two devices in two processes of which only the uninitialised memory differs (the contents of the message buffers and of
the members that the constructors do not set), which receive the same bytes, at the same places between the same calls, and are
not made a base: they make the same calls in the same order with the same arguments and send the same bytes to the receiver; the
payloads handed to listeners are the same.  Condition: RXM-SFRBX messages have the 48 bytes that the decoder reads. -/
theorem c127_same_partial {md : Mode} {ss : List Ubx.Sched} {evs : List Ev} {d d' : Dev} {es es' : List Eff} (h : Life md ss evs d es)
    (h' : Life md ss evs d' es') (hb : ∀ i s, Ev.configBase i s ∉ evs) (hp : ∀ p, NavIn.sfrbx p ∈ navLife ss evs → 48 ≤ p.length) :
    List.Forall₂ (Agree (InStream (sentBy ss evs))) es es' ∧ d.nav = d'.nav := by
  have T := h.track hb
  have T' := h'.track hb
  refine ⟨?_, T.nav_det T' hp⟩
  have hd : ∀ {d : Dev} {es : List Eff}, Life md ss evs d es → ∃ d0, Track Nav.init md d0 [] (ctorBytes ss) ((sfrbxIn (ctorBytes ss)).map .sfrbx) [] ∧
      run md d0 evs = .ok (d, es) := by
    intro d es h
    obtain ⟨u, r, g, d0, e0, hu, hr, hg, hc, hrun⟩ := h
    have h0 : Life md ss [] d0 [] := ⟨u, r, g, d0, e0, hu, hr, hg, hc, rfl⟩
    have t := h0.track (by simp)
    simp only [navLife, navIns, List.append_nil, List.flatMap_nil] at t
    exact ⟨d0, t, hrun⟩
  obtain ⟨d0, t, hrun⟩ := hd h
  obtain ⟨d0', t', hrun'⟩ := hd h'
  exact t.run_agree t' hp hb hrun hrun'

/-- C127 for a base: two bases between messages, after the same calls, whose decoders have seen the same: any stream has the same
effects on both, RTCM3 frames forwarded included. -/
theorem c127_base_partial {md : Mode} {evs : List Ev} {d d' d1 d1' : Dev} {es0 es0' es es' : List Eff} {j : Nat} {s : List Byte}
    (h : Reach md d evs es0) (h' : Reach md d' evs es0') (hb : configured evs = (.base, some j))
    (hu : d.ubx.parsingMessage = false) (hr : d.rtcm.parsingMessage = false) (hu' : d'.ubx.parsingMessage = false)
    (hr' : d'.rtcm.parsingMessage = false) (hprev : d.ubx.prev = d'.ubx.prev) (hn : d.nav = d'.nav)
    (hp : ∀ p, Msg.ubx 0x02 0x13 p ∈ (demux d.ubx.prev s).1 → 48 ≤ p.length)
    (hs : d.step md (.rx s) = .ok (d1, es)) (hs' : d'.step md (.rx s) = .ok (d1', es')) :
    List.Forall₂ (Agree fun c i p => Msg.ubx c i p ∈ (demux d.ubx.prev s).1) es es' ∧ d1.nav = d1'.nav := by
  have w := c30_any_stream h hb hu hr hs
  have w' := c30_any_stream h' hb hu' hr' hs'
  rw [← hn, ← hprev] at w'
  obtain ⟨a, b⟩ := w.det w' hp (fun c i p hm => hm)
  exact ⟨b, a⟩

/-- C127, the decoder's own uninitialised memory: whatever the array for the subframe (nav.cpp:194) holds at entry, the decoder
does the same. -/
theorem c127_stack (md : Mode) (n : Nav) (m : Sfrbx) (hm : m.dwrd.length = 40) {junk junk' : List Byte} (h : junk.length = 30)
    (h' : junk'.length = 30) : n.step md (.sfrbx junk m) = n.step md (.sfrbx junk' m) := by
  have hg : ∀ t e, Nav.decodeGPS junk t m.dwrd e = Nav.decodeGPS junk' t m.dwrd e := by
    intro t e
    rw [Nav.decodeGPS_eq hm h, Nav.decodeGPS_eq hm h']
  have : Nav.convertUBX md junk n m = Nav.convertUBX md junk' n m := by
    unfold Nav.convertUBX Nav.convertEph
    simp only [hg]
  unfold Nav.step
  dsimp only
  rw [this]

example : (Sfrbx.ofBuffer (List.replicate 2048 0)).dwrd.length = 40 ∧ (List.replicate 30 (0x55 : Byte)).length = 30 := by decide +kernel

def exSchedX : Ubx.Sched := ⟨[], [([], 3), (ubxFrame 0x0A 0x04 (List.replicate 40 0), 5)], []⟩

/-- The life of a device whose parsers' buffers held `x` everywhere when it was constructed; its receiver answers with a
40-byte MON-VER. -/
def exStartX (x : Byte) : Dev :=
  start (Ubx.init (List.replicate 2048 x) (List.replicate 2048 x) (List.replicate 10 0) 0 0)
    (Rtcm.init (List.replicate 1024 x) 0 0 0) (Rtcm.init (List.replicate 1024 0) 0 0 0)

def exRunX (x : Byte) (evs : List Ev) : Option (Dev × List Eff) :=
  match construct .lenient (exStartX x) [exSchedX] with
  | .ok (some (some d, _)) =>
    match run .lenient d evs with
    | .ok x => some x
    | .error _ => none
  | _ => none

theorem exRunX_life {x : Byte} {evs : List Ev} {d : Dev} {es : List Eff} (h : exRunX x evs = some (d, es)) :
    Life .lenient [exSchedX] evs d es := by
  unfold exRunX at h
  split at h
  · rename_i d0 e0 hc
    split at h
    · rename_i x hr
      cases h
      exact ⟨_, _, _, d0, e0, ⟨_, _, _, _, _, List.length_replicate, List.length_replicate, List.length_replicate, rfl⟩,
        ⟨_, _, _, _, List.length_replicate, rfl⟩, ⟨_, _, _, _, List.length_replicate, rfl⟩, hc, hr⟩
    · cases h
  · cases h

/-- What is written to the receiver, without the part that is always the same. -/
def tailSent (l : List Eff) : List (List Byte) := l.map fun | .toReceiver b => (b.drop 246).take 3 | _ => []

theorem exRunX_survey (x : Byte) (hx : x = 0 ∨ x = 0x55) :
    (exRunX x [.configBase 9 true]).map (fun r => tailSent r.2) = some [[x, x, x]] := by
  rcases hx with rfl | rfl <;> decide +kernel

/-- A GPS message cut off after the word with the subframe number (1). -/
def exShort : List Byte := [0, 3, 0, 0, 10, 0, 0, 0, 0, 0, 0, 0, 0, 1]

theorem exRunX_short :
    ((exRunX 0 [.rx (ubxFrame 0x02 0x13 exShort)]).map fun r => r.1.nav.eph.map fun e => e.af0) ≠
      ((exRunX 0x55 [.rx (ubxFrame 0x02 0x13 exShort)]).map fun r => r.1.nav.eph.map fun e => e.af0) := by decide +kernel

/-- C127 is false without its conditions: what `config_base` for a stationary base sends, and what the decoder makes of a
RXM-SFRBX message of less than 48 bytes, depend on memory that was never written. -/
theorem c127_refuted :
    (∃ ss evs d d' es es', Life .lenient ss evs d es ∧ Life .lenient ss evs d' es' ∧ navLife ss evs = [] ∧
      ¬ List.Forall₂ (Agree (InStream (sentBy ss evs))) es es') ∧
    (∃ ss evs d d' es es', Life .lenient ss evs d es ∧ Life .lenient ss evs d' es' ∧ (∀ i s, Ev.configBase i s ∉ evs) ∧ d.nav ≠ d'.nav) := by
  constructor
  · have h0 := exRunX_survey 0 (.inl rfl)
    have h1 := exRunX_survey 0x55 (.inr rfl)
    obtain ⟨⟨d, es⟩, a, b⟩ := Option.map_eq_some_iff.1 h0
    obtain ⟨⟨d', es'⟩, a', b'⟩ := Option.map_eq_some_iff.1 h1
    refine ⟨_, _, d, d', es, es', exRunX_life a, exRunX_life a', by decide +kernel, fun hf => ?_⟩
    have : ∀ {l l' : List Eff}, List.Forall₂ (Agree (InStream (sentBy [exSchedX] [.configBase 9 true]))) l l' →
        tailSent l = tailSent l' := by
      intro l l' h
      induction h with
      | nil => rfl
      | cons hab _ ih =>
        unfold tailSent at ih ⊢
        rw [List.map_cons, List.map_cons, ih]
        congr 1
        cases hab <;> rfl
    have hc := this hf
    dsimp only at b b'
    rw [b, b'] at hc
    exact absurd hc (by decide)
  · have h := exRunX_short
    cases a : exRunX 0 [.rx (ubxFrame 0x02 0x13 exShort)] with
    | none => exact absurd a (by
        have : (exRunX 0 [.rx (ubxFrame 0x02 0x13 exShort)]).isSome = true := by decide +kernel
        intro hn; rw [hn] at this; cases this)
    | some r =>
      cases a' : exRunX 0x55 [.rx (ubxFrame 0x02 0x13 exShort)] with
      | none => exact absurd a' (by
          have : (exRunX 0x55 [.rx (ubxFrame 0x02 0x13 exShort)]).isSome = true := by decide +kernel
          intro hn; rw [hn] at this; cases this)
      | some r' =>
        refine ⟨_, _, r.1, r'.1, r.2, r'.2, exRunX_life a, exRunX_life a', by intro i s; simp, fun hn => h ?_⟩
        rw [a, a', Option.map_some, Option.map_some, hn]

/-- A complete message. -/
def exLong : List Byte := exShort ++ List.replicate 34 0

/-- Two devices to which `c127_same_partial` applies: their buffers held different bytes, listener 3 gets a message, the decoder
another one, and the RTK link forwards. -/
def exEvsX : List Ev := [.listen 3, .subscribe 3 0x01 0x07, .ephCb, .configRover 2, .rtkRx 2 [1, 2],
  .rx (ubxFrame 0x01 0x07 [5, 6, 7] ++ ubxFrame 0x02 0x13 exLong)]

theorem exEvsX_runs (x : Byte) (hx : x = 0 ∨ x = 0x55) : ((exRunX x exEvsX).map fun r => (r.2.length, r.1.nav.eph.length)) = some (3, 1) := by
  rcases hx with rfl | rfl <;> decide +kernel

theorem exEvsX_nav : navLife [exSchedX] exEvsX = [.addEph, .sfrbx exLong] := by decide +kernel

example : ∃ d d' es es', Life .lenient [exSchedX] exEvsX d es ∧ Life .lenient [exSchedX] exEvsX d' es' ∧ es.length = 3 ∧
    d.nav.eph.length = 1 ∧ d.ubx.inMsg ≠ d'.ubx.inMsg ∧ List.Forall₂ (Agree (InStream (sentBy [exSchedX] exEvsX))) es es' ∧ d.nav = d'.nav := by
  obtain ⟨⟨d, es⟩, a, b⟩ := Option.map_eq_some_iff.1 (exEvsX_runs 0 (.inl rfl))
  obtain ⟨⟨d', es'⟩, a', b'⟩ := Option.map_eq_some_iff.1 (exEvsX_runs 0x55 (.inr rfl))
  have hne : ((exRunX 0 exEvsX).map fun r => r.1.ubx.inMsg.drop 2040) ≠ ((exRunX 0x55 exEvsX).map fun r => r.1.ubx.inMsg.drop 2040) := by
    decide +kernel
  rw [a, a'] at hne
  obtain ⟨b1, b2⟩ := Prod.mk.inj b
  obtain ⟨c1, c2⟩ := c127_same_partial (exRunX_life a) (exRunX_life a') (by intro i s; simp [exEvsX]) (by
    intro p hp
    rw [exEvsX_nav] at hp
    simp only [List.mem_cons, List.not_mem_nil, or_false, reduceCtorEq, false_or] at hp
    injection hp with hp
    rw [hp]; decide)
  exact ⟨d, d', es, es', exRunX_life a, exRunX_life a', b1, b2, fun he => hne (by rw [Option.map_some, Option.map_some, he]), c1, c2⟩

end Dev
end Ublox
