import Verif.Spec.NavInput
import Verif.Props.DeviceLink
import Verif.Props.DeviceCtor

/-!
# C112: ephemeris callbacks are what the decoder makes of the received SFRBX frames
-/

namespace Ublox
namespace Dev

open Nav (Nav NavCall Mode Sfrbx NavOp)

/-- The payloads of the RXM-SFRBX messages among good messages. -/
def sfrbxOf (ms : List Msg) : List (List Byte) :=
  ms.filterMap fun
    | .ubx c i p => if c = 0x02 ∧ i = 0x13 then some p else none
    | .rtcm _ => none

theorem nav?_ubx (ls : List Nat) (c i : Byte) (m : List Byte) :
    (ls.map fun l => Eff.ubx l c i m).filterMap Eff.nav? = [] := by
  induction ls with
  | nil => rfl
  | cons x xs ih => simpa [Eff.nav?] using ih

theorem nav?_rtk (ls : List Nat) (f : List Byte) : (ls.map fun i => Eff.toRtk i f).filterMap Eff.nav? = [] := by
  induction ls with
  | nil => rfl
  | cons x xs ih => simpa [Eff.nav?] using ih

theorem nav?_nav (cs : List NavCall) : (cs.map Eff.nav).filterMap Eff.nav? = cs := by
  induction cs with
  | nil => rfl
  | cons x xs ih => simpa [Eff.nav?] using ih

theorem Shows.track {md : Mode} {rcv : Byte → Byte → List Nat} {lk : List Nat} {n n' : Nav} {ms : List Msg} {es : List Eff}
    (h : Shows md rcv lk n ms n' es) :
    ∃ ops cs, List.Forall₂ SameIn ((sfrbxOf ms).map .sfrbx) ops ∧ (∀ op ∈ ops, op.WF) ∧ n.run md ops = .ok (n', cs) ∧
      es.filterMap Eff.nav? = cs.flatten := by
  induction h with
  | nil => exact ⟨[], [], .nil, by simp, rfl, rfl⟩
  | rtcm _ ih =>
    obtain ⟨ops, cs, h1, hw, h2, h3⟩ := ih
    exact ⟨ops, cs, h1, hw, h2, by rw [List.filterMap_append, nav?_rtk, h3]; rfl⟩
  | @ubx n n' c i p buf ms es hn _ _ _ ih =>
    obtain ⟨ops, cs, h1, hw, h2, h3⟩ := ih
    refine ⟨ops, cs, ?_, hw, h2, by rw [List.filterMap_append, nav?_ubx, h3]; rfl⟩
    have : sfrbxOf (.ubx c i p :: ms) = sfrbxOf ms := List.filterMap_cons_none (if_neg hn)
    rw [this]; exact h1
  | @sfrbx n n1 n' p buf cs ms es hl hp hs _ ih =>
    obtain ⟨ops, css, h1, hw, h2, h3⟩ := ih
    refine ⟨_ :: ops, cs :: css, .cons (.sfrbx p buf hl hp) h1, ?_, Nav.run_cons.mpr ⟨_, _, _, hs, h2, rfl⟩, ?_⟩
    · intro op hop
      rcases List.mem_cons.1 hop with rfl | hop
      · exact ofBuffer_wf hl
      · exact hw op hop
    · rw [List.filterMap_append, List.filterMap_append, nav?_nav, nav?_ubx, h3]
      simp

theorem sfrbxOf_good (its : List Item) :
    (its.filterMap fun | .good c i p => if c = 0x02 ∧ i = 0x13 then some p else none | _ => none) = sfrbxOf (goodMsgs its) := by
  unfold sfrbxOf goodMsgs
  rw [List.filterMap_filterMap]
  refine List.filterMap_congr fun it _ => ?_
  cases it <;> rfl

theorem sfrbxIn_append (hist s : List Byte) :
    sfrbxIn (hist ++ s) = sfrbxIn hist ++ sfrbxOf (goodMsgs ((rxRun (Ubx.tailOf hist) s).2.filterMap id)) := by
  rw [← sfrbxOf_good]
  unfold sfrbxIn
  rw [Ubx.scan_append, List.filterMap_append]
  rfl

theorem newSfrbx_eq (hist s : List Byte) :
    newSfrbx hist s = sfrbxOf (goodMsgs ((rxRun (Ubx.tailOf hist) s).2.filterMap id)) := by
  unfold newSfrbx
  rw [sfrbxIn_append, List.drop_left]

/-- A device that is no base and has received `hist`; the decoder was told `ins`, the effects were `effs`. -/
structure Track (n0 : Nav) (md : Mode) (d : Dev) (evs : List Ev) (hist : List Byte) (ins : List NavIn) (effs : List Eff) : Prop where
  inv : Inv md d evs
  role : d.role ≠ .base
  reach : Ubx.Reach d.ubx hist
  nav : ∃ ops cs, List.Forall₂ SameIn ins ops ∧ (∀ op ∈ ops, op.WF) ∧ n0.run md ops = .ok (d.nav, cs) ∧
    effs.filterMap Eff.nav? = cs.flatten

theorem Track.readCb {n0 : Nav} {md : Mode} {d d' : Dev} {evs : List Ev} {hist s : List Byte} {ins : List NavIn} {effs es : List Eff}
    (h : Track n0 md d evs hist ins effs) (hr : readCb md d s = .ok (d', es)) :
    Track n0 md d' evs (hist ++ s) (ins ++ (newSfrbx hist s).map .sfrbx) (effs ++ es) := by
  obtain ⟨k1, o, k2⟩ := readCb_ubx h.role hr
  refine ⟨h.inv.readCb hr, by rw [k1]; exact h.role, h.reach.feed k2, ?_⟩
  obtain ⟨hR, r2⟩ := h.inv.rtcm
  obtain ⟨t, ht, -⟩ := r2.inv.tail
  have hd : DAbs d (registered evs) (Ubx.tailOf hist) t := ⟨h.inv.wired, h.reach.inv.abs, ht⟩
  obtain ⟨-, -, w⟩ := readCb_shows hd hr
  have hf : (d.role == .base) = false := by rw [beq_base]; exact decide_eq_false h.role
  have hl : lks d = [] := by
    unfold lks
    split
    · rename_i hx _; exact absurd hx h.role
    · rfl
  rw [hf, hl] at w
  have w := w.noLink
  rw [msgs_ubx, (dRun_ubx_all _ t s).2] at w
  obtain ⟨ops2, cs2, a1, a2, a3, a4⟩ := w.track
  obtain ⟨ops, cs, b1, b2, b3, b4⟩ := h.nav
  rw [← newSfrbx_eq] at a1
  refine ⟨ops ++ ops2, cs ++ cs2, List.rel_append b1 a1, ?_, Nav.run_append.mpr ⟨_, _, _, b3, a3, rfl⟩, ?_⟩
  · intro op hop
    rcases List.mem_append.1 hop with hop | hop
    · exact b2 op hop
    · exact a2 op hop
  · rw [List.filterMap_append, a4, b4, List.flatten_append]

theorem newSfrbx_append (h a b : List Byte) : newSfrbx h (a ++ b) = newSfrbx h a ++ newSfrbx (h ++ a) b := by
  have e1 := sfrbxIn_append h a
  have e2 := sfrbxIn_append (h ++ a) b
  have e3 := sfrbxIn_append h (a ++ b)
  rw [← newSfrbx_eq] at e1 e2 e3
  rw [← List.append_assoc, e2, e1, List.append_assoc] at e3
  exact (List.append_cancel_left e3).symm

theorem newSfrbx_nil (s : List Byte) : newSfrbx [] s = sfrbxIn s := by
  unfold newSfrbx
  have : sfrbxIn [] = [] := by
    unfold sfrbxIn
    rw [Ubx.scan_zero]; rfl
  rw [this]; rfl

theorem newSfrbx_none (h : List Byte) : newSfrbx h [] = [] := by
  unfold newSfrbx
  rw [List.append_nil, List.drop_length]

/-- What the decoder was told grows with the messages the bytes `s` complete. -/
def Track.more (ins : List NavIn) (hist s : List Byte) : List NavIn := ins ++ (newSfrbx hist s).map .sfrbx

theorem Track.more_append (ins : List NavIn) (hist a b : List Byte) :
    Track.more (Track.more ins hist a) (hist ++ a) b = Track.more ins hist (a ++ b) := by
  unfold Track.more
  rw [newSfrbx_append, List.map_append, List.append_assoc]

theorem Track.more_nil (ins : List NavIn) (hist : List Byte) : Track.more ins hist [] = ins := by
  unfold Track.more
  rw [newSfrbx_none]; simp

theorem Track.read {n0 : Nav} {md : Mode} {d d' : Dev} {evs : List Ev} {hist s : List Byte} {ins : List NavIn} {effs es : List Eff}
    (h : Track n0 md d evs hist ins effs) (hr : Dev.readCb md d s = .ok (d', es)) :
    Track n0 md d' evs (hist ++ s) (Track.more ins hist s) (effs ++ es) := h.readCb hr

/-- Effects without navigation callbacks do not matter. -/
theorem Track.mute {n0 : Nav} {md : Mode} {d : Dev} {evs : List Ev} {hist : List Byte} {ins : List NavIn} {effs es : List Eff}
    (h : Track n0 md d evs hist ins effs) (he : es.filterMap Eff.nav? = []) : Track n0 md d evs hist ins (effs ++ es) := by
  refine ⟨h.inv, h.role, h.reach, ?_⟩
  rw [List.filterMap_append, he, List.append_nil]
  exact h.nav

theorem Track.spin {n0 : Nav} {md : Mode} {evs : List Ev} : ∀ {its its' : List (List Byte × Nat)} {d d' : Dev} {dt dt' : Nat} {es effs : List Eff}
    {hist : List Byte} {ins : List NavIn},
    Track n0 md d evs hist ins effs → Dev.spin md d dt its = .ok (some (d', dt', its', es)) → its' = [] →
    Track n0 md d' evs (hist ++ its.flatMap (·.1)) (Track.more ins hist (its.flatMap (·.1))) (effs ++ es) := by
  intro its
  induction its with
  | nil =>
    intro its' d d' dt dt' es effs hist ins h hr _
    unfold Dev.spin at hr
    split at hr
    · cases hr
    · cases hr
      rw [List.flatMap_nil, List.append_nil, List.append_nil, Track.more_nil]; exact h
  | cons x rest ih =>
    intro its' d d' dt dt' es effs hist ins h hr hi
    obtain ⟨bs, t⟩ := x
    unfold Dev.spin at hr
    split at hr
    · dsimp only at hr
      rw [bind_ok] at hr
      obtain ⟨⟨d1, e1⟩, h1, hr⟩ := hr
      dsimp only at hr
      rw [bind_ok] at hr
      obtain ⟨o, h2, hr⟩ := hr
      cases o with
      | none => cases hr
      | some q =>
        obtain ⟨d2, dt2, its2, e2⟩ := q
        cases hr
        have k := ih (h.read h1) h2 hi
        rw [List.flatMap_cons, ← List.append_assoc, ← Track.more_append, ← List.append_assoc]
        exact k
    · cases hr; cases hi

theorem Track.getVersion {n0 : Nav} {md : Mode} {d d' : Dev} {evs : List Ev} {s : Ubx.Sched} {es effs : List Eff} {ok : Bool}
    {hist : List Byte} {ins : List NavIn} (h : Track n0 md d evs hist ins effs)
    (hr : getVersion md d s = .ok (some (d', es, ok))) :
    Track n0 md d' evs (hist ++ s.bytes) (Track.more ins hist s.bytes) (effs ++ es) := by
  unfold Dev.getVersion at hr
  rw [bind_ok] at hr
  obtain ⟨⟨u, w⟩, h1, hr⟩ := hr
  dsimp only at hr
  rw [bind_ok] at hr
  obtain ⟨⟨d1, e1⟩, h2, hr⟩ := hr
  dsimp only at hr
  rw [bind_ok] at hr
  obtain ⟨o, h3, hr⟩ := hr
  have p := h.inv.poll h1
  have hu : Ubx.Reach u hist := by
    have e := Ubx.pollVersion_ok d.ubx
    have hr' : Ubx.Command.pollVersion.run d.ubx = .ok (u, w) := h1
    exact h.reach.command .pollVersion hr'
  have v0 : Track n0 md { d with ubx := u } evs hist ins (effs ++ [.toReceiver w]) :=
    Track.mute (es := [.toReceiver w]) ⟨p.1, h.role, hu, h.nav⟩ rfl
  match o, h3, hr with
  | none, _, hr => cases hr
  | some (d2, dt, x :: xs, e2), _, hr => cases hr
  | some (d2, dt, [], e2), h3, hr =>
    dsimp only at hr
    rw [bind_ok] at hr
    obtain ⟨⟨d3, e3⟩, h4, hr⟩ := hr
    cases hr
    have k := ((v0.read h2).spin h3 rfl).read h4
    rw [Track.more_append, Track.more_append] at k
    unfold Ubx.Sched.bytes
    simp only [List.append_assoc] at k ⊢
    exact k

theorem Track.tryConnect {n0 : Nav} {md : Mode} {evs : List Ev} : ∀ {ss ss' : List Ubx.Sched} {d d' : Dev} {k k' : Nat} {es effs : List Eff}
    {hist : List Byte} {ins : List NavIn},
    Track n0 md d evs hist ins effs → Dev.tryConnect md k d ss = .ok (some (d', es, k', ss')) → ss' = [] →
    Track n0 md d' evs (hist ++ ctorBytes ss) (Track.more ins hist (ctorBytes ss)) (effs ++ es) := by
  intro ss
  induction ss with
  | nil =>
    intro ss' d d' k k' es effs hist ins h hr _
    unfold Dev.tryConnect at hr
    split at hr
    · cases hr
    · cases hr
      rw [show ctorBytes [] = [] from rfl, List.append_nil, List.append_nil, Track.more_nil]; exact h
  | cons s rest ih =>
    intro ss' d d' k k' es effs hist ins h hr hi
    have hc : ctorBytes (s :: rest) = s.bytes ++ ctorBytes rest := rfl
    unfold Dev.tryConnect at hr
    split at hr
    · dsimp only at hr
      rw [bind_ok] at hr
      obtain ⟨o, h1, hr⟩ := hr
      match o, h1, hr with
      | none, _, hr => cases hr
      | some (d1, e1, true), h1, hr =>
        cases hr; subst hi
        rw [hc, show ctorBytes [] = [] from rfl, List.append_nil]
        exact h.getVersion h1
      | some (d1, e1, false), h1, hr =>
        dsimp only at hr
        rw [bind_ok] at hr
        obtain ⟨o2, h2, hr⟩ := hr
        cases o2 with
        | none => cases hr
        | some q =>
          obtain ⟨d2, e2, t, ss2⟩ := q
          cases hr
          have k := ih (h.getVersion h1) h2 hi
          rw [hc, ← List.append_assoc, ← Track.more_append, ← List.append_assoc]
          exact k
    · cases hr; cases hi

theorem Track.command {n0 : Nav} {md : Mode} {d d' : Dev} {evs : List Ev} {cs : List Ubx.Command} {es effs : List Eff}
    {hist : List Byte} {ins : List NavIn} (h : Track n0 md d evs hist ins effs)
    (hr : d.command cs = .ok (d', es)) : Track n0 md d' evs hist ins (effs ++ es) := by
  have i := h.inv.command hr
  obtain ⟨o, g, w, ho, e, e2⟩ := command_ok cs h.reach.inv.wf.outLen
  rw [e2] at hr
  cases hr
  exact Track.mute (es := [.toReceiver w]) ⟨i, h.role, runCommands_reach h.reach e, h.nav⟩ rfl

theorem Track.construct {n0 : Nav} {md : Mode} {d d' : Dev} {evs : List Ev} {ss : List Ubx.Sched} {es effs : List Eff}
    {hist : List Byte} {ins : List NavIn} (h : Track n0 md d evs hist ins effs)
    (hr : construct md d ss = .ok (some (some d', es))) :
    Track n0 md d' evs (hist ++ ctorBytes ss) (Track.more ins hist (ctorBytes ss)) (effs ++ es) := by
  unfold Dev.construct at hr
  rw [bind_ok] at hr
  obtain ⟨o, h1, hr⟩ := hr
  match o, h1, hr with
  | none, _, hr => cases hr
  | some (d1, e1, t, x :: xs), _, hr => cases hr
  | some (d1, e1, t, []), h1, hr =>
    dsimp only at hr
    split at hr
    · cases hr
    · rw [bind_ok] at hr
      obtain ⟨⟨d2, e2⟩, h2, hr⟩ := hr
      cases hr
      have k := (h.tryConnect h1 rfl).command h2
      rw [List.append_assoc] at k
      exact k

theorem Track.start {md : Mode} {u : Ubx} {r g : Rtcm} (hu : FreshUbx u) (hr : FreshRtcm r) (hg : FreshRtcm g) :
    Track Nav.init md (start u r g) [] [] [] [] := by
  have i := Inv.start (md := md) hu hr hg
  obtain ⟨inMsg, outMsg, modName, major, minor, h1, h2, h3, rfl⟩ := hu
  obtain ⟨inBuf, a, b, c, h4, rfl⟩ := hr
  obtain ⟨inBuf', a', b', c', h5, rfl⟩ := hg
  exact ⟨i, (by intro h; cases h), ((Ubx.Reach.init _ _ _ _ _ h1 h2 h3).subscribe _ _ _).register _,
    [], [], .nil, by simp, rfl, rfl⟩

theorem Track.op {n0 : Nav} {md : Mode} {n n' : Nav} {effs : List Eff} {ins : List NavIn} {i : NavIn} {op : NavOp} (hi : SameIn i op) (hw : op.WF)
    (hs : n.step md op = .ok (n', []))
    (h : ∃ ops cs, List.Forall₂ SameIn ins ops ∧ (∀ op ∈ ops, op.WF) ∧ n0.run md ops = .ok (n, cs) ∧
      effs.filterMap Eff.nav? = cs.flatten) :
    ∃ ops cs, List.Forall₂ SameIn (ins ++ [i]) ops ∧ (∀ op ∈ ops, op.WF) ∧ n0.run md ops = .ok (n', cs) ∧
      effs.filterMap Eff.nav? = cs.flatten := by
  obtain ⟨ops, cs, b1, b2, b3, b4⟩ := h
  refine ⟨ops ++ [op], cs ++ [[]], List.rel_append b1 (.cons hi .nil), ?_,
    Nav.run_append.mpr ⟨n, cs, [[]], b3, Nav.run_cons.mpr ⟨_, [], [], hs, Nav.run_nil.mpr ⟨rfl, rfl⟩, rfl⟩, rfl⟩, ?_⟩
  · intro op' hop
    rcases List.mem_append.1 hop with hop | hop
    · exact b2 op' hop
    · rw [List.mem_singleton.1 hop]; exact hw
  · rw [List.flatten_append, b4]; simp

/-- The bytes received in an event. -/
def rxOf : Ev → List Byte
  | .rx b => b
  | _ => []

theorem Track.step {n0 : Nav} {md : Mode} {d d' : Dev} {evs : List Ev} {e : Ev} {es effs : List Eff} {hist : List Byte} {ins : List NavIn}
    (h : Track n0 md d evs hist ins effs) (hb : ∀ i s, e ≠ .configBase i s) (hr : d.step md e = .ok (d', es)) :
    Track n0 md d' (evs ++ [e]) (hist ++ rxOf e) (ins ++ navIns hist [e]) (effs ++ es) := by
  have i := h.inv.step hr
  cases e with
  | rx buf =>
    have k := h.readCb hr
    refine ⟨i, k.role, k.reach, ?_⟩
    simp only [navIns, List.append_nil]
    exact k.nav
  | rtkRx j buf =>
    unfold Dev.step Dev.rtkRx at hr
    dsimp only at hr
    simp only [navIns, rxOf, List.append_nil]
    split at hr
    · rw [bind_ok] at hr
      obtain ⟨⟨g, x⟩, h1, hr⟩ := hr
      cases hr
      exact Track.mute ⟨i, h.role, h.reach, h.nav⟩ rfl
    · cases hr; exact Track.mute ⟨i, h.role, h.reach, h.nav⟩ rfl
  | listen l =>
    cases hr
    simp only [navIns, rxOf, List.append_nil]
    exact ⟨i, h.role, h.reach.register _, h.nav⟩
  | subscribe l c j =>
    cases hr
    simp only [navIns, rxOf, List.append_nil]
    exact ⟨i, h.role, h.reach.subscribe _ _ _, h.nav⟩
  | ephCb =>
    cases hr
    simp only [navIns, rxOf, List.append_nil]
    exact ⟨i, h.role, h.reach, Track.op .eph trivial rfl h.nav⟩
  | gephCb =>
    cases hr
    simp only [navIns, rxOf, List.append_nil]
    exact ⟨i, h.role, h.reach, Track.op .geph trivial rfl h.nav⟩
  | configBase j s => exact absurd rfl (hb j s)
  | configRover j =>
    unfold Dev.step Dev.configRover at hr
    dsimp only at hr
    rw [bind_ok] at hr
    obtain ⟨⟨d1, e1⟩, h1, hr⟩ := hr
    cases hr
    simp only [navIns, rxOf, List.append_nil]
    obtain ⟨o, g, w, ho, e, e2⟩ := command_ok (d := { d with role := .rover }) roverCommands h.reach.inv.wf.outLen
    rw [e2] at h1
    cases h1
    exact Track.mute ⟨i, (by intro hh; cases hh), runCommands_reach h.reach e, h.nav⟩ rfl

theorem navIns_cons (hist : List Byte) (e : Ev) (evs : List Ev) :
    navIns hist (e :: evs) = navIns hist [e] ++ navIns (hist ++ rxOf e) evs := by
  cases e <;> simp [navIns, rxOf]

theorem Track.run {n0 : Nav} {md : Mode} {d d' : Dev} {evs evs' : List Ev} {es effs : List Eff} {hist : List Byte} {ins : List NavIn}
    (h : Track n0 md d evs hist ins effs) (hb : ∀ i s, Ev.configBase i s ∉ evs') (hr : d.run md evs' = .ok (d', es)) :
    Track n0 md d' (evs ++ evs') (hist ++ evs'.flatMap rxOf) (ins ++ navIns hist evs') (effs ++ es) := by
  induction evs' generalizing d evs hist ins effs es with
  | nil => cases hr; simpa [navIns] using h
  | cons e evs' ih =>
    unfold Dev.run at hr
    rw [bind_ok] at hr
    obtain ⟨⟨d1, f1⟩, h1, hr⟩ := hr
    dsimp only at hr
    rw [bind_ok] at hr
    obtain ⟨⟨d2, f2⟩, h2, hr⟩ := hr
    cases hr
    have k := ih (h.step (fun i s he => hb i s (he ▸ List.mem_cons_self)) h1)
      (fun i s he => hb i s (List.mem_cons_of_mem _ he)) h2
    rw [navIns_cons, List.flatMap_cons]
    simp only [List.append_assoc] at k ⊢
    exact k

/-- A device after its construction. -/
theorem Life.track {md : Mode} {ss : List Ubx.Sched} {evs : List Ev} {d : Dev} {es : List Eff} (h : Life md ss evs d es)
    (hb : ∀ i s, Ev.configBase i s ∉ evs) :
    Track Nav.init md d evs (ctorBytes ss ++ evs.flatMap rxOf) (navLife ss evs) es := by
  obtain ⟨u, r, g, d0, e0, hu, hr, hg, hc, hrun⟩ := h
  have t0 := (Track.start (md := md) hu hr hg).construct hc
  have he : e0.filterMap Eff.nav? = [] := by
    obtain ⟨-, -, -, hes⟩ := c19_constructor hu hr hg hc
    rw [hes]
    refine List.filterMap_eq_nil_iff.2 fun e hm => ?_
    rcases List.mem_append.1 hm with hm | hm
    · rw [List.eq_of_mem_replicate hm]; rfl
    · obtain ⟨_, _, rfl⟩ := List.mem_map.1 hm; rfl
  have t1 : Track Nav.init md d0 [] (ctorBytes ss) ((sfrbxIn (ctorBytes ss)).map .sfrbx) [] := by
    refine ⟨t0.inv, t0.role, by simpa using t0.reach, ?_⟩
    have k := t0.nav
    rw [List.nil_append, he] at k
    rw [← newSfrbx_nil]
    exact k
  exact t1.run hb hrun

/-- `Told md n0 ins n es`: a decoder in state `n0` that is told `ins` ends up in state `n` and makes the ephemeris callbacks among `es`. -/
def Told (md : Mode) (n0 : Nav) (ins : List NavIn) (n : Nav) (es : List Eff) : Prop :=
  ∃ ops cs, List.Forall₂ SameIn ins ops ∧ n0.run md ops = .ok (n, cs) ∧ es.filterMap Eff.nav? = cs.flatten

theorem Told.append {md : Mode} {n0 n1 n2 : Nav} {i1 i2 : List NavIn} {e1 e2 : List Eff} (h1 : Told md n0 i1 n1 e1) (h2 : Told md n1 i2 n2 e2) :
    Told md n0 (i1 ++ i2) n2 (e1 ++ e2) := by
  obtain ⟨ops, cs, b1, b3, b4⟩ := h1
  obtain ⟨ops2, cs2, c1, c3, c4⟩ := h2
  refine ⟨ops ++ ops2, cs ++ cs2, List.rel_append b1 c1, Nav.run_append.mpr ⟨_, _, _, b3, c3, rfl⟩, ?_⟩
  rw [List.filterMap_append, b4, c4, List.flatten_append]

/-- **C112**: in the life of a device that is never configured as a base, the ephemeris callbacks that are called are exactly
those of a navigation decoder that is told the callbacks registered and the good RXM-SFRBX frames received, in this order,
and nothing else. -/
theorem c112 {md : Mode} {ss : List Ubx.Sched} {evs : List Ev} {d : Dev} {es : List Eff} (h : Life md ss evs d es)
    (hb : ∀ i s, Ev.configBase i s ∉ evs) :
    ∃ ops cs, List.Forall₂ SameIn (navLife ss evs) ops ∧ Nav.init.run md ops = .ok (d.nav, cs) ∧
      es.filterMap Eff.nav? = cs.flatten := by
  have t2 := h.track hb
  obtain ⟨ops, cs, b1, -, b3, b4⟩ := t2.nav
  exact ⟨ops, cs, b1, b3, b4⟩

end Dev
end Ublox
