import Verif.Lemmas.DeviceSim
import Verif.Lemmas.NavEntry
import Verif.Spec.NavGps

/-!
# Invariant of constructed devices
-/

namespace Ublox
namespace Dev

open Nav (Nav NavCall Mode Sfrbx NavOp)

theorem ofBuffer_wf {msg : List Byte} (h : msg.length = 2048) : (navOp msg).WF := by
  unfold navOp NavOp.WF Sfrbx.ofBuffer
  simp [h]

/-- What holds of a device after the events `evs`. -/
structure Inv (md : Mode) (d : Dev) (evs : List Ev) : Prop where
  listeners : d.ubx.listeners = 0 :: (registered evs).map (· + 1)
  subs0 : d.ubx.subs 0 = [Ubx.key 0x02 0x13]
  subs : ∀ l c i, d.userSub c i l = true ↔ Subscribed evs l c i
  ubx : ∃ h, Ubx.Reach d.ubx h
  rtcm : ∃ h, Rtcm.Reach d.rtcm h
  dbg : ∃ h, Rtcm.Reach d.dbg h
  nav : ∃ ops cs, (∀ op ∈ ops, op.WF) ∧ Nav.init.run md ops = .ok (d.nav, cs)
  role : (d.role, d.rtk) = configured evs
  rlisteners : d.rtcm.listeners = List.replicate (baseCalls evs) 0
  fwd : ∀ i, i ∈ d.fwd ↔ RoverOn evs i
  baseIf : d.role = .base → (∃ i, d.rtk = some i) ∧ 1 ≤ baseCalls evs

theorem Inv.wired {md : Mode} {d : Dev} {evs : List Ev} (h : Inv md d evs) : Wired d (registered evs) := by
  obtain ⟨hu, h1⟩ := h.ubx
  obtain ⟨hr, h2⟩ := h.rtcm
  exact ⟨h.listeners, h.subs0, h1.inv.wf, h2.inv.len, fun hb => (h.baseIf hb).1⟩

theorem Inv.dabs {md : Mode} {d : Dev} {evs : List Ev} (h : Inv md d evs) : ∃ t r, DAbs d (registered evs) t r := by
  obtain ⟨hu, h1⟩ := h.ubx
  obtain ⟨hr, h2⟩ := h.rtcm
  obtain ⟨t, h3, -⟩ := h2.inv.tail
  exact ⟨_, t, h.wired, h1.inv.abs, h3⟩

/-- Received bytes change nothing that the events determine. -/
theorem Inv.rxByte {md : Mode} {d d' : Dev} {evs : List Ev} {b : Byte} {es : List Eff} (h : Inv md d evs)
    (hr : rxByte md d b = .ok (d', es)) : Inv md d' evs := by
  obtain ⟨t, r, ha⟩ := h.dabs
  obtain ⟨hd, hs, e1, -, hi⟩ := rxByte_sim ha hr
  have hnav : ∃ ops cs, (∀ op ∈ ops, op.WF) ∧ Nav.init.run md ops = .ok (d'.nav, cs) := by
    obtain ⟨ops, cs, hwf, hrun⟩ := h.nav
    unfold ItemShows at hi
    split at hi
    · obtain ⟨msg, m1, -, he⟩ := hi
      unfold ubxEffs at he
      split at he
      · rw [bind_ok] at he
        obtain ⟨⟨n', c⟩, h1, he⟩ := he
        cases he
        refine ⟨ops ++ [navOp msg], cs ++ [c], ?_,
          Nav.run_append.mpr ⟨d.nav, cs, [c], hrun, Nav.run_cons.mpr ⟨_, c, [], h1, Nav.run_nil.mpr ⟨rfl, rfl⟩, rfl⟩, rfl⟩⟩
        intro op hop
        rcases List.mem_append.1 hop with hop | hop
        · exact hwf op hop
        · rw [List.mem_singleton.1 hop]; exact ofBuffer_wf m1
      · rw [← (Prod.mk.inj (Except.ok.inj he)).1]; exact ⟨ops, cs, hwf, hrun⟩
    · rw [hi.1]; exact ⟨ops, cs, hwf, hrun⟩
  have hU : ∃ h, Ubx.Reach d'.ubx h := by
    obtain ⟨hu, h1⟩ := h.ubx
    unfold Dev.rxByte at hr
    split at hr
    · obtain ⟨-, -, -, -, ⟨r, ds, e⟩, -⟩ := rxUbx_sim ha.wired ha.ubx hr
      exact ⟨_, h1.byte e⟩
    · split at hr
      · obtain ⟨-, -, -, e, -⟩ := rxRtcm_sim ha.wired ha.rtcm hr
        rw [e]; exact ⟨_, h1⟩
      · rw [bind_ok] at hr
        obtain ⟨⟨d1, e1⟩, k1, hr⟩ := hr
        dsimp only at hr
        rw [bind_ok] at hr
        obtain ⟨⟨d2, e2⟩, k2, hr⟩ := hr
        cases hr
        obtain ⟨-, a2, -, a4, ⟨r, ds, e⟩, -⟩ := rxUbx_sim ha.wired ha.ubx k1
        obtain ⟨-, -, -, e', -⟩ := rxRtcm_sim a2 (a4 ▸ ha.rtcm) k2
        rw [e']
        exact ⟨_, h1.byte e⟩
  have hR : ∃ h, Rtcm.Reach d'.rtcm h := by
    obtain ⟨hu, h1⟩ := h.rtcm
    unfold Dev.rxByte at hr
    split at hr
    · obtain ⟨-, -, -, e, -, -⟩ := rxUbx_sim ha.wired ha.ubx hr
      rw [e]; exact ⟨_, h1⟩
    · split at hr
      · obtain ⟨-, -, -, -, -, ⟨cs, e⟩, -⟩ := rxRtcm_sim ha.wired ha.rtcm hr
        exact ⟨_, h1.byte e⟩
      · rw [bind_ok] at hr
        obtain ⟨⟨d1, e1⟩, k1, hr⟩ := hr
        dsimp only at hr
        rw [bind_ok] at hr
        obtain ⟨⟨d2, e2⟩, k2, hr⟩ := hr
        cases hr
        obtain ⟨-, a2, -, a4, -, -⟩ := rxUbx_sim ha.wired ha.ubx k1
        obtain ⟨-, -, -, -, -, ⟨cs, e⟩, -⟩ := rxRtcm_sim a2 (a4 ▸ ha.rtcm) k2
        rw [a4] at e
        exact ⟨_, h1.byte e⟩
  refine ⟨hs.listeners.trans h.listeners, (congrFun hs.subs 0).trans h.subs0, ?_, hU, hR, ?_, hnav, ?_,
    hs.rlisteners.trans h.rlisteners, ?_, ?_⟩
  · intro l c i; rw [hs.userSub]; exact h.subs l c i
  · rw [hs.dbg]; exact h.dbg
  · rw [hs.role, hs.rtk]; exact h.role
  · rw [hs.fwd]; exact h.fwd
  · rw [hs.role, hs.rtk]; exact h.baseIf

theorem Inv.readCb {md : Mode} {d d' : Dev} {evs : List Ev} {s : List Byte} {es : List Eff} (h : Inv md d evs)
    (hr : readCb md d s = .ok (d', es)) : Inv md d' evs := by
  induction s generalizing d es with
  | nil => cases hr; exact h
  | cons b bs ih =>
    obtain ⟨d1, e1, e2, h1, h2, -⟩ := readCb_cons_ok hr
    exact ih (h.rxByte h1) h2

theorem runCommands_reach {cs : List Ubx.Command} {u u' : Ubx} {w hist : List Byte} (h : Ubx.Reach u hist)
    (hr : Ubx.runCommands cs u = .ok (u', w)) : Ubx.Reach u' hist := by
  induction cs generalizing u w with
  | nil => cases hr; exact h
  | cons c cs ih =>
    unfold Ubx.runCommands Ubx.andThen at hr
    rw [bind_ok] at hr
    obtain ⟨⟨u1, w1⟩, h1, hr⟩ := hr
    dsimp only at hr
    rw [bind_ok] at hr
    obtain ⟨⟨u2, w2⟩, h2, hr⟩ := hr
    cases hr
    exact ih (h.command c h1) h2

theorem runCommands_shape (cs : List Ubx.Command) (u : Ubx) (h : u.outMsg.length = 2048) :
    ∃ o g w, o.length = 2048 ∧ Ubx.runCommands cs u = .ok ({ u with outMsg := o, gotVer := g }, w) := by
  induction cs generalizing u with
  | nil => exact ⟨u.outMsg, u.gotVer, [], h, rfl⟩
  | cons c cs ih =>
    obtain ⟨o, g, w, h1, e⟩ := Ubx.run_shape c u h
    obtain ⟨o2, g2, w2, h2, e2⟩ := ih { u with outMsg := o, gotVer := g } h1
    exact ⟨o2, g2, _, h2, Ubx.andThen_ok e e2⟩

/-- Configuration calls succeed and change nothing that the events determine. -/
theorem command_ok {d : Dev} (cs : List Ubx.Command) (h : d.ubx.outMsg.length = 2048) :
    ∃ o g w, o.length = 2048 ∧ Ubx.runCommands cs d.ubx = .ok ({ d.ubx with outMsg := o, gotVer := g }, w) ∧
      d.command cs = .ok ({ d with ubx := { d.ubx with outMsg := o, gotVer := g } }, [.toReceiver w]) := by
  obtain ⟨o, g, w, ho, e⟩ := runCommands_shape cs d.ubx h
  refine ⟨o, g, w, ho, e, ?_⟩
  unfold Dev.command
  rw [e]; rfl

theorem Inv.command {md : Mode} {d d' : Dev} {evs : List Ev} {cs : List Ubx.Command} {es : List Eff} (h : Inv md d evs)
    (hr : d.command cs = .ok (d', es)) : Inv md d' evs := by
  obtain ⟨hu, h1⟩ := h.ubx
  obtain ⟨o, g, w, ho, e, e2⟩ := command_ok cs h1.inv.wf.outLen
  rw [e2] at hr
  cases hr
  exact ⟨h.listeners, h.subs0, h.subs, ⟨hu, runCommands_reach h1 e⟩, h.rtcm, h.dbg, h.nav, h.role, h.rlisteners, h.fwd,
    h.baseIf⟩

/-! ### Construction -/

theorem Inv.start {md : Mode} {u : Ubx} {r g : Rtcm} (hu : FreshUbx u) (hr : FreshRtcm r) (hg : FreshRtcm g) :
    Inv md (start u r g) [] := by
  obtain ⟨inMsg, outMsg, modName, major, minor, h1, h2, h3, rfl⟩ := hu
  obtain ⟨inBuf, a, b, c, h4, rfl⟩ := hr
  obtain ⟨inBuf', a', b', c', h5, rfl⟩ := hg
  refine ⟨rfl, rfl, ?_, ⟨[], ((Ubx.Reach.init _ _ _ _ _ h1 h2 h3).subscribe _ _ _).register _⟩, ⟨[], .init _ _ _ _ h4⟩,
    ⟨[], .init _ _ _ _ h5⟩, ⟨[], [], by simp, rfl⟩, rfl, rfl, ?_, ?_⟩
  · intro l c i
    simp [Subscribed, Dev.userSub, Dev.start, Ubx.subscribed, Ubx.registerListener, Ubx.subscribe, Ubx.init]
  · intro i; simp [RoverOn, Dev.start]
  · intro hh; cases hh

theorem Inv.poll {md : Mode} {d : Dev} {evs : List Ev} {u : Ubx} {w : List Byte} (h : Inv md d evs)
    (hr : Ubx.sendMessage CLASS_MON MON_VER 0 { d.ubx with gotVer := false } = .ok (u, w)) :
    Inv md { d with ubx := u } evs ∧ u = { d.ubx with gotVer := false } ∧ w = ubxFrame 0x0A 0x04 [] := by
  obtain ⟨hu, h1⟩ := h.ubx
  have e := Ubx.pollVersion_ok d.ubx
  have hr' : Ubx.Command.pollVersion.run d.ubx = .ok (u, w) := hr
  rw [e] at hr'
  have k := h1.command .pollVersion e
  have := Prod.mk.inj (Except.ok.inj hr')
  obtain ⟨e1, e2⟩ := this
  subst e1
  exact ⟨⟨h.listeners, h.subs0, h.subs, ⟨hu, k⟩, h.rtcm, h.dbg, h.nav, h.role, h.rlisteners, h.fwd, h.baseIf⟩, rfl, by rw [← e2]; rfl⟩

theorem Inv.spin {md : Mode} {evs : List Ev} : ∀ {its its' : List (List Byte × Nat)} {d d' : Dev} {dt dt' : Nat} {es : List Eff},
    Inv md d evs → Dev.spin md d dt its = .ok (some (d', dt', its', es)) → Inv md d' evs := by
  intro its
  induction its with
  | nil =>
    intro its' d d' dt dt' es h hr
    unfold Dev.spin at hr
    split at hr
    · cases hr
    · cases hr; exact h
  | cons x rest ih =>
    intro its' d d' dt dt' es h hr
    obtain ⟨bs, t⟩ := x
    unfold Dev.spin at hr
    split at hr
    · rw [bind_ok] at hr
      obtain ⟨⟨d1, e1⟩, h1, hr⟩ := hr
      dsimp only at hr
      rw [bind_ok] at hr
      obtain ⟨o, h2, hr⟩ := hr
      cases o with
      | none => cases hr
      | some q =>
        obtain ⟨d2, dt2, its2, e2⟩ := q
        cases hr
        exact ih (h.readCb h1) h2
    · cases hr; exact h

theorem Inv.getVersion {md : Mode} {d d' : Dev} {evs : List Ev} {s : Ubx.Sched} {es : List Eff} {ok : Bool} (h : Inv md d evs)
    (hr : getVersion md d s = .ok (some (d', es, ok))) : Inv md d' evs := by
  unfold Dev.getVersion at hr
  rw [bind_ok] at hr
  obtain ⟨⟨u, w⟩, h1, hr⟩ := hr
  dsimp only at hr
  rw [bind_ok] at hr
  obtain ⟨⟨d1, e1⟩, h2, hr⟩ := hr
  dsimp only at hr
  rw [bind_ok] at hr
  obtain ⟨o, h3, hr⟩ := hr
  have i1 := ((h.poll h1).1).readCb h2
  match o, h3, hr with
  | none, _, hr => cases hr
  | some (d2, dt, x :: xs, e2), _, hr => cases hr
  | some (d2, dt, [], e2), h3, hr =>
    dsimp only at hr
    rw [bind_ok] at hr
    obtain ⟨⟨d3, e3⟩, h4, hr⟩ := hr
    cases hr
    exact (i1.spin h3).readCb h4

theorem Inv.tryConnect {md : Mode} {evs : List Ev} : ∀ {ss ss' : List Ubx.Sched} {d d' : Dev} {k k' : Nat} {es : List Eff},
    Inv md d evs → Dev.tryConnect md k d ss = .ok (some (d', es, k', ss')) → Inv md d' evs := by
  intro ss
  induction ss with
  | nil =>
    intro ss' d d' k k' es h hr
    unfold Dev.tryConnect at hr
    split at hr
    · cases hr
    · cases hr; exact h
  | cons s rest ih =>
    intro ss' d d' k k' es h hr
    unfold Dev.tryConnect at hr
    split at hr
    · dsimp only at hr
      rw [bind_ok] at hr
      obtain ⟨o, h1, hr⟩ := hr
      match o, h1, hr with
      | none, _, hr => cases hr
      | some (d1, e1, true), h1, hr => cases hr; exact h.getVersion h1
      | some (d1, e1, false), h1, hr =>
        dsimp only at hr
        rw [bind_ok] at hr
        obtain ⟨o2, h2, hr⟩ := hr
        cases o2 with
        | none => cases hr
        | some q =>
          obtain ⟨d2, e2, t, ss2⟩ := q
          cases hr
          exact ih (h.getVersion h1) h2
    · cases hr; exact h

theorem Inv.construct {md : Mode} {d d' : Dev} {evs : List Ev} {ss : List Ubx.Sched} {es : List Eff} (h : Inv md d evs)
    (hr : construct md d ss = .ok (some (some d', es))) : Inv md d' evs := by
  unfold Dev.construct at hr
  rw [bind_ok] at hr
  obtain ⟨o, h1, hr⟩ := hr
  match o, h1, hr with
  | none, _, hr => cases hr
  | some (d1, e1, t, x :: xs), _, hr => cases hr
  | some (d1, e1, t, []), h1, hr =>
    dsimp only at hr
    split at hr
    · cases hr
    · rw [bind_ok] at hr
      obtain ⟨⟨d2, e2⟩, h2, hr⟩ := hr
      cases hr
      exact (h.tryConnect h1).command h2

/-! ### Events -/

theorem registered_snoc (evs : List Ev) (e : Ev) :
    registered (evs ++ [e]) = registered evs ++ (match e with | .listen l => [l] | _ => []) := by
  unfold registered
  rw [List.filterMap_append]
  cases e <;> rfl

theorem configured_snoc (evs : List Ev) (e : Ev) :
    configured (evs ++ [e]) = (match e with
      | .configBase i _ => (.base, some i)
      | .configRover i => (.rover, some i)
      | _ => configured evs) := by
  unfold configured
  rw [List.foldl_append]
  cases e <;> rfl

theorem baseCalls_snoc (evs : List Ev) (e : Ev) :
    baseCalls (evs ++ [e]) = baseCalls evs + (match e with | .configBase .. => 1 | _ => 0) := by
  unfold baseCalls
  rw [List.countP_append]
  cases e <;> rfl

theorem roverOn_snoc (evs : List Ev) (e : Ev) (i : Nat) :
    RoverOn (evs ++ [e]) i ↔ RoverOn evs i ∨ e = .configRover i := by
  unfold RoverOn
  rw [List.mem_append, List.mem_singleton]
  exact ⟨fun h => h.imp id Eq.symm, fun h => h.imp id Eq.symm⟩

theorem subscribed_snoc (evs : List Ev) (e : Ev) (l : Nat) (c i : Byte) :
    Subscribed (evs ++ [e]) l c i ↔ Subscribed evs l c i ∨ e = .subscribe l c i := by
  unfold Subscribed
  rw [List.mem_append, List.mem_singleton]
  exact ⟨fun h => h.imp id Eq.symm, fun h => h.imp id Eq.symm⟩

/-- An event that is none of the interesting ones leaves the bookkeeping alone. -/
theorem Inv.quiet {md : Mode} {d : Dev} {evs : List Ev} (e : Ev) (h : Inv md d evs)
    (he : match e with | .rx _ | .rtkRx .. | .ephCb | .gephCb => True | _ => False) : Inv md d (evs ++ [e]) := by
  refine ⟨?_, h.subs0, ?_, h.ubx, h.rtcm, h.dbg, h.nav, ?_, ?_, ?_, ?_⟩
  · rw [h.listeners, registered_snoc]; cases e <;> simp_all
  · intro l c i; rw [h.subs, subscribed_snoc]; cases e <;> simp_all
  · rw [h.role, configured_snoc]; cases e <;> simp_all
  · rw [h.rlisteners, baseCalls_snoc]; cases e <;> simp_all
  · intro i; rw [h.fwd, roverOn_snoc]; cases e <;> simp_all
  · intro hb
    obtain ⟨a, b⟩ := h.baseIf hb
    exact ⟨a, by rw [baseCalls_snoc]; omega⟩

theorem nav_ephCb {md : Mode} {n : Nav} (op : NavOp) (hw : op.WF) {n' : Nav} {c : List NavCall} (hs : n.step md op = .ok (n', c))
    (h : ∃ ops cs, (∀ op ∈ ops, op.WF) ∧ Nav.init.run md ops = .ok (n, cs)) :
    ∃ ops cs, (∀ op ∈ ops, op.WF) ∧ Nav.init.run md ops = .ok (n', cs) := by
  obtain ⟨ops, cs, hwf, hrun⟩ := h
  refine ⟨ops ++ [op], cs ++ [c], ?_,
    Nav.run_append.mpr ⟨n, cs, [c], hrun, Nav.run_cons.mpr ⟨_, c, [], hs, Nav.run_nil.mpr ⟨rfl, rfl⟩, rfl⟩, rfl⟩⟩
  intro op' hop
  rcases List.mem_append.1 hop with hop | hop
  · exact hwf op' hop
  · rw [List.mem_singleton.1 hop]; exact hw

theorem Inv.step {md : Mode} {d d' : Dev} {evs : List Ev} {e : Ev} {es : List Eff} (h : Inv md d evs)
    (hr : d.step md e = .ok (d', es)) : Inv md d' (evs ++ [e]) := by
  cases e with
  | rx buf => exact (h.readCb hr).quiet _ trivial
  | rtkRx i buf =>
    unfold Dev.step Dev.rtkRx at hr
    dsimp only at hr
    split at hr
    · rw [bind_ok] at hr
      obtain ⟨⟨g, x⟩, h1, hr⟩ := hr
      cases hr
      obtain ⟨hg, h2⟩ := h.dbg
      exact Inv.quiet _ ⟨h.listeners, h.subs0, h.subs, h.ubx, h.rtcm, ⟨_, h2.feed h1⟩, h.nav, h.role, h.rlisteners, h.fwd,
        h.baseIf⟩ trivial
    · cases hr; exact h.quiet _ trivial
  | listen l =>
    cases hr
    obtain ⟨hu, h1⟩ := h.ubx
    refine ⟨?_, h.subs0, ?_, ⟨hu, h1.register _⟩, h.rtcm, h.dbg, h.nav, ?_, ?_, ?_, ?_⟩
    · rw [registered_snoc]
      show d.ubx.listeners ++ [l + 1] = _
      rw [h.listeners]; simp
    · intro l' c i
      rw [subscribed_snoc, ← h.subs]
      simp only [reduceCtorEq, or_false]
      exact Iff.rfl
    · rw [configured_snoc]; exact h.role
    · rw [baseCalls_snoc]; exact h.rlisteners
    · intro i; rw [roverOn_snoc]; simpa using h.fwd i
    · rw [baseCalls_snoc]; exact h.baseIf
  | subscribe l c i =>
    cases hr
    obtain ⟨hu, h1⟩ := h.ubx
    refine ⟨?_, ?_, ?_, ⟨hu, h1.subscribe _ _ _⟩, h.rtcm, h.dbg, h.nav, ?_, ?_, ?_, ?_⟩
    · rw [registered_snoc]
      show d.ubx.listeners = _
      rw [h.listeners]; simp
    · show (if 0 = l + 1 then (Ubx.key c i :: d.ubx.subs (l+1)) else d.ubx.subs 0) = _
      rw [if_neg (by omega)]; exact h.subs0
    · intro l' c' i'
      rw [subscribed_snoc, ← h.subs]
      show (d.ubx.subscribe (l + 1) c i).subscribed (l' + 1) c' i' = true ↔ d.ubx.subscribed (l' + 1) c' i' = true ∨ _
      have := c11_subscribe d.ubx (l + 1) (l' + 1) c i c' i'
      rw [this]
      simp only [Ev.subscribe.injEq]
      constructor
      · rintro (⟨h1, h2, h3⟩ | h1)
        · exact .inr ⟨by omega, h2.symm, h3.symm⟩
        · exact .inl h1
      · rintro (h1 | ⟨h1, h2, h3⟩)
        · exact .inr h1
        · exact .inl ⟨by omega, h2.symm, h3.symm⟩
    · rw [configured_snoc]; exact h.role
    · rw [baseCalls_snoc]; exact h.rlisteners
    · intro i; rw [roverOn_snoc]; simpa using h.fwd i
    · rw [baseCalls_snoc]; exact h.baseIf
  | ephCb =>
    cases hr
    exact Inv.quiet _ ⟨h.listeners, h.subs0, h.subs, h.ubx, h.rtcm, h.dbg, nav_ephCb .addEphCb trivial rfl h.nav, h.role,
      h.rlisteners, h.fwd, h.baseIf⟩ trivial
  | gephCb =>
    cases hr
    exact Inv.quiet _ ⟨h.listeners, h.subs0, h.subs, h.ubx, h.rtcm, h.dbg, nav_ephCb .addGephCb trivial rfl h.nav, h.role,
      h.rlisteners, h.fwd, h.baseIf⟩ trivial
  | configBase i s =>
    unfold Dev.step Dev.configBase at hr
    dsimp only at hr
    obtain ⟨hg, h2⟩ := h.rtcm
    refine Inv.command ?_ hr
    refine ⟨?_, h.subs0, ?_, h.ubx, ⟨_, h2.register 0⟩, h.dbg, h.nav, ?_, ?_, ?_, ?_⟩
    · rw [registered_snoc]; simpa using h.listeners
    · intro l c j; rw [subscribed_snoc, ← h.subs]; simp only [reduceCtorEq, or_false]; exact Iff.rfl
    · rw [configured_snoc]
    · rw [baseCalls_snoc]
      show d.rtcm.listeners ++ [0] = _
      rw [h.rlisteners, List.replicate_succ']
    · intro j; rw [roverOn_snoc]; simpa using h.fwd j
    · intro _; exact ⟨⟨i, rfl⟩, by rw [baseCalls_snoc]; dsimp only; omega⟩
  | configRover i =>
    unfold Dev.step Dev.configRover at hr
    dsimp only at hr
    rw [bind_ok] at hr
    obtain ⟨⟨d1, e1⟩, h1, hr⟩ := hr
    cases hr
    have hu := h.ubx
    obtain ⟨hh, hu⟩ := hu
    obtain ⟨o, g, w, ho, e, e2⟩ := command_ok (d := { d with role := .rover }) roverCommands hu.inv.wf.outLen
    rw [e2] at h1
    cases h1
    refine ⟨?_, h.subs0, ?_, ⟨hh, runCommands_reach hu e⟩, h.rtcm, h.dbg, h.nav, ?_, ?_, ?_, ?_⟩
    · rw [registered_snoc]; simpa using h.listeners
    · intro l c j; rw [subscribed_snoc, ← h.subs]; simp only [reduceCtorEq, or_false]; exact Iff.rfl
    · rw [configured_snoc]
    · rw [baseCalls_snoc]; exact h.rlisteners
    · intro j
      rw [roverOn_snoc, ← h.fwd]
      dsimp only
      split
      · rename_i hi
        constructor
        · exact .inl
        · rintro (hj | hj)
          · exact hj
          · cases hj; exact hi
      · rw [List.mem_cons, Ev.configRover.injEq, or_comm]
        exact or_congr Iff.rfl eq_comm
    · intro hb; cases hb

theorem Inv.run {md : Mode} {d d' : Dev} {evs evs' : List Ev} {es : List Eff} (h : Inv md d evs)
    (hr : d.run md evs' = .ok (d', es)) : Inv md d' (evs ++ evs') := by
  induction evs' generalizing d evs es with
  | nil => cases hr; simpa using h
  | cons e evs' ih =>
    unfold Dev.run at hr
    rw [bind_ok] at hr
    obtain ⟨⟨d1, f1⟩, h1, hr⟩ := hr
    dsimp only at hr
    rw [bind_ok] at hr
    obtain ⟨⟨d2, f2⟩, h2, hr⟩ := hr
    cases hr
    have := ih (h.step h1) h2
    simpa using this

theorem Reach.inv {md : Mode} {d : Dev} {evs : List Ev} {es : List Eff} (h : Reach md d evs es) : Inv md d evs := by
  obtain ⟨u, r, g, ss, d0, e0, hu, hr, hg, hc, hrun⟩ := h
  have := ((Inv.start hu hr hg).construct hc).run hrun
  simpa using this

end Dev
end Ublox
