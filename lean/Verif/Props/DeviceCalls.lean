import Verif.Props.DeviceCtor

/-!
# C85, C87: who is called
-/

namespace Ublox
namespace Dev

open Nav (Nav NavCall Mode Sfrbx)

/-- Number of ephemeris callbacks registered so far. -/
def ephCallbacks (evs : List Ev) : Nat := evs.countP fun | .ephCb => true | _ => false
/-- Number of GLONASS ephemeris callbacks registered so far. -/
def gephCallbacks (evs : List Ev) : Nat := evs.countP fun | .gephCb => true | _ => false

theorem nav_calls {md : Mode} {junk : List Byte} {n n' : Nav} {m : Sfrbx} {cs : List NavCall}
    (h : n.step md (.sfrbx junk m) = .ok (n', cs)) :
    n'.ephCbs = n.ephCbs ∧ n'.gephCbs = n.gephCbs ∧
    (∀ k e, NavCall.eph k e ∈ cs → k < n.ephCbs) ∧ (∀ k g, NavCall.geph k g ∈ cs → k < n.gephCbs) := by
  by_cases hg : m.gnssId = Nav.GLONASS
  · obtain ⟨r, -, rfl, nx⟩ := Nav.step_glo hg h
    refine ⟨nx.cbs.1, nx.cbs.2, fun k e hk => ?_, fun k g hk => ?_⟩
    · unfold Nav.gephCalls at hk
      simp only [List.mem_flatMap, List.mem_map, List.mem_range] at hk
      obtain ⟨_, _, _, _, hk⟩ := hk
      cases hk
    · unfold Nav.gephCalls at hk
      simp only [List.mem_flatMap, List.mem_map, List.mem_range] at hk
      obtain ⟨_, _, j, hj, hk⟩ := hk
      cases hk; exact hj
  · obtain ⟨r, -, rfl, nx⟩ := Nav.step_eph hg h
    refine ⟨nx.cbs.1, nx.cbs.2, fun k e hk => ?_, fun k g hk => ?_⟩
    · unfold Nav.ephCalls at hk
      simp only [List.mem_flatMap, List.mem_map, List.mem_range] at hk
      obtain ⟨_, _, j, hj, hk⟩ := hk
      cases hk; exact hj
    · unfold Nav.ephCalls at hk
      simp only [List.mem_flatMap, List.mem_map, List.mem_range] at hk
      obtain ⟨_, _, _, _, hk⟩ := hk
      cases hk

/-- The effects a sequence of messages may have. -/
def Allowed (rcv : Byte → Byte → List Nat) (lk : List Nat) (ne ng : Nat) : Eff → Prop
  | .ubx l c i m => l ∈ rcv c i ∧ m.length = 2048
  | .nav (.eph k _) => k < ne
  | .nav (.geph k _) => k < ng
  | .toRtk i _ => i ∈ lk
  | .toReceiver _ => False

theorem Shows.allowed {md : Mode} {rcv : Byte → Byte → List Nat} {lk : List Nat} {n n' : Nav} {ms : List Msg} {es : List Eff}
    (h : Shows md rcv lk n ms n' es) :
    n'.ephCbs = n.ephCbs ∧ n'.gephCbs = n.gephCbs ∧ ∀ e ∈ es, Allowed rcv lk n.ephCbs n.gephCbs e := by
  induction h with
  | nil => exact ⟨rfl, rfl, fun e he => by cases he⟩
  | @rtcm n n' f ms es _ ih =>
    refine ⟨ih.1, ih.2.1, fun e he => ?_⟩
    rcases List.mem_append.1 he with he | he
    · obtain ⟨i, hi, rfl⟩ := List.mem_map.1 he
      exact hi
    · exact ih.2.2 e he
  | @ubx n n' c i p buf ms es _ hb _ _ ih =>
    refine ⟨ih.1, ih.2.1, fun e he => ?_⟩
    rcases List.mem_append.1 he with he | he
    · obtain ⟨l, hl, rfl⟩ := List.mem_map.1 he
      exact ⟨hl, hb⟩
    · exact ih.2.2 e he
  | @sfrbx n n1 n' p buf cs ms es hb _ hs _ ih =>
    obtain ⟨k1, k2, k3, k4⟩ := nav_calls hs
    rw [k1, k2] at ih
    refine ⟨ih.1, ih.2.1, fun e he => ?_⟩
    rcases List.mem_append.1 he with he | he
    · rcases List.mem_append.1 he with he | he
      · obtain ⟨x, hx, rfl⟩ := List.mem_map.1 he
        cases x with
        | eph k e => exact k3 k e hx
        | geph k g => exact k4 k g hx
      · obtain ⟨l, hl, rfl⟩ := List.mem_map.1 he
        exact ⟨hl, hb⟩
    · exact ih.2.2 e he

/-- The constructor registers no callback. -/
theorem construct_cbs {md : Mode} {u : Ubx} {r g : Rtcm} {ss : List Ubx.Sched} {d : Dev} {es : List Eff}
    (hu : FreshUbx u) (hr : FreshRtcm r) (hg : FreshRtcm g)
    (h : construct md (start u r g) ss = .ok (some (some d, es))) : d.nav.ephCbs = 0 ∧ d.nav.gephCbs = 0 := by
  obtain ⟨v0, -⟩ := virgin_start (md := md) hu hr hg
  generalize start u r g = d0 at *
  unfold construct at h
  rw [bind_ok] at h
  obtain ⟨o, h1, h⟩ := h
  match o, h1, h with
  | none, _, h => cases h
  | some (d1, e1, t, x :: xs), _, h => cases h
  | some (d1, e1, t, []), h1, h =>
    dsimp only at h
    have v1 : Virgin md d1 := by
      rcases tryConnect_cases h1 with ⟨s, rfl, rfl, g1⟩ | ⟨s1, s2, dm, ea, eb, rr, rfl, rfl, g1, g2, rfl⟩
      · exact (v0.getVersion g1).2
      · exact ((v0.getVersion g1).2.getVersion g2).2
    split at h
    · cases h
    · rw [bind_ok] at h
      obtain ⟨⟨d2, e2⟩, h2, h⟩ := h
      unfold command at h2
      rw [bind_ok] at h2
      obtain ⟨⟨u2, w⟩, -, h2⟩ := h2
      cases h2
      cases h
      exact v1.cbs

theorem command_nav {d d' : Dev} {cs : List Ubx.Command} {es : List Eff} (h : command d cs = .ok (d', es)) :
    d'.nav = d.nav := by
  unfold command at h
  rw [bind_ok] at h
  obtain ⟨⟨u2, w⟩, -, h⟩ := h
  cases h
  rfl

theorem count_snoc (evs : List Ev) (e : Ev) :
    ephCallbacks (evs ++ [e]) = ephCallbacks evs + (if e = .ephCb then 1 else 0) ∧
    gephCallbacks (evs ++ [e]) = gephCallbacks evs + (if e = .gephCb then 1 else 0) := by
  unfold ephCallbacks gephCallbacks
  rw [List.countP_append, List.countP_append]
  cases e <;> exact ⟨rfl, rfl⟩

theorem step_cbs {md : Mode} {d d' : Dev} {evs : List Ev} {e : Ev} {es : List Eff} (hi : Inv md d evs)
    (h : d.step md e = .ok (d', es)) :
    d'.nav.ephCbs = d.nav.ephCbs + (if e = .ephCb then 1 else 0) ∧
    d'.nav.gephCbs = d.nav.gephCbs + (if e = .gephCb then 1 else 0) := by
  cases e with
  | rx s =>
    obtain ⟨t, r, ha⟩ := hi.dabs
    obtain ⟨-, -, w⟩ := readCb_shows ha h
    exact ⟨w.allowed.1, w.allowed.2.1⟩
  | rtkRx j s =>
    change rtkRx d j s = _ at h
    unfold rtkRx at h
    split at h
    · rw [bind_ok] at h
      obtain ⟨⟨g, _⟩, -, h⟩ := h
      cases h; exact ⟨rfl, rfl⟩
    · cases h; exact ⟨rfl, rfl⟩
  | listen l => cases h; exact ⟨rfl, rfl⟩
  | subscribe l c i => cases h; exact ⟨rfl, rfl⟩
  | ephCb => cases h; exact ⟨rfl, rfl⟩
  | gephCb => cases h; exact ⟨rfl, rfl⟩
  | configBase i s =>
    have := command_nav h
    rw [this]; exact ⟨rfl, rfl⟩
  | configRover i =>
    change configRover d i = _ at h
    unfold configRover at h
    rw [bind_ok] at h
    obtain ⟨⟨d1, e1⟩, h1, h⟩ := h
    have := command_nav h1
    cases h
    show d1.nav.ephCbs = _ ∧ d1.nav.gephCbs = _
    rw [this]; exact ⟨rfl, rfl⟩

theorem run_cbs {md : Mode} {d d' : Dev} {pre evs : List Ev} {es : List Eff} (hi : Inv md d pre)
    (h0 : d.nav.ephCbs = ephCallbacks pre ∧ d.nav.gephCbs = gephCallbacks pre)
    (h : run md d evs = .ok (d', es)) :
    d'.nav.ephCbs = ephCallbacks (pre ++ evs) ∧ d'.nav.gephCbs = gephCallbacks (pre ++ evs) := by
  induction evs generalizing d pre es with
  | nil => cases h; simpa using h0
  | cons e evs ih =>
    rw [run, bind_ok] at h
    obtain ⟨⟨d1, e1⟩, h1, h⟩ := h
    dsimp only at h
    rw [bind_ok] at h
    obtain ⟨⟨d2, e2⟩, h2, h⟩ := h
    cases h
    have k := step_cbs hi h1
    have c := count_snoc pre e
    have := ih (hi.step h1) (by rw [k.1, k.2, c.1, c.2, h0.1, h0.2]; exact ⟨rfl, rfl⟩) h2
    simpa using this

theorem Reach.cbs {md : Mode} {d : Dev} {evs : List Ev} {es : List Eff} (h : Reach md d evs es) :
    d.nav.ephCbs = ephCallbacks evs ∧ d.nav.gephCbs = gephCallbacks evs := by
  obtain ⟨u, r, g, ss, d0, e0, hu, hr, hg, hc, hrun⟩ := h
  exact run_cbs (pre := []) ((Inv.start hu hr hg).construct hc) (construct_cbs hu hr hg hc) hrun

/-- **C87.** Whatever the device has been through and whatever happens next: a listener is called only if it had been
registered and had subscribed to that class and id, and then with a full 2048-byte buffer; an ephemeris callback is called
only if it had been registered; an RTK interface is written to only if `config_base` had been called with it. -/
theorem c87_only_asked {md : Mode} {d d' : Dev} {evs : List Ev} {es0 es : List Eff} {e : Ev}
    (h : Reach md d evs es0) (hs : d.step md e = .ok (d', es)) :
    (∀ l c i m, .ubx l c i m ∈ es → l ∈ registered evs ∧ Subscribed evs l c i ∧ m.length = 2048) ∧
    (∀ k x, .nav (.eph k x) ∈ es → k < ephCallbacks evs) ∧
    (∀ k x, .nav (.geph k x) ∈ es → k < gephCallbacks evs) ∧
    (∀ j b, .toRtk j b ∈ es → ∃ s, .configBase j s ∈ evs) := by
  have hi := h.inv
  have none_of : ∀ {es : List Eff}, (∀ x ∈ es, ∃ b, x = .toReceiver b) →
      (∀ l c i m, .ubx l c i m ∈ es → l ∈ registered evs ∧ Subscribed evs l c i ∧ m.length = 2048) ∧
      (∀ k x, .nav (.eph k x) ∈ es → k < ephCallbacks evs) ∧
      (∀ k x, .nav (.geph k x) ∈ es → k < gephCallbacks evs) ∧
      (∀ j b, .toRtk j b ∈ es → ∃ s, .configBase j s ∈ evs) := by
    intro es hn
    refine ⟨fun l c i m hm => ?_, fun k x hm => ?_, fun k x hm => ?_, fun j b hm => ?_⟩ <;>
    · obtain ⟨_, hb⟩ := hn _ hm
      cases hb
  have oth := c32_other_calls h hs
  cases e with
  | rx s =>
    obtain ⟨t, r, ha⟩ := hi.dabs
    obtain ⟨-, -, w⟩ := readCb_shows ha hs
    rw [hi.recipients, hi.links] at w
    have hA := w.allowed.2.2
    rw [h.cbs.1, h.cbs.2] at hA
    refine ⟨fun l c i m hm => ?_, fun k x hm => hA _ hm, fun k x hm => hA _ hm, fun j b hm => ?_⟩
    · have := hA _ hm
      have h1 := List.mem_filter.1 this.1
      exact ⟨h1.1, by simpa using h1.2, this.2⟩
    · have hj : j ∈ links evs := hA _ hm
      unfold links at hj
      split at hj
      · rename_i i hc
        have : j = i := List.eq_of_mem_replicate hj
        subst this
        have key : ∀ (l : List Ev) (i : Nat), configured l = (.base, some i) → ∃ s, .configBase i s ∈ l := by
          intro l
          induction l using List.reverseRecOn with
          | nil => intro i hh; simp [configured] at hh
          | append_singleton l e ih =>
            intro i hh
            rw [configured_snoc] at hh
            cases e with
            | configBase k s => cases hh; exact ⟨s, by simp⟩
            | configRover k => cases hh
            | _ => obtain ⟨s, hs⟩ := ih i hh; exact ⟨s, List.mem_append_left _ hs⟩
        exact key evs j hc
      · cases hj
  | rtkRx j s =>
    change rtkRx d j s = _ at hs
    unfold rtkRx at hs
    split at hs
    · rw [bind_ok] at hs
      obtain ⟨⟨g, _⟩, -, hs⟩ := hs
      cases hs
      exact none_of fun x hx => ⟨s, List.mem_singleton.1 hx⟩
    · cases hs
      exact none_of fun x hx => by cases hx
  | configBase i s =>
    obtain ⟨ms, rfl⟩ := oth
    exact none_of fun x hx => ⟨_, List.mem_singleton.1 hx⟩
  | configRover i =>
    obtain ⟨ms, rfl⟩ := oth
    exact none_of fun x hx => ⟨_, List.mem_singleton.1 hx⟩
  | _ => cases oth; exact none_of fun x hx => by cases hx

/-- A call of each kind can happen. -/
example : (exRun [.listen 5, .subscribe 5 0x01 0x07, .configBase 9 false, .rx (ubxFrame 0x01 0x07 [1, 2] ++ exFrame)]).map
    (fun x => x.2.filterMap brief) = some [(5, [0x01, 0x07, 1, 2, 0, 0, 0]), (9, exFrame)] := by decide +kernel

end Dev
end Ublox
