import Verif.Spec.VersionLife
import Verif.Props.Version
import Verif.Props.HarmlessBase
/-! # C149: the version the driver knows, through all changes of role -/

namespace Ublox.Dev
open Ubx MonVer
open Nav (Nav NavCall Mode Sfrbx NavOp)
open Rtcm (RTail REvent rtStep rtRun)

/-- What the parser knows of the receiver's version. -/
def ver (u : Ubx) : Int × Int × List Byte := (u.major, u.minor, u.modName)

/-- The version known is that of the report `p`. -/
def Learned (u : Ubx) (p : List Byte) : Prop := ∀ maj min name, Tells p maj min name →
  u.major = decVal maj ∧ u.minor = decVal min ∧ u.modName.takeWhile (· ≠ 0) = name

theorem Learned.of_ver {u v : Ubx} {p : List Byte} (h : ver v = ver u) (hl : Learned u p) : Learned v p := by
  intro maj min name ht
  obtain ⟨h1, h23⟩ := Prod.mk.inj h
  obtain ⟨h2, h3⟩ := Prod.mk.inj h23
  obtain ⟨a, b, c⟩ := hl maj min name ht
  exact ⟨h1.trans a, h2.trans b, by rw [h3]; exact c⟩

/-- After the reports `rs` the last one is known; if there are none, nothing has changed. -/
def After (u : Ubx) (rs : List (List Byte)) (v : Ubx) : Prop := (rs = [] → ver v = ver u) ∧ ∀ p, rs.getLast? = some p → Learned v p

theorem After.nil {u v : Ubx} (h : ver v = ver u) : After u [] v := ⟨fun _ => h, fun p hp => by cases hp⟩

theorem After.append {u v w : Ubx} {a b : List (List Byte)} (h1 : After u a v) (h2 : After v b w) : After u (a ++ b) w := by
  constructor
  · intro h
    obtain ⟨ha, hb⟩ := List.append_eq_nil_iff.1 h
    exact (h2.1 hb).trans (h1.1 ha)
  · intro p hp
    rw [List.getLast?_append] at hp
    cases hb : b.getLast? with
    | some q =>
      rw [hb] at hp
      exact h2.2 p (by rw [hb]; simpa using hp)
    | none =>
      rw [hb] at hp
      exact (h1.2 p (by simpa using hp)).of_ver (h2.1 (List.getLast?_eq_none_iff.1 hb))

theorem versionsIn_append (a b : List Msg) : versionsIn (a ++ b) = versionsIn a ++ versionsIn b := List.filterMap_append ..

/-- The report completed by an item. -/
def itemReport (it : Option Item) : List (List Byte) := reports it.toList

theorem readCb_after {u u' : Ubx} {t : Tail} {b : Byte} {r : Bool} {ds : List Delivery} (hwf : WF u) (ha : Abs u t)
    (hr : Ubx.readCb u b = .ok (u', r, ds)) : After u (itemReport (rxStep t b).2) u' := by
  obtain ⟨-, hs⟩ := readCb_sim hwf ha hr
  by_cases hg : ∃ q, (rxStep t b).2 = some (.good 0x0A 0x04 q)
  · obtain ⟨q, hq⟩ := hg
    rw [hq]
    refine ⟨fun h => (by cases h), fun p hp => ?_⟩
    obtain rfl : q = p := by simpa [itemReport, reports] using hp
    intro maj min name ht
    obtain ⟨v, w, hv, hm, hcb, e1, e2, e3⟩ := version_good hwf ha hr hq
    obtain ⟨rp, a, b', rfl, hf, h7, ha, hb, hsay⟩ := ht
    have hvt := versionText hf hsay ha hb v.inMsg (.inl h7)
    have hvt : VersionText v.inMsg (3 * a) (3 * b') maj min name := by
      have e : v.inMsg = rp.payload ++ v.inMsg.drop rp.payload.length := by
        conv_lhs => rw [← List.take_append_drop rp.payload.length v.inMsg, hv]
      rw [e]; exact hvt
    rw [versionCb_text v hvt hm] at hcb
    have hw := Except.ok.inj hcb
    rw [← hw] at e1 e2 e3
    refine ⟨e1, e2, ?_⟩
    rw [e3]
    dsimp only
    rw [List.append_assoc, List.takeWhile_append_of_pos fun d hd => by simpa using hvt.nameZ d hd]
    simp
  · have hk := hs.verKeep fun q hq => hg ⟨q, hq⟩
    have hn : itemReport (rxStep t b).2 = [] := by
      unfold itemReport
      rw [reports_nil]
      intro p hp
      exact hg ⟨p, Option.mem_toList.1 hp⟩
    rw [hn]
    refine .nil ?_
    unfold ver
    rw [hk.1, hk.2.1, hk.2.2]

theorem rxByte_after {md : Mode} {d d' : Dev} {users : List Nat} {t : Tail} {r : RTail} {b : Byte} {es : List Eff}
    (ha : DAbs d users t r) (h : rxByte md d b = .ok (d', es)) :
    After d.ubx (itemReport (dStep (d.role == .base) t r b).2.2.1) d'.ubx := by
  unfold rxByte at h
  unfold dStep
  rw [uOpen_iff ha.ubx, rOpen_iff ha.rtcm] at h
  split at h
  · rename_i hu
    rw [if_pos hu]
    obtain ⟨-, -, -, -, ⟨r, ds, hr⟩, -⟩ := rxUbx_sim ha.wired ha.ubx h
    exact readCb_after ha.wired.wf ha.ubx hr
  · rename_i hu
    rw [if_neg hu]
    split at h
    · rename_i hr
      rw [if_pos hr, (rxRtcm_ubx h).1]
      exact .nil rfl
    · rename_i hr
      rw [if_neg hr]
      obtain ⟨⟨d1, e1⟩, h1, h⟩ := bind_ok.1 h
      dsimp only at h
      obtain ⟨⟨d2, e2⟩, h2, h⟩ := bind_ok.1 h
      cases h
      obtain ⟨-, -, -, -, ⟨r, ds, hr⟩, -⟩ := rxUbx_sim ha.wired ha.ubx h1
      rw [(rxRtcm_ubx h2).1]
      exact readCb_after ha.wired.wf ha.ubx hr

theorem versionsIn_cons (x : Option Item × Option REvent) (l : List (Option Item × Option REvent)) :
    versionsIn (msgs (x :: l)) = itemReport x.1 ++ versionsIn (msgs l) := by
  obtain ⟨it, ev⟩ := x
  have e2 : ∀ f : List Byte, versionsIn (open Classical in if CrcValid f then [Msg.rtcm f] else []) = [] := by
    intro f; split <;> rfl
  match it, ev with
  | none, none | none, some .zeroLen | some .badChecksum, none | some .badChecksum, some .zeroLen
  | some .tooLong, none | some .tooLong, some .zeroLen => rfl
  | some (.good c i p), none | some (.good c i p), some .zeroLen =>
    show versionsIn (([Msg.ubx c i p] ++ []) ++ msgs l) = _
    rw [versionsIn_append]; rfl
  | none, some (.frame f) | some .badChecksum, some (.frame f) | some .tooLong, some (.frame f) =>
    show versionsIn (([] ++ (open Classical in if CrcValid f then [Msg.rtcm f] else [])) ++ msgs l) = _
    rw [versionsIn_append, versionsIn_append, e2]; rfl
  | some (.good c i p), some (.frame f) =>
    show versionsIn (([Msg.ubx c i p] ++ (open Classical in if CrcValid f then [Msg.rtcm f] else [])) ++ msgs l) = _
    rw [versionsIn_append, versionsIn_append, e2, List.append_nil]; rfl

theorem readCb_afterRun {md : Mode} {d d' : Dev} {users : List Nat} {t : Tail} {r : RTail} {s : List Byte} {es : List Eff}
    (ha : DAbs d users t r) (h : readCb md d s = .ok (d', es)) :
    After d.ubx (versionsIn (msgs (dRun (d.role == .base) t r s).2.2)) d'.ubx := by
  induction s generalizing d t r es with
  | nil => cases h; exact .nil rfl
  | cons b bs ih =>
    obtain ⟨d1, e1, e2, h1, h2, rfl⟩ := readCb_cons_ok h
    obtain ⟨a1, s1, -⟩ := rxByte_sim ha h1
    have k := ih a1 h2
    rw [s1.role] at k
    simp only [dRun]
    rw [versionsIn_cons]
    exact (rxByte_after ha h1).append k


theorem versionsIn_ubx (ms : List Msg) : versionsIn (ms.filterMap Msg.ubx?) = versionsIn ms := by
  unfold versionsIn
  rw [List.filterMap_filterMap]
  refine List.filterMap_congr fun m _ => ?_
  cases m <;> rfl

/-- What is received in any further events, on top of a history in one role. -/
theorem BTrack.after {md : Mode} {n0 : Nav} {base : Bool} {prev : Byte} {r0 : RTail} : ∀ {evs' evs : List Ev} {d d' : Dev}
    {es effs : List Eff} {hist : List Byte} {ins : List NavIn}, BTrack md n0 base prev r0 d evs hist ins effs → Keeps base evs' →
    d.run md evs' = .ok (d', es) → After d.ubx (versionsIn (msgs (dRun base (dRun base (.idle prev) r0 hist).1
      (dRun base (.idle prev) r0 hist).2.1 (received evs')).2.2)) d'.ubx := by
  intro evs'
  induction evs' with
  | nil => intro evs d d' es effs hist ins _ _ hr; cases hr; exact .nil rfl
  | cons e rest ih =>
    intro evs d d' es effs hist ins h hb hr
    obtain ⟨d1, e1, e2, k1, k2, rfl⟩ := run_cons_ok hr
    have k := ih (h.step hb.cons.1 k1) hb.cons.2 k2
    have hrec : received (e :: rest) = rxOf e ++ received rest := by
      rw [← rxOf_received, ← rxOf_received, List.flatMap_cons]
    rw [hrec, dRun_append, msgs_append, versionsIn_append]
    refine After.append ?_ (by rw [dRun_append] at k; exact k)
    obtain ⟨hh, hreach⟩ := h.inv.ubx
    have quiet : rxOf e = [] → ver d1.ubx = ver d.ubx → After d.ubx (versionsIn (msgs (dRun base (dRun base (.idle prev) r0 hist).1
        (dRun base (.idle prev) r0 hist).2.1 (rxOf e)).2.2)) d1.ubx := by
      intro h0 hv
      rw [h0]; exact .nil hv
    cases e with
    | rx b =>
      have := readCb_afterRun h.abs k1
      rw [h.role] at this
      exact this
    | rtkRx j buf =>
      refine quiet rfl ?_
      unfold Dev.step Dev.rtkRx at k1
      dsimp only at k1
      split at k1
      · obtain ⟨⟨g, x⟩, -, k1⟩ := bind_ok.1 k1
        cases k1; rfl
      · cases k1; rfl
    | listen l => cases k1; exact quiet rfl rfl
    | subscribe l c j => cases k1; exact quiet rfl rfl
    | ephCb => cases k1; exact quiet rfl rfl
    | gephCb => cases k1; exact quiet rfl rfl
    | configRover j =>
      refine quiet rfl ?_
      unfold Dev.step Dev.configRover at k1
      dsimp only at k1
      obtain ⟨⟨d2, f1⟩, k3, k1⟩ := bind_ok.1 k1
      cases k1
      obtain ⟨o, g, w, ho, e, e2⟩ := command_ok (d := { d with role := .rover }) roverCommands hreach.inv.wf.outLen
      rw [e2] at k3
      cases k3
      rfl
    | configBase j s =>
      refine quiet rfl ?_
      unfold Dev.step Dev.configBase at k1
      dsimp only at k1
      obtain ⟨o, g, w, ho, e, e2⟩ := command_ok (d := { d with role := .base, rtk := some j, rtcm := d.rtcm.registerListener 0 })
        (baseCommands s) hreach.inv.wf.outLen
      rw [e2] at k1
      cases k1
      rfl

/-- From between two messages on, in one role. -/
theorem BTrack.afterAll {md : Mode} {n0 : Nav} {base : Bool} {prev : Byte} {r0 : RTail} {evs' evs pre : List Ev} {d d' : Dev}
    {es effs : List Eff} {ins : List NavIn} (h : BTrack md n0 base prev r0 d (evs ++ pre) [] ins effs) (hb : Keeps base evs')
    (hr : d.run md evs' = .ok (d', es)) (hpre : received pre = []) :
    After d.ubx (versionsIn (stageMsgs prev evs (pre ++ evs'))) d'.ubx := by
  have k := h.after hb hr
  have t := h.run hb hr
  have hrec : received (pre ++ evs') = received evs' := by
    rw [← rxOf_received] at hpre ⊢
    rw [List.flatMap_append, hpre, List.nil_append, rxOf_received]
  have hrole : (configured (evs ++ (pre ++ evs'))).1 = d'.role := by
    rw [← List.append_assoc, ← t.inv.role]
  have hb' := t.role
  unfold stageMsgs
  rw [hrec, hrole]
  rw [beq_base] at hb'
  cases base with
  | true =>
    rw [if_pos (of_decide_eq_true hb')]
    have hi := h.idle rfl
    subst hi
    have := (demux_eq prev (received evs')).2.2
    unfold mixed
    rw [← this]
    exact k
  | false =>
    rw [if_neg (of_decide_eq_false hb'), ← plain_msgs prev r0, versionsIn_ubx]
    exact k

theorem Stage.after {md : Mode} {evs evs' : List Ev} {d d' : Dev} {ins : List NavIn} {es0 es : List Eff} (hc : Reach md d evs es0)
    (h : Stage md evs d evs' d' ins es) : After d.ubx (versionsIn (stageMsgs d.ubx.prev evs evs')) d'.ubx := by
  have i0 := hc.inv
  obtain ⟨h1', r1⟩ := i0.ubx
  obtain ⟨h2', r2⟩ := i0.rtcm
  obtain ⟨t, ht, -⟩ := r2.inv.tail
  cases h with
  | @base evs' _ _ _ i st hu hr hs h1 =>
    have a0 := hc.idle hu hr
    obtain ⟨d2, e1, e2, k1, k2, rfl⟩ := run_cons_ok h1
    have hi := i0.step k1
    obtain ⟨t0, hv⟩ : BTrack md d.nav true d.ubx.prev .idle d2 (evs ++ [.configBase i st]) [] [] e1 ∧ ver d2.ubx = ver d.ubx := by
      unfold Dev.step Dev.configBase at k1
      dsimp only at k1
      obtain ⟨o, g, w, ho, e, e2⟩ := command_ok (d := { d with role := .base, rtk := some i, rtcm := d.rtcm.registerListener 0 })
        (baseCommands st) r1.inv.wf.outLen
      rw [e2] at k1
      cases k1
      exact ⟨⟨hi, rfl, fun _ => rfl, ⟨hi.wired, a0.ubx, a0.rtcm⟩, [], [], .nil, by simp, rfl, rfl⟩, rfl⟩
    have k := t0.afterAll hs.keeps k2 rfl
    exact (After.nil hv).append k
  | @rover evs' _ _ _ i hu hs h1 =>
    obtain ⟨last, -, ha⟩ := Ubx.idle_of_reach r1 hu
    obtain ⟨d2, e1, e2, k1, k2, rfl⟩ := run_cons_ok h1
    have hi := i0.step k1
    obtain ⟨t0, hv⟩ : BTrack md d.nav false d.ubx.prev t d2 (evs ++ [.configRover i]) [] [] e1 ∧ ver d2.ubx = ver d.ubx := by
      unfold Dev.step Dev.configRover at k1
      dsimp only at k1
      rw [bind_ok] at k1
      obtain ⟨⟨d1, f1⟩, k1, k3⟩ := k1
      cases k3
      obtain ⟨o, g, w, ho, e, e2⟩ := command_ok (d := { d with role := .rover }) roverCommands r1.inv.wf.outLen
      rw [e2] at k1
      cases k1
      exact ⟨⟨hi, rfl, fun h => (by cases h), ⟨hi.wired, ⟨ha.1, ha.2.1, rfl⟩, ht⟩, [], [], .nil, by simp, rfl, rfl⟩, rfl⟩
    have k := t0.afterAll hs.keeps k2 rfl
    exact (After.nil hv).append k
  | stillBase hb hu hr hs h1 =>
    have t0 := BTrack.start hc hb hu hr
    rw [← List.append_nil evs] at t0
    exact t0.afterAll hs.keeps h1 rfl
  | stillOther hb hu hs h1 =>
    obtain ⟨last, -, ha⟩ := Ubx.idle_of_reach r1 hu
    have hrole : (d.role == .base) = false := by
      have := i0.role
      rw [← this] at hb
      rw [beq_base]
      exact decide_eq_false hb
    have t0 : BTrack md d.nav false d.ubx.prev t d (evs ++ []) [] [] [] := by
      rw [List.append_nil]
      exact ⟨i0, hrole, fun h => (by cases h), ⟨i0.wired, ⟨ha.1, ha.2.1, rfl⟩, ht⟩, [], [], .nil, by simp, rfl, rfl⟩
    exact t0.afterAll hs.keeps h1 rfl

theorem Reported.course {md : Mode} {evs : List Ev} {d : Dev} {rs : List (List Byte)} (h : Reported md evs d rs) :
    ∃ ins es, Course md evs d ins es := by
  induction h with
  | start h hb => exact ⟨_, _, .start h hb⟩
  | stage _ h ih =>
    obtain ⟨ins, es, hc⟩ := ih
    exact ⟨_, _, .stage hc h⟩

/-- Every life in stages has its reports. -/
theorem Course.reported {md : Mode} {evs : List Ev} {d : Dev} {ins : List NavIn} {es : List Eff} (h : Course md evs d ins es) :
    ∃ rs, Reported md evs d rs := by
  induction h with
  | start h hb => exact ⟨_, .start h hb⟩
  | stage _ h ih =>
    obtain ⟨rs, hr⟩ := ih
    exact ⟨_, .stage hr h⟩

/-- **C149, life through all roles.** Whatever roles a device has been given, between messages, and whatever it has received: the
version and module it knows are those of the last good version report received since its construction began - for a base, in the
mixed stream of UBX and RTCM messages. -/
theorem c149_roles {md : Mode} {evs : List Ev} {d : Dev} {rs : List (List Byte)} (h : Reported md evs d rs) :
    ∃ p, rs.getLast? = some p ∧ ∀ maj min name, Tells p maj min name →
      d.ubx.major = decVal maj ∧ d.ubx.minor = decVal min ∧ d.ubx.modName.takeWhile (· ≠ 0) = name := by
  induction h with
  | start h hb => exact c149_life h hb
  | @stage evs evs' d d' rs ins es hr hst ih =>
    obtain ⟨i0, e0, hc⟩ := hr.course
    have k := hst.after hc.reach
    obtain ⟨p, hp, hl⟩ := ih
    cases hx : (versionsIn (stageMsgs d.ubx.prev evs evs')).getLast? with
    | some q => exact ⟨q, by rw [List.getLast?_append, hx]; rfl, k.2 q hx⟩
    | none =>
      refine ⟨p, by rw [List.getLast?_append, hx, hp]; rfl, ?_⟩
      exact Learned.of_ver (k.1 (List.getLast?_eq_none_iff.1 hx)) hl

/-- A base whose receiver reports another version between RTCM frames. -/
example : ∃ d rs, Reported .strict [.configBase 9 true, .rx (wire exBaseMsgs)] d rs ∧ rs.getLast? = some exSeven.payload ∧
    d.ubx.major = 27 ∧ d.ubx.minor = 11 := by
  have h0 : (exRun []).map (fun x => (x.1.ubx.parsingMessage, x.1.rtcm.parsingMessage)) = some (false, false) := by decide +kernel
  have hn : navLife [exSched] [] = [] := by decide +kernel
  cases hx : exRun [] with
  | none => rw [hx] at h0; cases h0
  | some x =>
    rw [hx, Option.map_some] at h0
    have hp := Prod.mk.inj (Option.some.inj h0)
    have hlife := exRun_life (d := x.1) (es := x.2) hx
    have hc : Course .strict [] x.1 [] x.2 := by
      have := Course.start hlife (fun i s hm => by simp at hm)
      rw [hn] at this
      exact this
    obtain ⟨d', es', h⟩ := c150_base_messages hc (fun p hp => by simp at hp) hp.1 hp.2 9 true
      (evs' := [.rx (wire exBaseMsgs)]) (fun i hm => by simp at hm) exBaseMsgs_wf exBaseMsgs_tell exBaseMsgs_gps
      (n := (wire exBaseMsgs).length) (by
        rw [List.take_length]
        show wire exBaseMsgs ++ [] = _
        rw [List.append_nil])
      (fun j b hm => by simp at hm)
    have hr : Reported .strict ([] ++ [.configBase 9 true, .rx (wire exBaseMsgs)]) d' _ :=
      .stage (.start hlife (fun i s hm => by simp at hm)) (.base hp.1 hp.2 (fun i hm => by simp at hm) h)
    obtain ⟨p, hl, k⟩ := c149_roles hr
    have hv : versionsIn (stageMsgs x.1.ubx.prev [] [.configBase 9 true, .rx (wire exBaseMsgs)]) = [exSeven.payload] := by
      unfold stageMsgs
      rw [if_pos (by decide)]
      show versionsIn (demux x.1.ubx.prev (wire exBaseMsgs ++ [])).1 = _
      rw [List.append_nil, demux_wire' _ exBaseMsgs_wf]
      rfl
    rw [hv, List.getLast?_append] at hl
    obtain rfl : exSeven.payload = p := by simpa using hl
    obtain ⟨k1, k2, -⟩ := k _ _ _ exSeven_tells
    refine ⟨d', _, hr, ?_, k1.trans (by decide +kernel), k2.trans (by decide +kernel)⟩
    rw [hv, List.getLast?_append]; rfl

end Ublox.Dev
