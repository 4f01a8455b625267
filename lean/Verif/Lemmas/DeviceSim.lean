import Verif.Lemmas.Device

/-!
# The driver follows the mixed scanner
-/

namespace Ublox
namespace Dev

open Nav (Nav NavCall Mode Sfrbx NavOp)
open Rtcm (RTail REvent rtStep)

/-- Is a UBX frame open? -/
def uOpen : Tail → Bool
  | .idle _ => false
  | .opened _ => true

/-- Is an RTCM frame open? -/
def rOpen : RTail → Bool
  | .idle => false
  | .opened _ => true

theorem uOpen_iff {u : Ubx} {t : Tail} (h : Ubx.Abs u t) : u.parsingMessage = uOpen t := by
  have := Ubx.parsing_iff h
  cases t with
  | idle l => cases hp : u.parsingMessage <;> simp_all [uOpen]
  | opened bs => cases hp : u.parsingMessage <;> simp_all [uOpen]

theorem rOpen_iff {r : Rtcm} {t : RTail} (h : Rtcm.Abs r t) : r.parsingMessage = rOpen t := by
  cases t with
  | idle => exact Rtcm.idle_parsing h
  | opened bs => exact Rtcm.opened_parsing h

/-- What a completed UBX item shows, and what it does to the navigation parser. -/
def ItemShows (md : Mode) (d : Dev) (users : List Nat) (it : Option Item) (n' : Nav) (es : List Eff) : Prop :=
  match it with
  | some (.good c i p) => ∃ msg : List Byte, msg.length = 2048 ∧ msg.take p.length = p ∧
      ubxEffs md d.nav c i msg (users.filter (d.userSub c i)) = .ok (n', es)
  | _ => n' = d.nav ∧ es = []

open Classical in
/-- What a completed RTCM frame shows. -/
noncomputable def rtcmEffs (d : Dev) (ev : Option REvent) : List Eff :=
  match ev, d.role, d.rtk with
  | some (.frame f), .base, some i => if CrcValid f then d.rtcm.listeners.map fun _ => .toRtk i f else []
  | _, _, _ => []

/-- What stays the same when bytes are received. -/
structure Same (d d' : Dev) : Prop where
  role : d'.role = d.role
  rtk : d'.rtk = d.rtk
  fwd : d'.fwd = d.fwd
  dbg : d'.dbg = d.dbg
  listeners : d'.ubx.listeners = d.ubx.listeners
  subs : d'.ubx.subs = d.ubx.subs
  out : d'.ubx.outMsg = d.ubx.outMsg
  rlisteners : d'.rtcm.listeners = d.rtcm.listeners

theorem Same.refl (d : Dev) : Same d d := ⟨rfl, rfl, rfl, rfl, rfl, rfl, rfl, rfl⟩

theorem Same.trans {a b c : Dev} (h1 : Same a b) (h2 : Same b c) : Same a c :=
  ⟨h2.1.trans h1.1, h2.2.trans h1.2, h2.3.trans h1.3, h2.4.trans h1.4, h2.5.trans h1.5, h2.6.trans h1.6,
    h2.7.trans h1.7, h2.8.trans h1.8⟩

theorem Same.userSub {d d' : Dev} (h : Same d d') (c i : Byte) : d'.userSub c i = d.userSub c i := by
  funext l
  unfold Dev.userSub Ubx.subscribed
  rw [h.subs]

/-- One byte through the UBX parser. -/
theorem rxUbx_sim {md : Mode} {d d' : Dev} {users : List Nat} {t : Tail} {b : Byte} {es : List Eff}
    (hw : Wired d users) (ha : Ubx.Abs d.ubx t) (h : rxUbx md d b = .ok (d', es)) :
    Ubx.Abs d'.ubx (rxStep t b).1 ∧ Wired d' users ∧ Same d d' ∧ d'.rtcm = d.rtcm ∧
      (∃ r ds, Ubx.readCb d.ubx b = .ok (d'.ubx, r, ds)) ∧
      ItemShows md d users (rxStep t b).2 d'.nav es := by
  unfold rxUbx at h
  rw [bind_ok] at h
  obtain ⟨⟨u, r, ds⟩, h1, h⟩ := h
  dsimp only at h
  obtain ⟨ha', hs⟩ := Ubx.readCb_sim hw.wf ha h1
  have key : ∀ (n : Nav), d' = { d with ubx := u, nav := n } →
      Ubx.Abs d'.ubx (rxStep t b).1 ∧ Wired d' users ∧ Same d d' ∧ d'.rtcm = d.rtcm ∧
      (∃ r ds, Ubx.readCb d.ubx b = .ok (d'.ubx, r, ds)) := by
    rintro n rfl
    exact ⟨ha', ⟨hs.listeners.trans hw.listeners, (congrFun hs.subs 0).trans hw.subs0, hs.wf, hw.rlen, hw.base⟩,
      ⟨rfl, rfl, rfl, rfl, hs.listeners, hs.subs, hs.out, rfl⟩, rfl, ⟨r, ds, h1⟩⟩
  unfold ItemShows
  have quiet : r = false → d' = { d with ubx := u, nav := d.nav } ∧ es = [] := by
    intro hr
    rw [hs.quiet hr] at h
    cases h
    exact ⟨rfl, rfl⟩
  cases hit : (rxStep t b).2 with
  | none =>
    have hr : r = false := by
      cases hr : r with
      | false => rfl
      | true => obtain ⟨c, i, p, hh⟩ := hs.ret.1 hr; rw [hit] at hh; cases hh
    obtain ⟨q, qe⟩ := quiet hr
    obtain ⟨k1, k2, k3, k4, k5⟩ := key _ q
    exact ⟨k1, k2, k3, k4, k5, by rw [q], qe⟩
  | some it =>
    cases it with
    | good c i p =>
      obtain ⟨msg, m1, m2, m3⟩ := hs.calls c i p hit
      rw [m3, deliver_eq md hw, bind_ok] at h
      obtain ⟨⟨n, es'⟩, h2, h⟩ := h
      dsimp only at h
      cases h
      obtain ⟨k1, k2, k3, k4, k5⟩ := key _ rfl
      exact ⟨k1, k2, k3, k4, k5, msg, m1, m2, h2⟩
    | badChecksum =>
      have hr : r = false := by
        cases hr : r with
        | false => rfl
        | true => obtain ⟨c, i, p, hh⟩ := hs.ret.1 hr; rw [hit] at hh; cases hh
      obtain ⟨q, qe⟩ := quiet hr
      obtain ⟨k1, k2, k3, k4, k5⟩ := key _ q
      exact ⟨k1, k2, k3, k4, k5, by rw [q], qe⟩
    | tooLong =>
      have hr : r = false := by
        cases hr : r with
        | false => rfl
        | true => obtain ⟨c, i, p, hh⟩ := hs.ret.1 hr; rw [hit] at hh; cases hh
      obtain ⟨q, qe⟩ := quiet hr
      obtain ⟨k1, k2, k3, k4, k5⟩ := key _ q
      exact ⟨k1, k2, k3, k4, k5, by rw [q], qe⟩

/-- How one byte through the UBX parser can be undefined. -/
theorem rxUbx_err {md : Mode} {d : Dev} {users : List Nat} {t : Tail} {b : Byte} {e : UB}
    (hw : Wired d users) (ha : Ubx.Abs d.ubx t) (h : rxUbx md d b = .error e) :
    (e = .unterminated ∧ ∃ p, (rxStep t b).2 = some (.good 0x0A 0x04 p)) ∨
    (∃ p msg : List Byte, (rxStep t b).2 = some (.good 0x02 0x13 p) ∧ msg.length = 2048 ∧ msg.take p.length = p ∧
      d.nav.step md (navOp msg) = .error e) := by
  unfold rxUbx at h
  rw [bind_err] at h
  rcases h with h | ⟨⟨u, r, ds⟩, h1, h⟩
  · exact .inl (Ubx.readCb_err hw.wf ha h)
  · right
    dsimp only at h
    obtain ⟨ha', hs⟩ := Ubx.readCb_sim hw.wf ha h1
    cases hr : r with
    | false =>
      rw [hs.quiet hr] at h
      cases h
    | true =>
      obtain ⟨c, i, p, hit⟩ := hs.ret.1 hr
      obtain ⟨msg, m1, m2, m3⟩ := hs.calls c i p hit
      rw [m3, deliver_eq md hw, bind_err] at h
      rcases h with h | ⟨_, _, h⟩
      · unfold ubxEffs at h
        split at h
        · rename_i hc
          obtain ⟨rfl, rfl⟩ := hc
          rw [bind_err] at h
          rcases h with h | ⟨_, _, h⟩
          · exact ⟨p, msg, hit, m1, m2, h⟩
          · cases h
        · cases h
      · cases h

theorem gotRtcms_ok {d : Dev} (hb : d.role = .base → ∃ i, d.rtk = some i) (ls : List Nat) (f : List Byte) :
    gotRtcms d (ls.map fun l => ⟨l, f⟩) = .ok (match d.role, d.rtk with
      | .base, some i => ls.map fun _ => .toRtk i f
      | _, _ => []) := by
  induction ls with
  | nil =>
    show Except.ok _ = _
    split <;> rfl
  | cons l ls ih =>
    rw [List.map_cons]
    unfold gotRtcms
    dsimp only
    rw [ih]
    unfold gotRtcm
    cases hr : d.role with
    | base =>
      obtain ⟨i, hi⟩ := hb hr
      rw [if_pos rfl]
      simp only [hi]
      rfl
    | none => rfl
    | rover => rfl

/-- One byte through the RTCM parser. -/
theorem rxRtcm_sim {d d' : Dev} {users : List Nat} {t : RTail} {b : Byte} {es : List Eff}
    (hw : Wired d users) (ha : Rtcm.Abs d.rtcm t) (h : rxRtcm d b = .ok (d', es)) :
    Rtcm.Abs d'.rtcm (rtStep t b).1 ∧ Wired d' users ∧ Same d d' ∧ d'.ubx = d.ubx ∧ d'.nav = d.nav ∧
      (∃ cs, Rtcm.readByte d.rtcm b = .ok (d'.rtcm, cs)) ∧ es = rtcmEffs d (rtStep t b).2 := by
  unfold rxRtcm at h
  rw [bind_ok] at h
  obtain ⟨⟨r, cs⟩, h1, h⟩ := h
  dsimp only at h
  rw [bind_ok] at h
  obtain ⟨es', h2, h⟩ := h
  cases h
  rcases Rtcm.readByte_cases b hw.rlen ha with ⟨bs, -, -, he⟩ | ⟨r', cs', he, a1, s1, -⟩
  · rw [he] at h1; cases h1
  rw [he] at h1
  cases h1
  refine ⟨a1, ⟨hw.listeners, hw.subs0, hw.wf, s1.len, hw.base⟩, ⟨rfl, rfl, rfl, rfl, rfl, rfl, rfl, s1.listeners⟩, rfl, rfl,
    ⟨_, he⟩, ?_⟩
  have hnil : cs = [] → es = [] := by
    rintro rfl
    cases h2
    rfl
  unfold rtcmEffs
  cases hev : (rtStep t b).2 with
  | none =>
    exact hnil (s1.none (by rw [hev]; intro f hh; cases hh)).1
  | some ev =>
    cases ev with
    | zeroLen => exact hnil (s1.none (by rw [hev]; intro f hh; cases hh)).1
    | frame f =>
      rcases (s1.frame f hev).2 with ⟨v, c⟩ | ⟨v, c⟩
      · rw [c] at h2
        rw [gotRtcms_ok (d := { d with rtcm := r }) hw.base] at h2
        have := Except.ok.inj h2
        rw [← this]
        dsimp only
        generalize d.role = ro
        generalize d.rtk = k
        cases ro <;> cases k <;> simp [v]
      · rw [hnil c]
        generalize d.role = ro
        generalize d.rtk = k
        cases ro <;> cases k <;> simp [v]

/-- How one byte through the RTCM parser can be undefined. -/
theorem rxRtcm_err {d : Dev} {users : List Nat} {t : RTail} {b : Byte} {e : UB}
    (hw : Wired d users) (ha : Rtcm.Abs d.rtcm t) (h : rxRtcm d b = .error e) :
    e = .oobWrite ∧ Rtcm.readByte d.rtcm b = .error .oobWrite ∧ ∃ bs, t = .opened bs ∧ bs.length = 1024 := by
  unfold rxRtcm at h
  rw [bind_err] at h
  rcases Rtcm.readByte_cases b hw.rlen ha with ⟨bs, rfl, hl, he⟩ | ⟨r', cs', he, a1, s1, -⟩
  · rw [he] at h
    rcases h with h | ⟨_, h, -⟩
    · cases h; exact ⟨rfl, he, bs, rfl, hl⟩
    · cases h
  · rw [he] at h
    rcases h with h | ⟨_, h1, h⟩
    · cases h
    · cases h1
      dsimp only at h
      rw [bind_err] at h
      exfalso
      rcases h with h | ⟨_, _, h⟩
      · have key : ∀ f, gotRtcms { d with rtcm := r' } (d.rtcm.listeners.map fun l => ⟨l, f⟩) ≠ .error e := by
          intro f
          rw [gotRtcms_ok (d := { d with rtcm := r' }) hw.base]
          exact fun hh => by cases hh
        cases hev : (rtStep t b).2 with
        | none => rw [(s1.none (by rw [hev]; intro f hh; cases hh)).1] at h; cases h
        | some ev =>
          cases ev with
          | zeroLen => rw [(s1.none (by rw [hev]; intro f hh; cases hh)).1] at h; cases h
          | frame f =>
            rcases (s1.frame f hev).2 with ⟨v, c⟩ | ⟨v, c⟩
            · rw [c] at h; exact key f h
            · rw [c] at h; cases h
      · cases h

/-- The mixed scanner: one byte. -/
def dStep (base : Bool) (t : Tail) (r : RTail) (b : Byte) : Tail × RTail × Option Item × Option REvent :=
  if uOpen t then ((rxStep t b).1, r, (rxStep t b).2, none)
  else if rOpen r && base then (t, (rtStep r b).1, none, (rtStep r b).2)
  else ((rxStep t b).1, (rtStep r b).1, (rxStep t b).2, (rtStep r b).2)

/-- Parser states described by the scanner. -/
structure DAbs (d : Dev) (users : List Nat) (t : Tail) (r : RTail) : Prop where
  wired : Wired d users
  ubx : Ubx.Abs d.ubx t
  rtcm : Rtcm.Abs d.rtcm r

theorem beq_base (r : Role) : (r == .base) = decide (r = .base) := rfl

/-- One byte from the receiver. -/
theorem rxByte_sim {md : Mode} {d d' : Dev} {users : List Nat} {t : Tail} {r : RTail} {b : Byte} {es : List Eff}
    (ha : DAbs d users t r) (h : rxByte md d b = .ok (d', es)) :
    DAbs d' users (dStep (d.role == .base) t r b).1 (dStep (d.role == .base) t r b).2.1 ∧ Same d d' ∧
      ∃ e1, es = e1 ++ rtcmEffs d (dStep (d.role == .base) t r b).2.2.2 ∧
        ItemShows md d users (dStep (d.role == .base) t r b).2.2.1 d'.nav e1 := by
  unfold rxByte at h
  unfold dStep
  rw [uOpen_iff ha.ubx, rOpen_iff ha.rtcm] at h
  split at h
  · rename_i hu
    rw [if_pos hu]
    obtain ⟨a1, a2, a3, a4, -, a5⟩ := rxUbx_sim ha.wired ha.ubx h
    exact ⟨⟨a2, a1, a4 ▸ ha.rtcm⟩, a3, es, by simp [rtcmEffs], a5⟩
  · rename_i hu
    rw [if_neg hu]
    split at h
    · rename_i hr
      rw [if_pos hr]
      obtain ⟨a1, a2, a3, a4, a5, -, a6⟩ := rxRtcm_sim ha.wired ha.rtcm h
      exact ⟨⟨a2, a4 ▸ ha.ubx, a1⟩, a3, [], a6, a5, rfl⟩
    · rename_i hr
      rw [if_neg hr]
      rw [bind_ok] at h
      obtain ⟨⟨d1, e1⟩, h1, h⟩ := h
      dsimp only at h
      rw [bind_ok] at h
      obtain ⟨⟨d2, e2⟩, h2, h⟩ := h
      cases h
      obtain ⟨a1, a2, a3, a4, -, a5⟩ := rxUbx_sim ha.wired ha.ubx h1
      obtain ⟨b1, b2, b3, b4, b5, -, b6⟩ := rxRtcm_sim a2 (a4 ▸ ha.rtcm) h2
      refine ⟨⟨b2, b4 ▸ a1, b1⟩, a3.trans b3, e1, ?_, ?_⟩
      · rw [b6]
        unfold rtcmEffs
        rw [a3.role, a3.rtk, a3.rlisteners]
      · rw [b5]; exact a5

/-- How one byte from the receiver can be undefined. -/
theorem rxByte_err {md : Mode} {d : Dev} {users : List Nat} {t : Tail} {r : RTail} {b : Byte} {e : UB}
    (ha : DAbs d users t r) (h : rxByte md d b = .error e) :
    (e = .unterminated ∧ ∃ p, (dStep (d.role == .base) t r b).2.2.1 = some (.good 0x0A 0x04 p) ∧
      (rxStep t b).2 = some (.good 0x0A 0x04 p)) ∨
    (∃ p msg : List Byte, (dStep (d.role == .base) t r b).2.2.1 = some (.good 0x02 0x13 p) ∧
      (rxStep t b).2 = some (.good 0x02 0x13 p) ∧ msg.length = 2048 ∧ msg.take p.length = p ∧
      d.nav.step md (navOp msg) = .error e) ∨
    (e = .oobWrite ∧ Rtcm.readByte d.rtcm b = .error .oobWrite ∧ ∃ bs, r = .opened bs ∧ bs.length = 1024) := by
  have ubx : ∀ {e : UB}, (dStep (d.role == .base) t r b).2.2.1 = (rxStep t b).2 → rxUbx md d b = .error e →
      (e = .unterminated ∧ ∃ p, (dStep (d.role == .base) t r b).2.2.1 = some (.good 0x0A 0x04 p) ∧
        (rxStep t b).2 = some (.good 0x0A 0x04 p)) ∨
      (∃ p msg : List Byte, (dStep (d.role == .base) t r b).2.2.1 = some (.good 0x02 0x13 p) ∧
        (rxStep t b).2 = some (.good 0x02 0x13 p) ∧ msg.length = 2048 ∧ msg.take p.length = p ∧
        d.nav.step md (navOp msg) = .error e) := by
    intro e heq h
    rw [heq]
    rcases rxUbx_err ha.wired ha.ubx h with ⟨h, p, hp⟩ | ⟨p, msg, hp, h⟩
    · exact .inl ⟨h, p, hp, hp⟩
    · exact .inr ⟨p, msg, hp, hp, h⟩
  unfold rxByte at h
  rw [uOpen_iff ha.ubx, rOpen_iff ha.rtcm] at h
  split at h
  · rename_i hu
    have heq : (dStep (d.role == .base) t r b).2.2.1 = (rxStep t b).2 := by unfold dStep; rw [if_pos hu]
    rcases ubx heq h with h | h
    · exact .inl h
    · exact .inr (.inl h)
  · rename_i hu
    split at h
    · exact .inr (.inr (rxRtcm_err ha.wired ha.rtcm h))
    · rename_i hr
      have heq : (dStep (d.role == .base) t r b).2.2.1 = (rxStep t b).2 := by
        unfold dStep; rw [if_neg hu, if_neg hr]
      rw [bind_err] at h
      rcases h with h | ⟨⟨d1, e1⟩, h1, h⟩
      · rcases ubx heq h with h | h
        · exact .inl h
        · exact .inr (.inl h)
      · dsimp only at h
        rw [bind_err] at h
        obtain ⟨a1, a2, a3, a4, -, a5⟩ := rxUbx_sim ha.wired ha.ubx h1
        rcases h with h | ⟨⟨d2, e2⟩, h2, h⟩
        · have := rxRtcm_err a2 (a4 ▸ ha.rtcm) h
          rw [a4] at this
          exact .inr (.inr this)
        · cases h

end Dev
end Ublox
