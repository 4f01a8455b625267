import Verif.Lemmas.DeviceRun
import Verif.Props.UbxWait

/-!
# The driver during construction: the UBX parser sees every byte, nobody else is told anything
-/

namespace Ublox
namespace Dev

open Nav (Nav NavCall Mode Sfrbx NavOp)

theorem deliver_ubx {md : Mode} {d d' : Dev} {ds : List Delivery} {es : List Eff} (h : deliver md d ds = .ok (d', es)) :
    d'.ubx = d.ubx ∧ d'.role = d.role := by
  induction ds generalizing d es with
  | nil => cases h; exact ⟨rfl, rfl⟩
  | cons x xs ih =>
    unfold deliver at h
    rw [bind_ok] at h
    obtain ⟨⟨d1, e1⟩, h1, h⟩ := h
    dsimp only at h
    rw [bind_ok] at h
    obtain ⟨⟨d2, e2⟩, h2, h⟩ := h
    cases h
    have k := ih h2
    rw [k.1, k.2]
    unfold deliverOne at h1
    split at h1
    · split at h1
      · rw [bind_ok] at h1
        obtain ⟨⟨n, cs⟩, -, h1⟩ := h1
        cases h1; exact ⟨rfl, rfl⟩
      · cases h1
    · cases h1; exact ⟨rfl, rfl⟩

theorem rxUbx_ubx {md : Mode} {d d' : Dev} {b : Byte} {es : List Eff} (h : rxUbx md d b = .ok (d', es)) :
    d'.role = d.role ∧ ∃ r ds, d.ubx.readCb b = .ok (d'.ubx, r, ds) := by
  unfold rxUbx at h
  rw [bind_ok] at h
  obtain ⟨⟨u, r, ds⟩, h1, h⟩ := h
  have k := deliver_ubx h
  exact ⟨k.2, r, ds, by rw [k.1]; exact h1⟩

theorem rxRtcm_ubx {d d' : Dev} {b : Byte} {es : List Eff} (h : rxRtcm d b = .ok (d', es)) :
    d'.ubx = d.ubx ∧ d'.role = d.role := by
  unfold rxRtcm at h
  rw [bind_ok] at h
  obtain ⟨⟨r, cs⟩, -, h⟩ := h
  dsimp only at h
  rw [bind_ok] at h
  obtain ⟨e, -, h⟩ := h
  cases h; exact ⟨rfl, rfl⟩

theorem readCb_ubx {md : Mode} {d d' : Dev} {s : List Byte} {es : List Eff} (hb : d.role ≠ .base)
    (h : readCb md d s = .ok (d', es)) : d'.role = d.role ∧ ∃ o, Ubx.feed d.ubx s = .ok (d'.ubx, o) := by
  induction s generalizing d es with
  | nil => cases h; exact ⟨rfl, [], rfl⟩
  | cons b bs ih =>
    obtain ⟨d1, e1, e2, h1, h2, rfl⟩ := readCb_cons_ok h
    have key : d1.role = d.role ∧ ∃ r ds, d.ubx.readCb b = .ok (d1.ubx, r, ds) := by
      unfold rxByte at h1
      split at h1
      · exact rxUbx_ubx h1
      · split at h1
        · rename_i hx
          rw [beq_base] at hx
          simp only [Bool.and_eq_true, decide_eq_true_eq] at hx
          exact absurd hx.2 hb
        · rw [bind_ok] at h1
          obtain ⟨⟨d2, f1⟩, k1, h1⟩ := h1
          dsimp only at h1
          rw [bind_ok] at h1
          obtain ⟨⟨d3, f2⟩, k2, h1⟩ := h1
          cases h1
          have a := rxUbx_ubx k1
          have b := rxRtcm_ubx k2
          rw [b.1, b.2]
          exact a
    obtain ⟨k1, r, ds, k2⟩ := key
    obtain ⟨k3, o, k4⟩ := ih (by rw [k1]; exact hb) h2
    refine ⟨k3.trans k1, (r, ds) :: o, ?_⟩
    unfold Ubx.feed
    rw [k2]
    simp only [ok_bind, k4]

theorem spin_ubx {md : Mode} : ∀ {its its' : List (List Byte × Nat)} {d d' : Dev} {dt dt' : Nat} {es : List Eff},
    d.role ≠ .base → Dev.spin md d dt its = .ok (some (d', dt', its', es)) →
    d'.role = d.role ∧ Ubx.spin (·.gotVer) d.ubx dt its = .ok (some (d'.ubx, dt', its')) := by
  intro its
  induction its with
  | nil =>
    intro its' d d' dt dt' es hb hr
    unfold Dev.spin at hr
    unfold Ubx.spin
    split at hr
    · cases hr
    · rename_i hc; rw [if_neg hc]; cases hr; exact ⟨rfl, rfl⟩
  | cons x rest ih =>
    intro its' d d' dt dt' es hb hr
    obtain ⟨bs, t⟩ := x
    unfold Dev.spin at hr
    unfold Ubx.spin
    split at hr
    · rename_i hc
      rw [if_pos hc]
      dsimp only at hr ⊢
      rw [bind_ok] at hr
      obtain ⟨⟨d1, e1⟩, h1, hr⟩ := hr
      dsimp only at hr
      rw [bind_ok] at hr
      obtain ⟨o, h2, hr⟩ := hr
      cases o with
      | none => cases hr
      | some q =>
        obtain ⟨d2, dt2, its2, e2⟩ := q
        cases hr
        obtain ⟨k1, o, k2⟩ := readCb_ubx hb h1
        obtain ⟨k3, k4⟩ := ih (by rw [k1]; exact hb) h2
        exact ⟨k3.trans k1, by rw [k2]; simp only [ok_bind]; exact k4⟩
    · rename_i hc; rw [if_neg hc]; cases hr; exact ⟨rfl, rfl⟩

theorem getVersion_ubx {md : Mode} {d d' : Dev} {s : Ubx.Sched} {es : List Eff} {ok : Bool} (hb : d.role ≠ .base)
    (h : getVersion md d s = .ok (some (d', es, ok))) :
    d'.role = d.role ∧ ∃ w, Ubx.getVersion d.ubx s = .ok (some (d'.ubx, w, ok)) := by
  unfold Dev.getVersion at h
  rw [bind_ok] at h
  obtain ⟨⟨u, w⟩, h1, h⟩ := h
  dsimp only at h
  rw [bind_ok] at h
  obtain ⟨⟨d1, e1⟩, h2, h⟩ := h
  dsimp only at h
  rw [bind_ok] at h
  obtain ⟨o, h3, h⟩ := h
  match o, h3, h with
  | none, _, h => cases h
  | some (d2, dt, x :: xs, e2), _, h => cases h
  | some (d2, dt, [], e2), h3, h =>
    dsimp only at h
    rw [bind_ok] at h
    obtain ⟨⟨d3, e3⟩, h4, h⟩ := h
    cases h
    obtain ⟨r1, o1, f1⟩ := readCb_ubx (d := { d with ubx := u }) hb h2
    have b1 : d1.role ≠ .base := by rw [r1]; exact hb
    obtain ⟨r2, f2⟩ := spin_ubx b1 h3
    have b2 : d2.role ≠ .base := by rw [r2]; exact b1
    obtain ⟨r3, o3, f3⟩ := readCb_ubx b2 h4
    refine ⟨r3.trans (r2.trans r1), w, ?_⟩
    unfold Ubx.getVersion
    dsimp only
    rw [h1]
    simp only [ok_bind]
    rw [show Ubx.feed u s.before = _ from f1]
    simp only [ok_bind]
    rw [f2]
    simp only [ok_bind]
    rw [f3]
    rfl

/-- Nobody to tell: no RTK link, no listener, no ephemeris callback. -/
theorem Shows.silent {md : Mode} {n n' : Nav} {ms : List Msg} {es : List Eff}
    (h : Shows md (fun _ _ => []) [] n ms n' es) (h0 : n.ephCbs = 0 ∧ n.gephCbs = 0) :
    es = [] ∧ n'.ephCbs = 0 ∧ n'.gephCbs = 0 := by
  induction h with
  | nil => exact ⟨rfl, h0⟩
  | rtcm _ ih => obtain ⟨rfl, k⟩ := ih h0; exact ⟨rfl, k⟩
  | ubx _ _ _ _ ih => obtain ⟨rfl, k⟩ := ih h0; exact ⟨rfl, k⟩
  | @sfrbx n n1 n' p buf cs ms es _ _ hs _ ih =>
    have key : cs = [] ∧ n1.ephCbs = 0 ∧ n1.gephCbs = 0 := by
      generalize Sfrbx.ofBuffer buf = m at hs
      by_cases hg : m.gnssId = Nav.GLONASS
      · obtain ⟨r, -, hc, nx⟩ := Nav.step_glo hg hs
        refine ⟨?_, nx.cbs.1.trans h0.1, nx.cbs.2.trans h0.2⟩
        rw [hc, h0.2]; simp [Nav.gephCalls]
      · obtain ⟨r, -, hc, nx⟩ := Nav.step_eph hg hs
        refine ⟨?_, nx.cbs.1.trans h0.1, nx.cbs.2.trans h0.2⟩
        rw [hc, h0.1]; simp [Nav.ephCalls]
    obtain ⟨rfl, k⟩ := key
    obtain ⟨rfl, k2⟩ := ih k
    exact ⟨rfl, k2⟩

/-- A device nobody has touched since the constructor started. -/
structure Virgin (md : Mode) (d : Dev) : Prop where
  inv : Inv md d []
  cbs : d.nav.ephCbs = 0 ∧ d.nav.gephCbs = 0

theorem Virgin.role {md : Mode} {d : Dev} (h : Virgin md d) : d.role ≠ .base := by
  intro hb
  have k := (h.inv.baseIf hb).2
  simp [baseCalls] at k

theorem Virgin.readCb {md : Mode} {d d' : Dev} {s : List Byte} {es : List Eff} (h : Virgin md d)
    (hr : readCb md d s = .ok (d', es)) : es = [] ∧ Virgin md d' := by
  obtain ⟨t, r, ha⟩ := h.inv.dabs
  obtain ⟨-, -, w⟩ := readCb_shows ha hr
  have hl : lks d = [] := by
    unfold lks
    split
    · rename_i hx _; exact absurd hx h.role
    · rfl
  rw [hl] at w
  have hs : (fun c i => (registered []).filter (d.userSub c i)) = fun _ _ => [] := by funext c i; rfl
  rw [hs] at w
  have k := w.silent h.cbs
  exact ⟨k.1, h.inv.readCb hr, k.2⟩

theorem Virgin.spin {md : Mode} : ∀ {its its' : List (List Byte × Nat)} {d d' : Dev} {dt dt' : Nat} {es : List Eff},
    Virgin md d → Dev.spin md d dt its = .ok (some (d', dt', its', es)) → es = [] ∧ Virgin md d' := by
  intro its
  induction its with
  | nil =>
    intro its' d d' dt dt' es h hr
    unfold Dev.spin at hr
    split at hr
    · cases hr
    · cases hr; exact ⟨rfl, h⟩
  | cons x rest ih =>
    intro its' d d' dt dt' es h hr
    obtain ⟨bs, t⟩ := x
    unfold Dev.spin at hr
    split at hr
    · dsimp only at hr
      rw [bind_ok] at hr
      obtain ⟨⟨d1, e1⟩, h1, hr⟩ := hr
      dsimp only at hr
      rw [bind_ok] at hr
      obtain ⟨o, h2, hr⟩ := hr
      cases o with
      | none => cases hr
      | some q =>
        obtain ⟨d2, dt2, its2, e2⟩ := q
        cases hr
        obtain ⟨rfl, v1⟩ := h.readCb h1
        obtain ⟨rfl, v2⟩ := ih v1 h2
        exact ⟨rfl, v2⟩
    · cases hr; exact ⟨rfl, h⟩

theorem Virgin.getVersion {md : Mode} {d d' : Dev} {s : Ubx.Sched} {es : List Eff} {ok : Bool} (h : Virgin md d)
    (hr : getVersion md d s = .ok (some (d', es, ok))) : es = [.toReceiver (ubxFrame 0x0A 0x04 [])] ∧ Virgin md d' := by
  unfold Dev.getVersion at hr
  rw [bind_ok] at hr
  obtain ⟨⟨u, w⟩, h1, hr⟩ := hr
  dsimp only at hr
  rw [bind_ok] at hr
  obtain ⟨⟨d1, e1⟩, h2, hr⟩ := hr
  dsimp only at hr
  rw [bind_ok] at hr
  obtain ⟨o, h3, hr⟩ := hr
  obtain ⟨p1, -, p3⟩ := h.inv.poll h1
  have v0 : Virgin md { d with ubx := u } := ⟨p1, h.cbs⟩
  match o, h3, hr with
  | none, _, hr => cases hr
  | some (d2, dt, x :: xs, e2), _, hr => cases hr
  | some (d2, dt, [], e2), h3, hr =>
    dsimp only at hr
    rw [bind_ok] at hr
    obtain ⟨⟨d3, e3⟩, h4, hr⟩ := hr
    cases hr
    obtain ⟨rfl, v1⟩ := v0.readCb h2
    obtain ⟨rfl, v2⟩ := v1.spin h3
    obtain ⟨rfl, v3⟩ := v2.readCb h4
    exact ⟨by rw [p3]; rfl, v3⟩

end Dev
end Ublox
