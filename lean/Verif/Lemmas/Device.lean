import Verif.Spec.Device
import Verif.Lemmas.UbxWait
import Verif.Props.Ubx
import Verif.Lemmas.UbxCmd
import Verif.Lemmas.RtcmRun

/-!
# Lemmas about the whole driver
-/

namespace Ublox
namespace Dev

open Nav (Nav NavCall Mode Sfrbx NavOp)

theorem readCb_nil (md : Mode) (d : Dev) : readCb md d [] = .ok (d, []) := rfl

theorem readCb_cons (md : Mode) (d : Dev) (b : Byte) (bs : List Byte) :
    readCb md d (b :: bs) = (do
      let (d1, e1) ← rxByte md d b
      let (d2, e2) ← readCb md d1 bs
      .ok (d2, e1 ++ e2)) := rfl

theorem readCb_append (md : Mode) (d : Dev) (a b : List Byte) :
    readCb md d (a ++ b) = (do
      let (d1, e1) ← readCb md d a
      let (d2, e2) ← readCb md d1 b
      .ok (d2, e1 ++ e2)) := by
  induction a generalizing d with
  | nil =>
    rw [List.nil_append, readCb_nil, ok_bind]
    simp only
    cases readCb md d b <;> rfl
  | cons x xs ih =>
    rw [List.cons_append, readCb_cons, readCb_cons]
    cases rxByte md d x with
    | error e => rfl
    | ok p =>
      obtain ⟨d1, e1⟩ := p
      simp only [ok_bind]
      rw [ih]
      cases readCb md d1 xs with
      | error e => rfl
      | ok p =>
        obtain ⟨d2, e2⟩ := p
        simp only [ok_bind]
        cases readCb md d2 b with
        | error e => rfl
        | ok p => simp only [ok_bind, List.append_assoc]

theorem readCb_append_ok {md : Mode} {d d' : Dev} {a b : List Byte} {es : List Eff}
    (h : readCb md d (a ++ b) = .ok (d', es)) :
    ∃ d1 e1 e2, readCb md d a = .ok (d1, e1) ∧ readCb md d1 b = .ok (d', e2) ∧ es = e1 ++ e2 := by
  rw [readCb_append, bind_ok] at h
  obtain ⟨⟨d1, e1⟩, h1, h⟩ := h
  rw [bind_ok] at h
  obtain ⟨⟨d2, e2⟩, h2, h⟩ := h
  cases h
  exact ⟨d1, e1, e2, h1, h2, rfl⟩

theorem readCb_cons_ok {md : Mode} {d d' : Dev} {b : Byte} {bs : List Byte} {es : List Eff}
    (h : readCb md d (b :: bs) = .ok (d', es)) :
    ∃ d1 e1 e2, rxByte md d b = .ok (d1, e1) ∧ readCb md d1 bs = .ok (d', e2) ∧ es = e1 ++ e2 := by
  rw [readCb_cons, bind_ok] at h
  obtain ⟨⟨d1, e1⟩, h1, h⟩ := h
  rw [bind_ok] at h
  obtain ⟨⟨d2, e2⟩, h2, h⟩ := h
  cases h
  exact ⟨d1, e1, e2, h1, h2, rfl⟩

theorem run_append (md : Mode) (d : Dev) (a b : List Ev) :
    run md d (a ++ b) = (do
      let (d1, e1) ← run md d a
      let (d2, e2) ← run md d1 b
      .ok (d2, e1 ++ e2)) := by
  induction a generalizing d with
  | nil =>
    rw [List.nil_append]
    show _ = ((.ok (d, []) : M (Dev × List Eff)) >>= _)
    rw [ok_bind]
    simp only
    cases run md d b <;> rfl
  | cons x xs ih =>
    rw [List.cons_append]
    show (d.step md x >>= _) = ((d.step md x >>= _) >>= _)
    cases d.step md x with
    | error e => rfl
    | ok p =>
      obtain ⟨d1, e1⟩ := p
      simp only [ok_bind]
      rw [ih]
      cases run md d1 xs with
      | error e => rfl
      | ok p =>
        obtain ⟨d2, e2⟩ := p
        simp only [ok_bind]
        cases run md d2 b with
        | error e => rfl
        | ok p => simp only [ok_bind, List.append_assoc]

/-! ### Listener calls -/

/-- What delivering to the user's listeners only shows. -/
def userEffs (c i : Byte) (msg : List Byte) (ls : List Nat) : List Eff := ls.map fun l => .ubx l c i msg

theorem deliver_users (md : Mode) (d : Dev) (c i : Byte) (msg : List Byte) (ls : List Nat) :
    deliver md d (ls.map fun l => ⟨l + 1, c, i, msg⟩) = .ok (d, userEffs c i msg ls) := by
  induction ls with
  | nil => rfl
  | cons l ls ih =>
    rw [List.map_cons]
    unfold deliver
    have : deliverOne md d ⟨l + 1, c, i, msg⟩ = .ok (d, [.ubx l c i msg]) := rfl
    rw [this, ok_bind]
    simp only
    rw [ih]
    rfl

/-- Structure of the listener tables of a constructed device: the navigation parser first, then the user's listeners
`users`; the navigation parser is subscribed to RXM-SFRBX only; every RTCM listener is the device. -/
structure Wired (d : Dev) (users : List Nat) : Prop where
  listeners : d.ubx.listeners = 0 :: users.map (· + 1)
  subs0 : d.ubx.subs 0 = [Ubx.key 0x02 0x13]
  wf : Ubx.WF d.ubx
  rlen : d.rtcm.inBuf.length = 1024
  base : d.role = .base → ∃ i, d.rtk = some i

/-- Is the user's listener `l` subscribed? -/
def userSub (d : Dev) (c i : Byte) (l : Nat) : Bool := d.ubx.subscribed (l + 1) c i

theorem key_sfrbx (c i : Byte) : Ubx.key c i = Ubx.key 0x02 0x13 ↔ c = 0x02 ∧ i = 0x13 := by
  constructor
  · exact key_inj
  · rintro ⟨rfl, rfl⟩; rfl

theorem navSubscribed {d : Dev} {users : List Nat} (h : Wired d users) (c i : Byte) :
    d.ubx.subscribed 0 c i = true ↔ c = 0x02 ∧ i = 0x13 := by
  unfold Ubx.subscribed
  rw [h.subs0]
  simp only [List.contains_cons, List.contains_nil, Bool.or_false, beq_iff_eq]
  exact key_sfrbx c i

/-- The operation of the navigation parser that a UBX message with this buffer is. -/
def navOp (msg : List Byte) : NavOp := .sfrbx (List.replicate 30 0) (Sfrbx.ofBuffer msg)

/-- The listener calls of a frame. -/
def ubxEffs (md : Mode) (n : Nav) (c i : Byte) (msg : List Byte) (us : List Nat) : M (Nav × List Eff) :=
  if c = 0x02 ∧ i = 0x13 then do
    let (n', cs) ← n.step md (navOp msg)
    .ok (n', cs.map .nav ++ userEffs c i msg us)
  else .ok (n, userEffs c i msg us)

theorem filter_users (f : Nat → Bool) (users : List Nat) :
    (users.map (· + 1)).filter f = (users.filter fun l => f (l + 1)).map (· + 1) := by
  rw [List.filter_map]; rfl

theorem deliver_eq (md : Mode) {d : Dev} {users : List Nat} (h : Wired d users) (u : Ubx) (c i : Byte) (msg : List Byte) :
    deliver md { d with ubx := u } ((d.ubx.listeners.filter fun l => d.ubx.subscribed l c i).map fun l => ⟨l, c, i, msg⟩) =
      (do
        let (n, es) ← ubxEffs md d.nav c i msg (users.filter (d.userSub c i))
        .ok ({ d with ubx := u, nav := n }, es)) := by
  rw [h.listeners, List.filter_cons, filter_users]
  unfold ubxEffs
  by_cases hc : c = 0x02 ∧ i = 0x13
  · rw [if_pos ((navSubscribed h c i).2 hc), if_pos hc, List.map_cons]
    unfold deliver deliverOne
    simp only
    rw [if_pos (show c = CLASS_RXM ∧ i = RXM_SFRBX from hc)]
    show (Nav.step md d.nav (navOp msg) >>= _) >>= _ = (Nav.step md d.nav (navOp msg) >>= _) >>= _
    cases Nav.step md d.nav (navOp msg) with
    | error e => rfl
    | ok p =>
      obtain ⟨n, cs⟩ := p
      simp only [ok_bind]
      have := deliver_users md { d with ubx := u, nav := n } c i msg (users.filter (d.userSub c i))
      rw [List.map_map]
      erw [this]
      rfl
  · rw [if_neg (fun hh => hc ((navSubscribed h c i).1 hh)), if_neg hc]
    have := deliver_users md { d with ubx := u } c i msg (users.filter (d.userSub c i))
    rw [List.map_map]
    erw [this]
    rfl

end Dev
end Ublox
