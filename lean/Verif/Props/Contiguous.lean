import Verif.Spec.Contiguous
import Verif.Props.NavInput

/-!
# C115: what a device passes on was received in one piece

Refuted when `config_base` is called in the middle of an RTCM message; true otherwise.
-/

namespace Ublox
namespace Dev

open Nav (Mode)
open Ubx (tailOf)
open Rtcm (RTail REvent rtStep)

/-- How the scanners' states are related to the received bytes. -/
structure CI (base : Bool) (h : List Byte) (t : Tail) (r : RTail) : Prop where
  ubx : ∀ bs, t = .opened bs → (0xB5 :: 0x62 :: bs) <:+ h
  last : t = .idle 0xB5 → [0xB5] <:+ h
  excl : base = true → rOpen r = true → ∃ q, t = .idle q ∧ q ≠ 0xB5
  rtcm : base = true → ∀ bs, r = .opened bs → bs <:+ h

theorem suffix_snoc {a h : List Byte} (b : Byte) (hs : a <:+ h) : a ++ [b] <:+ h ++ [b] := by
  obtain ⟨p, rfl⟩ := hs
  exact ⟨p, by rw [List.append_assoc]⟩

theorem rxStep_opens {t : Tail} {b : Byte} {bs : List Byte} (h : (rxStep t b).1 = .opened bs) :
    (t = .idle 0xB5 ∧ b = 0x62 ∧ bs = []) ∨ ∃ cs, t = .opened cs ∧ bs = cs ++ [b] := by
  cases t with
  | idle q =>
    simp only [rxStep] at h
    split at h
    · rename_i hq; cases h; exact .inl ⟨by rw [hq.1], hq.2, rfl⟩
    · cases h
  | opened cs =>
    refine .inr ⟨cs, rfl, ?_⟩
    simp only [rxStep] at h
    split at h
    · split at h
      · cases h
      · split at h
        · cases h; rfl
        · split at h <;> cases h; rfl
    · cases h; rfl

theorem rxStep_idles {t : Tail} {b q : Byte} (h : (rxStep t b).1 = .idle q) : q = b := by
  cases t with
  | idle q' =>
    simp only [rxStep] at h
    split at h <;> cases h; rfl
  | opened cs =>
    simp only [rxStep] at h
    split at h
    · split at h
      · cases h; rfl
      · split at h
        · cases h
        · split at h <;> cases h; rfl
    · cases h

theorem rtStep_opens {r : RTail} {b : Byte} {bs : List Byte} (h : (rtStep r b).1 = .opened bs) :
    (r = .idle ∧ b = 0xD3 ∧ bs = [0xD3]) ∨ ∃ cs, r = .opened cs ∧ bs = cs ++ [b] := by
  cases r with
  | idle =>
    simp only [rtStep] at h
    split at h
    · rename_i hb; cases h; exact .inl ⟨rfl, hb, by rw [hb]⟩
    · cases h
  | opened cs =>
    refine .inr ⟨cs, rfl, ?_⟩
    simp only [rtStep] at h
    split at h
    · split at h
      · cases h
      · split at h <;> cases h; rfl
    · cases h; rfl

theorem rtStep_frame {r : RTail} {b : Byte} {f : List Byte} (h : (rtStep r b).2 = some (.frame f)) :
    ∃ cs, r = .opened cs ∧ f = cs ++ [b] := by
  cases r with
  | idle => simp only [rtStep] at h; split at h <;> cases h
  | opened cs =>
    refine ⟨cs, rfl, ?_⟩
    simp only [rtStep] at h
    split at h
    · split at h
      · cases h
      · split at h <;> cases h; rfl
    · cases h

/-- The UBX scanner reads the byte. -/
theorem CI.fed {base : Bool} {h : List Byte} {t : Tail} {r : RTail} (hc : CI base h t r) (b : Byte) :
    (∀ bs, (rxStep t b).1 = .opened bs → (0xB5 :: 0x62 :: bs) <:+ h ++ [b]) ∧
    ((rxStep t b).1 = .idle 0xB5 → [0xB5] <:+ h ++ [b]) := by
  constructor
  · intro bs hb
    rcases rxStep_opens hb with ⟨ht, rfl, rfl⟩ | ⟨cs, ht, rfl⟩
    · exact suffix_snoc 0x62 (hc.last ht)
    · exact suffix_snoc b (hc.ubx cs ht)
  · intro hb
    rw [← rxStep_idles hb]
    exact List.suffix_append _ _

theorem CI.good {base : Bool} {h : List Byte} {t : Tail} {r : RTail} (hc : CI base h t r) {b c i : Byte} {p : List Byte}
    (hg : (rxStep t b).2 = some (.good c i p)) : ubxFrame c i p <:+ h ++ [b] ∧ 1 ≤ p.length := by
  cases t with
  | idle q => simp only [rxStep] at hg; split at hg <;> cases hg
  | opened cs =>
    obtain ⟨⟨pre, he⟩, k1, -⟩ := rxStep_good (hist := h) (hc.ubx cs rfl |> fun ⟨p, hp⟩ => ⟨p, hp.symm⟩) hg
    exact ⟨⟨pre, he.symm⟩, k1⟩

/-- One byte. -/
theorem CI.step {base : Bool} {h : List Byte} {t : Tail} {r : RTail} (hc : CI base h t r) (b : Byte) :
    CI base (h ++ [b]) (dStep base t r b).1 (dStep base t r b).2.1 ∧
    (∀ c i p, (dStep base t r b).2.2.1 = some (.good c i p) → ubxFrame c i p <:+ h ++ [b] ∧ 1 ≤ p.length) ∧
    (base = true → ∀ f, (dStep base t r b).2.2.2 = some (.frame f) → f <:+ h ++ [b]) := by
  unfold dStep
  split
  · rename_i hu
    have hr : base = true → rOpen r = false := by
      intro hb
      cases hx : rOpen r with
      | false => rfl
      | true => obtain ⟨q, rfl, -⟩ := hc.excl hb hx; cases hu
    refine ⟨⟨(hc.fed b).1, (hc.fed b).2, fun hb hx => ?_, fun hb bs hx => ?_⟩, fun c i p hg => hc.good hg, fun _ f hf => (by cases hf)⟩
    · rw [hr hb] at hx; cases hx
    · subst hx; have := hr hb; cases this
  · rename_i hu
    split
    · rename_i hx
      have hx := Bool.and_eq_true_iff.mp hx
      obtain ⟨q, rfl, hq⟩ := hc.excl hx.2 hx.1
      refine ⟨⟨fun bs hb => (by cases hb), fun hb => ?_, fun _ _ => ⟨q, rfl, hq⟩, fun hb bs hs => ?_⟩,
        fun c i p hg => (by cases hg), fun hb f hf => ?_⟩
      · cases hb; exact absurd rfl hq
      · rcases rtStep_opens hs with ⟨rfl, rfl, rfl⟩ | ⟨cs, rfl, rfl⟩
        · exact List.suffix_append _ _
        · exact suffix_snoc b (hc.rtcm hb cs rfl)
      · obtain ⟨cs, rfl, rfl⟩ := rtStep_frame hf
        exact suffix_snoc b (hc.rtcm hb cs rfl)
    · rename_i hx
      have hr : base = true → r = .idle := by
        intro hb
        cases r with
        | idle => rfl
        | opened cs => exact absurd (by rw [hb]; rfl) hx
      refine ⟨⟨(hc.fed b).1, (hc.fed b).2, fun hb ho => ?_, fun hb bs hs => ?_⟩, fun c i p hg => hc.good hg, fun hb f hf => ?_⟩
      · have : b = 0xD3 := by
          cases hs : (rtStep r b).1 with
          | idle => rw [hs] at ho; cases ho
          | opened bs =>
            rcases rtStep_opens hs with ⟨-, h2, -⟩ | ⟨cs, h1, -⟩
            · exact h2
            · rw [hr hb] at h1; cases h1
        subst this
        cases t with
        | opened cs => exact absurd rfl hu
        | idle q =>
          refine ⟨0xD3, ?_, by decide⟩
          simp only [rxStep]
          rw [if_neg (fun hx => absurd hx.2 (by decide))]
      · rcases rtStep_opens hs with ⟨-, rfl, rfl⟩ | ⟨cs, h1, -⟩
        · exact List.suffix_append _ _
        · rw [hr hb] at h1; cases h1
      · obtain ⟨cs, h1, -⟩ := rtStep_frame hf
        rw [hr hb] at h1; cases h1

/-- The device's parsers and the received bytes. -/
def Held (d : Dev) (h : List Byte) : Prop :=
  ∃ hu r, Ubx.Reach d.ubx hu ∧ Rtcm.Abs d.rtcm r ∧ CI (d.role == .base) h (tailOf hu) r

theorem rxUbx_reach {md : Mode} {d d' : Dev} {hu : List Byte} {b : Byte} {es : List Eff} (h : Ubx.Reach d.ubx hu)
    (hr : rxUbx md d b = .ok (d', es)) : Ubx.Reach d'.ubx (hu ++ [b]) := by
  obtain ⟨-, r, ds, k⟩ := rxUbx_ubx hr
  exact h.feed (bs := [b]) (outs := [(r, ds)]) (by unfold Ubx.feed; rw [k]; rfl)

theorem rxByte_reach {md : Mode} {d d' : Dev} {hu : List Byte} {r : RTail} {b : Byte} {es : List Eff} (h : Ubx.Reach d.ubx hu)
    (hr : Rtcm.Abs d.rtcm r) (hx : rxByte md d b = .ok (d', es)) :
    ∃ hu', Ubx.Reach d'.ubx hu' ∧ tailOf hu' = (dStep (d.role == .base) (tailOf hu) r b).1 := by
  unfold rxByte at hx
  unfold dStep
  rw [uOpen_iff h.inv.abs, rOpen_iff hr] at hx
  split at hx
  · rename_i ho
    rw [if_pos ho]
    exact ⟨hu ++ [b], rxUbx_reach h hx, Ubx.tailOf_snoc _ _⟩
  · rename_i ho
    rw [if_neg ho]
    split at hx
    · rename_i hb
      rw [if_pos hb]
      exact ⟨hu, by rw [(rxRtcm_ubx hx).1]; exact h, rfl⟩
    · rename_i hb
      rw [if_neg hb]
      rw [bind_ok] at hx
      obtain ⟨⟨d1, e1⟩, h1, hx⟩ := hx
      dsimp only at hx
      rw [bind_ok] at hx
      obtain ⟨⟨d2, e2⟩, h2, hx⟩ := hx
      cases hx
      exact ⟨hu ++ [b], by rw [(rxRtcm_ubx h2).1]; exact rxUbx_reach h h1, Ubx.tailOf_snoc _ _⟩

/-- What is passed on, and where it was in the stream `s`. -/
def InPiece (s : List Byte) (e : Eff) : Prop :=
  (∀ l c i m, e = .ubx l c i m → ∃ p, ubxFrame c i p <:+ s ∧ 1 ≤ p.length ∧ m.take p.length = p) ∧
  (∀ i f, e = .toRtk i f → f <:+ s ∧ CrcValid f)

theorem Held.rxByte {md : Mode} {d d' : Dev} {evs : List Ev} {h : List Byte} {b : Byte} {es : List Eff} (hi : Inv md d evs)
    (hh : Held d h) (hr : rxByte md d b = .ok (d', es)) : Held d' (h ++ [b]) ∧ ∀ e ∈ es, InPiece (h ++ [b]) e := by
  obtain ⟨hu, r, k1, k2, k3⟩ := hh
  obtain ⟨hu', k4, k5⟩ := rxByte_reach k1 k2 hr
  obtain ⟨a1, a2, e1, a3, a4⟩ := rxByte_sim (users := registered evs) ⟨hi.wired, k1.inv.abs, k2⟩ hr
  obtain ⟨c1, c2, c3⟩ := k3.step b
  refine ⟨⟨hu', _, k4, a1.rtcm, by rw [k5, a2.role]; exact c1⟩, fun e he => ?_⟩
  rw [a3] at he
  rcases List.mem_append.1 he with he | he
  · unfold ItemShows at a4
    split at a4
    · rename_i c i p hg
      obtain ⟨m1, m2⟩ := c2 c i p hg
      obtain ⟨msg, -, m3, m4⟩ := a4
      have key : ∀ e ∈ userEffs c i msg ((registered evs).filter (d.userSub c i)), InPiece (h ++ [b]) e := by
        intro e he
        obtain ⟨l, -, rfl⟩ := List.mem_map.1 he
        refine ⟨fun l' c' i' m' hx => ?_, fun i f hx => (by cases hx)⟩
        cases hx
        exact ⟨p, m1, m2, m3⟩
      unfold ubxEffs at m4
      split at m4
      · rw [bind_ok] at m4
        obtain ⟨⟨n', cs⟩, -, m4⟩ := m4
        cases m4
        rcases List.mem_append.1 he with he | he
        · obtain ⟨cl, -, rfl⟩ := List.mem_map.1 he
          exact ⟨fun _ _ _ _ hx => (by cases hx), fun _ _ hx => (by cases hx)⟩
        · exact key e he
      · rw [← (Prod.mk.inj (Except.ok.inj m4)).2] at he; exact key e he
    · rw [a4.2] at he; cases he
  · unfold rtcmEffs at he
    split at he
    · rename_i f i hf hrole hrtk
      split at he
      · rename_i hv
        obtain ⟨x, -, rfl⟩ := List.mem_map.1 he
        refine ⟨fun _ _ _ _ hx => (by cases hx), fun i' f' hx => ?_⟩
        cases hx
        exact ⟨c3 (by rw [hrole]; rfl) f hf, hv⟩
      · cases he
    · cases he

theorem Held.readCb {md : Mode} {d d' : Dev} {evs : List Ev} {h s : List Byte} {es : List Eff} (hi : Inv md d evs)
    (hh : Held d h) (hr : Dev.readCb md d s = .ok (d', es)) :
    Held d' (h ++ s) ∧ ∀ e ∈ es, ∃ k, k ≤ s.length ∧ InPiece (h ++ s.take k) e := by
  induction s generalizing d h es with
  | nil => cases hr; rw [List.append_nil]; exact ⟨hh, fun e he => (by cases he)⟩
  | cons b bs ih =>
    obtain ⟨d1, e1, e2, h1, h2, rfl⟩ := readCb_cons_ok hr
    obtain ⟨k1, k2⟩ := hh.rxByte hi h1
    obtain ⟨k3, k4⟩ := ih (hi.rxByte h1) k1 h2
    rw [List.append_assoc] at k3
    refine ⟨k3, fun e he => ?_⟩
    rcases List.mem_append.1 he with he | he
    · exact ⟨1, by simp, k2 e he⟩
    · obtain ⟨k, hk, hp⟩ := k4 e he
      refine ⟨k + 1, by simpa using hk, ?_⟩
      rw [List.append_assoc] at hp
      exact hp

theorem CI.unbase {base : Bool} {h : List Byte} {t : Tail} {r : RTail} (hc : CI base h t r) : CI false h t r :=
  ⟨hc.ubx, hc.last, fun h => (by cases h), fun h => (by cases h)⟩

theorem CI.rebase {base b' : Bool} {h : List Byte} {t : Tail} {r : RTail} (hc : CI base h t r) (ho : rOpen r = false) : CI b' h t r :=
  ⟨hc.ubx, hc.last, fun _ h => (by rw [ho] at h; cases h), fun _ bs hb => (by subst hb; cases ho)⟩

theorem command_held {d d' : Dev} {cs : List Ubx.Command} {h : List Byte} {es : List Eff} (hh : Held d h)
    (hr : Dev.command d cs = .ok (d', es)) : Held d' h ∧ ∃ w, es = [.toReceiver w] := by
  unfold Dev.command at hr
  rw [bind_ok] at hr
  obtain ⟨⟨u, w⟩, h1, hr⟩ := hr
  cases hr
  obtain ⟨hu, r, k1, k2, k3⟩ := hh
  exact ⟨⟨hu, r, runCommands_reach k1 h1, k2, k3⟩, w, rfl⟩

theorem Held.step {md : Mode} {d d' : Dev} {evs : List Ev} {h : List Byte} {e : Ev} {es : List Eff} (hi : Inv md d evs)
    (hh : Held d h) (hb : ∀ i s, e = .configBase i s → d.rtcm.parsingMessage = false) (hr : d.step md e = .ok (d', es)) :
    Held d' (h ++ heardIn e) := by
  cases e with
  | rx buf => exact (hh.readCb hi hr).1
  | rtkRx i buf =>
    rw [show heardIn (.rtkRx i buf) = [] from rfl, List.append_nil]
    unfold Dev.step Dev.rtkRx at hr
    dsimp only at hr
    split at hr
    · rw [bind_ok] at hr
      obtain ⟨⟨g, x⟩, -, hr⟩ := hr
      cases hr; exact hh
    · cases hr; exact hh
  | listen l =>
    cases hr
    rw [show heardIn (.listen l) = [] from rfl, List.append_nil]
    obtain ⟨hu, r, k1, k2, k3⟩ := hh
    exact ⟨hu, r, k1.register _, k2, k3⟩
  | subscribe l c i =>
    cases hr
    rw [show heardIn (.subscribe l c i) = [] from rfl, List.append_nil]
    obtain ⟨hu, r, k1, k2, k3⟩ := hh
    exact ⟨hu, r, k1.subscribe _ _ _, k2, k3⟩
  | ephCb => cases hr; rw [show heardIn .ephCb = [] from rfl, List.append_nil]; exact hh
  | gephCb => cases hr; rw [show heardIn .gephCb = [] from rfl, List.append_nil]; exact hh
  | configBase i s =>
    rw [show heardIn (.configBase i s) = [] from rfl, List.append_nil]
    have h0 : Held { d with role := .base, rtk := some i, rtcm := d.rtcm.registerListener 0 } h := by
      obtain ⟨hu, r, k1, k2, k3⟩ := hh
      have ho := hb i s rfl
      rw [rOpen_iff k2] at ho
      refine ⟨hu, r, k1, ?_, k3.rebase ho⟩
      cases r <;> exact k2
    exact (command_held h0 hr).1
  | configRover i =>
    rw [show heardIn (.configRover i) = [] from rfl, List.append_nil]
    unfold Dev.step Dev.configRover at hr
    dsimp only at hr
    rw [bind_ok] at hr
    obtain ⟨⟨d1, e1⟩, h1, hr⟩ := hr
    cases hr
    have h0 : Held { d with role := .rover } h := by
      obtain ⟨hu, r, k1, k2, k3⟩ := hh
      exact ⟨hu, r, k1, k2, k3.unbase⟩
    have k : Held d1 h := (command_held h0 h1).1
    exact k

theorem Held.run {md : Mode} : ∀ {evs pre : List Ev} {d d' : Dev} {h : List Byte} {es : List Eff}, Inv md d pre → Held d h →
    BaseBetween md d evs → Dev.run md d evs = .ok (d', es) → Inv md d' (pre ++ evs) ∧ Held d' (h ++ evs.flatMap heardIn) := by
  intro evs
  induction evs with
  | nil => intro pre d d' h es hi hh _ hr; cases hr; simpa using ⟨hi, hh⟩
  | cons e evs ih =>
    intro pre d d' h es hi hh hb hr
    unfold Dev.run at hr
    rw [bind_ok] at hr
    obtain ⟨⟨d1, e1⟩, h1, hr⟩ := hr
    dsimp only at hr
    rw [bind_ok] at hr
    obtain ⟨⟨d2, e2⟩, h2, hr⟩ := hr
    cases hr
    have k := ih (hi.step h1) (hh.step hi hb.1 h1) (hb.2 _ _ h1) h2
    rw [List.append_assoc, List.append_assoc] at k
    exact k

/-- **C115 (partial).** Every UBX message that a listener is called with, and every RTCM message that is forwarded, is a valid frame that
ends with the last byte received, its bytes following each other without gaps in what the receiver sent; provided `config_base` was
never called while the driver was inside an RTCM message.  (Without that condition it is false: `c115_refuted`.) -/
theorem c115_partial {md : Mode} {u : Ubx} {r g : Rtcm} {ss : List Ubx.Sched} {d0 d d' : Dev} {e0 es es' : List Eff} {evs : List Ev}
    {buf : List Byte} (hu : FreshUbx u) (hr : FreshRtcm r) (hg : FreshRtcm g) (hc : construct md (start u r g) ss = .ok (some (some d0, e0)))
    (hrun : run md d0 evs = .ok (d, es)) (hb : BaseBetween md d0 evs) (hs : d.step md (.rx buf) = .ok (d', es')) :
    (∀ l c i m, Eff.ubx l c i m ∈ es' → ∃ k p, k ≤ buf.length ∧ ubxFrame c i p <:+ sentBy ss evs ++ buf.take k ∧ 1 ≤ p.length ∧
      m.take p.length = p) ∧
    (∀ i f, Eff.toRtk i f ∈ es' → ∃ k, k ≤ buf.length ∧ f <:+ sentBy ss evs ++ buf.take k ∧ CrcValid f) := by
  have tr := (Track.start (md := md) hu hr hg).construct hc
  have h0 : Held d0 (ctorBytes ss) := by
    obtain ⟨hR, r2⟩ := tr.inv.rtcm
    obtain ⟨t, r3, -⟩ := r2.inv.tail
    refine ⟨ctorBytes ss, t, tr.reach, r3, ?_⟩
    have hbb : (d0.role == .base) = false := by
      cases hx : d0.role with
      | base => exact absurd hx tr.role
      | _ => rfl
    rw [hbb]
    have ht := Ubx.tailHist (ctorBytes ss)
    refine ⟨fun bs hx => ?_, fun hx => ?_, fun h => (by cases h), fun h => (by cases h)⟩
    · rw [hx] at ht
      obtain ⟨pre, hp⟩ := ht
      exact ⟨pre, hp.symm⟩
    · rw [hx] at ht
      rcases ht with ⟨-, ht⟩ | ⟨pre, hp⟩
      · cases ht
      · exact ⟨pre, hp.symm⟩
  obtain ⟨k1, k2⟩ := Held.run tr.inv h0 hb hrun
  obtain ⟨-, k3⟩ := k2.readCb k1 hs
  constructor
  · intro l c i m hm
    obtain ⟨k, hk, hp⟩ := k3 _ hm
    obtain ⟨p, p1, p2, p3⟩ := hp.1 l c i m rfl
    exact ⟨k, p, hk, p1, p2, p3⟩
  · intro i f hm
    obtain ⟨k, hk, hp⟩ := k3 _ hm
    obtain ⟨p1, p2⟩ := hp.2 i f rfl
    exact ⟨k, hk, p1, p2⟩

/-! ### Witnesses -/

/-- The example device after its construction, then events; what the last one shows. -/
def exLast (evs : List Ev) (buf : List Byte) : Option (List Eff) :=
  match construct .strict exStart [exSched] with
  | .ok (some (some d0, _)) =>
    match run .strict d0 evs with
    | .ok (d, _) =>
      match d.step .strict (.rx buf) with
      | .ok (_, es) => some es
      | .error _ => none
    | .error _ => none
  | _ => none

theorem exLast_some {evs : List Ev} {buf : List Byte} {es : List Eff} (h : exLast evs buf = some es) :
    ∃ u r g d0 e0 d e1 d', FreshUbx u ∧ FreshRtcm r ∧ FreshRtcm g ∧ construct .strict (start u r g) [exSched] = .ok (some (some d0, e0)) ∧
      run .strict d0 evs = .ok (d, e1) ∧ d.step .strict (.rx buf) = .ok (d', es) := by
  unfold exLast at h
  split at h
  · rename_i d0 e0 hc
    split at h
    · rename_i d e1 hr
      split at h
      · rename_i d' es' hs
        cases h
        exact ⟨_, _, _, d0, e0, d, e1, d', ⟨_, _, _, _, _, List.length_replicate, List.length_replicate, List.length_replicate, rfl⟩,
          ⟨_, _, _, _, List.length_replicate, rfl⟩, ⟨_, _, _, _, List.length_replicate, rfl⟩, hc, hr, hs⟩
      · cases h
    · cases h
  · cases h

/-- Is there such a frame in a stream? -/
def exUbx : List Byte := ubxFrame 0x01 0x07 [0x2A]

/-- An RTCM preamble reaches a device without a role, then `B5`, then the device becomes a base; the rest of that "message" and
everything of a UBX frame but its first byte follow. -/
def exLate : List Ev := [.listen 3, .subscribe 3 0x01 0x07, .rx [0xD3, 0x00, 0x02, 0xB5], .configBase 9 false]
def exLateBuf : List Byte := [0xAA, 0x00, 0x00, 0x00] ++ exUbx.drop 1

/-- A UBX message arrives inside an RTCM message of a device without a role, which then becomes a base. -/
def exInside : List Ev := [.rx ([0xD3, 0x00, 0x02] ++ exUbx), .configBase 9 false]
def exInsideBuf : List Byte := [0xC5, 0x3D, 0x31]

/-- **C115 (refuted).** A listener is called with a UBX message, and an RTCM message is forwarded, that are nowhere in what the receiver
sent: pieces were put together. -/
theorem c115_refuted :
    (∃ u r g d0 e0 d e1 d' es', FreshUbx u ∧ FreshRtcm r ∧ FreshRtcm g ∧ construct .strict (start u r g) [exSched] = .ok (some (some d0, e0)) ∧
      run .strict d0 exLate = .ok (d, e1) ∧ d.step .strict (.rx exLateBuf) = .ok (d', es') ∧
      (es'.filterMap Eff.user?).map (fun x => (x.1, x.2.1, x.2.2.1, x.2.2.2.head?)) = [(3, 0x01, 0x07, some 0x2A)] ∧
      ∀ p, ¬ ubxFrame 0x01 0x07 p <:+: sentBy [exSched] exLate ++ exLateBuf) ∧
    (∃ u r g d0 e0 d e1 d' es', FreshUbx u ∧ FreshRtcm r ∧ FreshRtcm g ∧ construct .strict (start u r g) [exSched] = .ok (some (some d0, e0)) ∧
      run .strict d0 exInside = .ok (d, e1) ∧ d.step .strict (.rx exInsideBuf) = .ok (d', es') ∧
      es'.filterMap Eff.rtk? = [(9, [0xD3, 0x00, 0x02, 0xB5, 0x62, 0xC5, 0x3D, 0x31])] ∧
      ¬ [0xD3, 0x00, 0x02, 0xB5, 0x62, 0xC5, 0x3D, 0x31] <:+: sentBy [exSched] exInside ++ exInsideBuf) := by
  constructor
  · have h : (exLast exLate exLateBuf).map (fun es => (es.filterMap Eff.user?).map (fun x => (x.1, x.2.1, x.2.2.1, x.2.2.2.head?))) =
        some [(3, 0x01, 0x07, some 0x2A)] := by decide +kernel
    cases hx : exLast exLate exLateBuf with
    | none => rw [hx] at h; cases h
    | some es =>
      rw [hx] at h
      obtain ⟨u, r, g, d0, e0, d, e1, d', h1, h2, h3, h4, h5, h6⟩ := exLast_some hx
      refine ⟨u, r, g, d0, e0, d, e1, d', es, h1, h2, h3, h4, h5, h6, Option.some.inj h, fun p hp => ?_⟩
      have hn : ¬ [0xB5, 0x62, 0x01] <:+: sentBy [exSched] exLate ++ exLateBuf := by decide +kernel
      exact hn (.trans ⟨[], _, rfl⟩ hp)
  · have h : (exLast exInside exInsideBuf).map (fun es => es.filterMap Eff.rtk?) =
        some [(9, [0xD3, 0x00, 0x02, 0xB5, 0x62, 0xC5, 0x3D, 0x31])] := by decide +kernel
    cases hx : exLast exInside exInsideBuf with
    | none => rw [hx] at h; cases h
    | some es =>
      rw [hx] at h
      obtain ⟨u, r, g, d0, e0, d, e1, d', h1, h2, h3, h4, h5, h6⟩ := exLast_some hx
      exact ⟨u, r, g, d0, e0, d, e1, d', es, h1, h2, h3, h4, h5, h6, Option.some.inj h, by decide +kernel⟩

/-- The hypotheses of `c115_partial` are met by a device that becomes a base, is in the middle of an RTCM message, becomes a rover,
gets the rest, and becomes a base again; the next buffer has effects of both kinds. -/
def exTwice : List Ev :=
  [.listen 3, .subscribe 3 0x01 0x07, .configBase 9 false, .rx ([0xD3, 0x00, 0x01, 0x00]), .configRover 8, .rx [0x0A, 0x18, 0x8D],
   .configBase 9 false]

/-- `BaseBetween`, computed. -/
def baseBetween (md : Mode) : Dev → List Ev → Bool
  | _, [] => true
  | d, e :: evs =>
    (match e with | .configBase _ _ => !d.rtcm.parsingMessage | _ => true) &&
    match d.step md e with
    | .ok (d', _) => baseBetween md d' evs
    | .error _ => true

theorem baseBetween_ok {md : Mode} : ∀ {evs : List Ev} {d : Dev}, baseBetween md d evs = true → BaseBetween md d evs := by
  intro evs
  induction evs with
  | nil => intro d _; trivial
  | cons e evs ih =>
    intro d h
    unfold baseBetween at h
    rw [Bool.and_eq_true] at h
    refine ⟨fun i s he => ?_, fun d' es hs => ?_⟩
    · subst he; simpa using h.1
    · have h2 := h.2
      rw [hs] at h2
      exact ih h2

example : (match construct .strict exStart [exSched] with
    | .ok (some (some d0, _)) => baseBetween .strict d0 exTwice
    | _ => false) = true ∧
    (exLast exTwice (exUbx ++ [0xD3, 0x00, 0x01, 0x00, 0x0A, 0x18, 0x8D])).map
      (fun es => ((es.filterMap Eff.user?).length, (es.filterMap Eff.rtk?).length)) = some (1, 2) := by
  refine ⟨by decide +kernel, by decide +kernel⟩

end Dev
end Ublox
