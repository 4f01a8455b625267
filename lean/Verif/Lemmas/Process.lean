import Verif.Spec.Process
import Verif.Lemmas.DeviceCtor

/-!
# A device depends on the shared variables only through Galileo messages and its debug parser
-/

namespace Ublox
namespace Proc

open Nav (Nav NavCall Mode Sfrbx NavOp)

/-- The decoder with another page store (`none`: the same). -/
def setG (G : Option (Nat → List Byte)) (n : Nav) : Nav := { n with gal := G.getD n.gal }

/-- The device with other shared variables. -/
def upd (G : Option (Nat → List Byte)) (g : Rtcm) (d : Dev) : Dev := { d with nav := setG G d.nav, dbg := g }

theorem setG_none (n : Nav) : setG none n = n := rfl

theorem step_setG {md : Mode} {n : Nav} {G : Option (Nat → List Byte)} {j : List Byte} {m : Sfrbx} (h : G = none ∨ m.gnssId ≠ 2) :
    (setG G n).step md (.sfrbx j m) = (n.step md (.sfrbx j m)).map (fun r => (setG G r.1, r.2)) := by
  rcases h with rfl | h
  · show n.step md (.sfrbx j m) = (n.step md (.sfrbx j m)).map id
    cases n.step md (.sfrbx j m) <;> rfl
  · unfold Nav.step Nav.convertUBX
    dsimp only
    split
    · unfold Nav.convertGlo
      dsimp only [setG]
      cases hf : Nav.findLast m.svId (n.geph.map (·.sat)) 0 none <;> dsimp only
      · cases hg : (n.geph ++ [{ Nav.GEph.fresh with sat := m.svId }])[n.geph.length]? with
        | none => rfl
        | some g => dsimp only; cases Nav.decodeGlonass md n.gpsTime m.gnssId m.svId m.freqId m.dwrd g <;> rfl
      · rename_i i
        cases hg : n.geph[i]? with
        | none => rfl
        | some g => dsimp only; cases Nav.decodeGlonass md n.gpsTime m.gnssId m.svId m.freqId m.dwrd g <;> rfl
    · unfold Nav.convertEph
      dsimp only [setG]
      cases hf : Nav.findLast m.svId (n.eph.map (·.sat)) 0 none <;> dsimp only
      · cases hg : (n.eph ++ [Nav.Eph.fresh])[n.eph.length]? with
        | none => rfl
        | some e0 =>
          dsimp only
          by_cases h0 : m.gnssId = 0
          · rw [if_pos h0, if_pos h0]
            generalize Nav.decodeGPS j n.gpsTime m.dwrd _ = o
            cases o <;> rfl
          · rw [if_neg h0, if_neg h, if_neg h0, if_neg h]
            cases Nav.offEnd md <;> rfl
      · rename_i i
        cases hg : n.eph[i]? with
        | none => rfl
        | some e0 =>
          dsimp only
          by_cases h0 : m.gnssId = 0
          · rw [if_pos h0, if_pos h0]
            generalize Nav.decodeGPS j n.gpsTime m.dwrd _ = o
            cases o <;> rfl
          · rw [if_neg h0, if_neg h, if_neg h0, if_neg h]
            cases Nav.offEnd md <;> rfl

/-- The effects of a computation on devices, with the device changed. -/
def lift (f : Dev → Dev) (x : M (Dev × List Eff)) : M (Dev × List Eff) := x.map fun r => (f r.1, r.2)

theorem lift_bind {f : Dev → Dev} {x : M (Dev × List Eff)} {k k' : Dev → List Eff → M (Dev × List Eff)}
    (h : ∀ d es, x = .ok (d, es) → k' (f d) es = lift f (k d es)) :
    (lift f x >>= fun r => k' r.1 r.2) = lift f (x >>= fun r => k r.1 r.2) := by
  cases hx : x with
  | error e => rfl
  | ok r => exact h r.1 r.2 hx

/-- The message is not about Galileo, or it does not matter. -/
def Fine (G : Option (Nat → List Byte)) (x : Delivery) : Prop :=
  x.cls = Dev.CLASS_RXM ∧ x.id = Dev.RXM_SFRBX → G = none ∨ (Sfrbx.ofBuffer x.msg).gnssId ≠ 2

theorem deliverOne_upd {md : Mode} {d : Dev} {G : Option (Nat → List Byte)} {g : Rtcm} {x : Delivery} (h : Fine G x) :
    Dev.deliverOne md (upd G g d) x = lift (upd G g) (Dev.deliverOne md d x) := by
  unfold Dev.deliverOne
  split
  · by_cases hc : x.cls = Dev.CLASS_RXM ∧ x.id = Dev.RXM_SFRBX
    · rw [if_pos hc, if_pos hc]
      show ((setG G d.nav).step md _ >>= _) = _
      rw [step_setG (h hc)]
      cases d.nav.step md (.sfrbx (List.replicate 30 0) (Sfrbx.ofBuffer x.msg)) <;> rfl
    · rw [if_neg hc, if_neg hc]; rfl
  · rfl

theorem deliver_upd {md : Mode} {G : Option (Nat → List Byte)} {g : Rtcm} {ds : List Delivery} (h : ∀ x ∈ ds, Fine G x) (d : Dev) :
    Dev.deliver md (upd G g d) ds = lift (upd G g) (Dev.deliver md d ds) := by
  induction ds generalizing d with
  | nil => rfl
  | cons x xs ih =>
    unfold Dev.deliver
    rw [deliverOne_upd (h x List.mem_cons_self)]
    refine lift_bind (k := fun d1 e1 => Dev.deliver md d1 xs >>= fun r => .ok (r.1, e1 ++ r.2))
      (k' := fun d1 e1 => Dev.deliver md d1 xs >>= fun r => .ok (r.1, e1 ++ r.2)) fun d1 e1 _ => ?_
    rw [ih fun y hy => h y (List.mem_cons_of_mem _ hy)]
    cases Dev.deliver md d1 xs <;> rfl

/-- The UBX parser of a device that has received `h`: the bytes of an open frame are the last ones received. -/
def UInv (d : Dev) (h : List Byte) : Prop := ∃ h', Ubx.Reach d.ubx h' ∧ ∀ bs, Ubx.tailOf h' = .opened bs → bs <:+ h

theorem UInv.byte {u : Ubx} {h h' : List Byte} {b : Byte} {r : Bool} {ds : List Delivery} {u' : Ubx} (h1 : Ubx.Reach u h')
    (h2 : ∀ bs, Ubx.tailOf h' = .opened bs → bs <:+ h) (hr : u.readCb b = .ok (u', r, ds)) :
    (∃ h'', Ubx.Reach u' h'' ∧ ∀ bs, Ubx.tailOf h'' = .opened bs → bs <:+ h ++ [b]) ∧
    ∀ x ∈ ds, ∃ p, (ubxFrame x.cls x.id p).drop 2 <:+: h ++ [b] ∧ 1 ≤ p.length ∧ x.msg.take p.length = p := by
  constructor
  · refine ⟨h' ++ [b], h1.feed (bs := [b]) (outs := [(r, ds)]) (by unfold Ubx.feed; rw [hr]; rfl), ?_⟩
    intro bs hb
    rw [Ubx.tailOf_snoc] at hb
    cases ht : Ubx.tailOf h' with
    | idle q =>
      rw [ht] at hb
      simp only [rxStep] at hb
      split at hb
      · cases hb; exact List.nil_suffix
      · cases hb
    | opened cs =>
      have hs := h2 cs ht
      rw [ht] at hb
      have : bs = cs ++ [b] := by
        simp only [rxStep] at hb
        split at hb
        · split at hb
          · cases hb
          · split at hb
            · cases hb; rfl
            · split at hb <;> cases hb; rfl
        · cases hb; rfl
      rw [this]
      obtain ⟨pre, hp⟩ := hs
      exact ⟨pre, by rw [← hp, List.append_assoc]⟩
  · intro x hx
    obtain ⟨-, hs⟩ := Ubx.readCb_sim h1.inv.wf h1.inv.abs hr
    have hrt : r = true := by
      cases r with
      | true => rfl
      | false => rw [hs.quiet rfl] at hx; simp at hx
    obtain ⟨c, i, p, hit⟩ := hs.ret.1 hrt
    obtain ⟨msg, m1, m2, m3⟩ := hs.calls c i p hit
    rw [m3] at hx
    obtain ⟨l, -, rfl⟩ := List.mem_map.1 hx
    cases ht : Ubx.tailOf h' with
    | idle q =>
      rw [ht] at hit
      simp only [rxStep] at hit
      split at hit <;> cases hit
    | opened cs =>
      rw [ht] at hit
      obtain ⟨⟨pre, he⟩, k1, -⟩ := rxStep_good (t := .opened cs) (hist := 0xB5 :: 0x62 :: cs) ⟨[], rfl⟩ hit
      obtain ⟨q, hq⟩ := h2 cs ht
      refine ⟨p, ?_, k1, m2⟩
      have hd : (ubxFrame c i p).drop 2 <:+ cs ++ [b] := by
        have e2 : cs ++ [b] = (pre ++ ubxFrame c i p).drop 2 := by rw [← he]; rfl
        rw [e2]
        refine List.suffix_of_suffix_length_le (l₃ := pre ++ ubxFrame c i p) ?_ (List.drop_suffix 2 _) ?_
        · exact (List.drop_suffix 2 _).trans (List.suffix_append _ _)
        · simp only [List.length_drop, List.length_append]; omega
      exact (hd.trans ⟨q, by rw [← hq, List.append_assoc]⟩).isInfix

/-- No Galileo message in the stream, or it does not matter. -/
def Calm (G : Option (Nat → List Byte)) (s : List Byte) : Prop := G = none ∨ NoGalileo s

theorem Calm.infix {G : Option (Nat → List Byte)} {a b : List Byte} (h : Calm G b) (hi : a <:+: b) : Calm G a :=
  h.imp id fun h p hp hx => h p hp (hx.trans hi)

theorem fine_of {G : Option (Nat → List Byte)} {s : List Byte} {x : Delivery} {p : List Byte} (hc : Calm G s)
    (h1 : (ubxFrame x.cls x.id p).drop 2 <:+: s) (h2 : 1 ≤ p.length) (h3 : x.msg.take p.length = p) : Fine G x := by
  rintro ⟨e1, e2⟩
  rcases hc with hc | hc
  · exact .inl hc
  · refine .inr fun hg => ?_
    rw [e1, e2] at h1
    refine hc p ?_ h1
    cases p with
    | nil => simp at h2
    | cons y ys =>
      cases hm : x.msg with
      | nil => rw [hm] at h3; simp at h3
      | cons z zs =>
        rw [hm] at h3 hg
        simp only [List.length_cons, List.take_succ_cons, List.cons.injEq] at h3
        rw [List.head?_cons, ← h3.1]
        exact congrArg some hg

theorem rxUbx_upd {md : Mode} {G : Option (Nat → List Byte)} {g : Rtcm} {d : Dev} {h : List Byte} {b : Byte} (hu : UInv d h)
    (hc : Calm G (h ++ [b])) : Dev.rxUbx md (upd G g d) b = lift (upd G g) (Dev.rxUbx md d b) := by
  obtain ⟨h', h1, h2⟩ := hu
  unfold Dev.rxUbx
  show (d.ubx.readCb b >>= _) = _
  cases hr : d.ubx.readCb b with
  | error e => rfl
  | ok q =>
    obtain ⟨u, r, ds⟩ := q
    have k := UInv.byte h1 h2 hr
    exact deliver_upd (fun x hx => by
      obtain ⟨p, p1, p2, p3⟩ := k.2 x hx
      exact fine_of hc p1 p2 p3) { d with ubx := u }

theorem rxUbx_uinv {md : Mode} {d d' : Dev} {h : List Byte} {b : Byte} {es : List Eff} (hu : UInv d h)
    (hr : Dev.rxUbx md d b = .ok (d', es)) : UInv d' (h ++ [b]) := by
  obtain ⟨h', h1, h2⟩ := hu
  obtain ⟨-, r, ds, k⟩ := Dev.rxUbx_ubx hr
  exact (UInv.byte h1 h2 k).1

theorem rxRtcm_upd {G : Option (Nat → List Byte)} {g : Rtcm} (d : Dev) (b : Byte) :
    Dev.rxRtcm (upd G g d) b = lift (upd G g) (Dev.rxRtcm d b) := by
  unfold Dev.rxRtcm
  show (d.rtcm.readByte b >>= _) = _
  cases hr : d.rtcm.readByte b with
  | error e => rfl
  | ok q =>
    obtain ⟨r, cs⟩ := q
    simp only [ok_bind]
    have key : ∀ cs : List RtcmCall, Dev.gotRtcms { upd G g d with rtcm := r } cs = Dev.gotRtcms { d with rtcm := r } cs := by
      intro cs
      induction cs with
      | nil => rfl
      | cons c cs ih =>
        unfold Dev.gotRtcms
        rw [ih]
        rfl
    rw [key]
    cases Dev.gotRtcms { d with rtcm := r } cs <;> rfl

theorem UInv.more {d d' : Dev} {h s : List Byte} (hu : UInv d h) (e : d'.ubx = d.ubx)
    (hn : s = [] ∨ d.ubx.parsingMessage = false) : UInv d' (h ++ s) := by
  obtain ⟨h', h1, h2⟩ := hu
  refine ⟨h', by rw [e]; exact h1, fun bs hb => ?_⟩
  rcases hn with rfl | hn
  · rw [List.append_nil]; exact h2 bs hb
  · have ha := h1.inv.abs
    rw [hb] at ha
    have : d.ubx.parsingMessage = true := by
      unfold Ubx.parsingMessage
      rw [ha.1, ha.2.1]; rfl
    rw [this] at hn; cases hn

theorem rxByte_upd {md : Mode} {G : Option (Nat → List Byte)} {g : Rtcm} {d : Dev} {h : List Byte} {b : Byte} (hu : UInv d h)
    (hc : Calm G (h ++ [b])) : Dev.rxByte md (upd G g d) b = lift (upd G g) (Dev.rxByte md d b) := by
  unfold Dev.rxByte
  have e1 : (upd G g d).ubx = d.ubx := rfl
  have e2 : (upd G g d).rtcm = d.rtcm := rfl
  have e3 : (upd G g d).role = d.role := rfl
  rw [e1, e2, e3]
  split
  · exact rxUbx_upd hu hc
  · split
    · exact rxRtcm_upd d b
    · rw [rxUbx_upd hu hc]
      refine lift_bind (k := fun d1 e1 => Dev.rxRtcm d1 b >>= fun r => .ok (r.1, e1 ++ r.2))
        (k' := fun d1 e1 => Dev.rxRtcm d1 b >>= fun r => .ok (r.1, e1 ++ r.2)) fun d1 e1 _ => ?_
      rw [rxRtcm_upd]
      cases Dev.rxRtcm d1 b <;> rfl

theorem rxByte_uinv {md : Mode} {d d' : Dev} {h : List Byte} {b : Byte} {es : List Eff} (hu : UInv d h)
    (hr : Dev.rxByte md d b = .ok (d', es)) : UInv d' (h ++ [b]) := by
  unfold Dev.rxByte at hr
  split at hr
  · exact rxUbx_uinv hu hr
  · rename_i hp
    split at hr
    · exact hu.more (Dev.rxRtcm_ubx hr).1 (.inr (by simpa using hp))
    · rw [bind_ok] at hr
      obtain ⟨⟨d1, e1⟩, h1, hr⟩ := hr
      dsimp only at hr
      rw [bind_ok] at hr
      obtain ⟨⟨d2, e2⟩, h2, hr⟩ := hr
      cases hr
      have k := (rxUbx_uinv hu h1).more (s := []) (Dev.rxRtcm_ubx h2).1 (.inl rfl)
      rw [List.append_nil] at k; exact k

theorem readCb_uinv {md : Mode} {d d' : Dev} {h s : List Byte} {es : List Eff} (hu : UInv d h)
    (hr : Dev.readCb md d s = .ok (d', es)) : UInv d' (h ++ s) := by
  induction s generalizing d h es with
  | nil => cases hr; rw [List.append_nil]; exact hu
  | cons b bs ih =>
    obtain ⟨d1, e1, e2, h1, h2, -⟩ := Dev.readCb_cons_ok hr
    have k := ih (rxByte_uinv hu h1) h2
    rw [List.append_assoc] at k
    exact k

theorem readCb_upd {md : Mode} {G : Option (Nat → List Byte)} {g : Rtcm} {d : Dev} {h s : List Byte} (hu : UInv d h)
    (hc : Calm G (h ++ s)) : Dev.readCb md (upd G g d) s = lift (upd G g) (Dev.readCb md d s) := by
  induction s generalizing d h with
  | nil => rfl
  | cons b bs ih =>
    have hc' : Calm G ((h ++ [b]) ++ bs) := by rw [List.append_assoc]; exact hc
    unfold Dev.readCb
    rw [rxByte_upd hu (hc'.infix (List.prefix_append _ _).isInfix)]
    refine lift_bind (k := fun d1 e1 => Dev.readCb md d1 bs >>= fun r => .ok (r.1, e1 ++ r.2))
      (k' := fun d1 e1 => Dev.readCb md d1 bs >>= fun r => .ok (r.1, e1 ++ r.2)) fun d1 e1 hx => ?_
    rw [ih (rxByte_uinv hu hx) hc']
    cases Dev.readCb md d1 bs <;> rfl

/-! ### Construction -/

abbrev SpinR := M (Option (Dev × Nat × List (List Byte × Nat) × List Eff))
def liftS (f : Dev → Dev) (x : SpinR) : SpinR := x.map (Option.map fun r => (f r.1, r.2))

theorem spin_upd {md : Mode} {G : Option (Nat → List Byte)} {g : Rtcm} : ∀ (its : List (List Byte × Nat)) {d : Dev} {dt : Nat}
    {h s : List Byte}, UInv d h → Calm G (h ++ its.flatMap (·.1) ++ s) →
    Dev.spin md (upd G g d) dt its = liftS (upd G g) (Dev.spin md d dt its) := by
  intro its
  induction its with
  | nil =>
    intro d dt h s hu hc
    rw [Dev.spin.eq_def, Dev.spin.eq_def md d]
    dsimp only
    rw [show (upd G g d).ubx = d.ubx from rfl]
    by_cases hb : (!d.ubx.gotVer && decide (dt < Ubx.TIMEOUT_MS)) = true
    · rw [if_pos hb, if_pos hb]; rfl
    · rw [if_neg hb, if_neg hb]; rfl
  | cons x rest ih =>
    intro d dt h s hu hc
    obtain ⟨bs, t⟩ := x
    rw [Dev.spin.eq_def, Dev.spin.eq_def md d]
    dsimp only
    rw [show (upd G g d).ubx = d.ubx from rfl]
    by_cases hb : (!d.ubx.gotVer && decide (dt < Ubx.TIMEOUT_MS)) = true
    · rw [if_pos hb, if_pos hb]
      have hc' : Calm G ((h ++ bs) ++ rest.flatMap (·.1) ++ s) := by
        rw [List.flatMap_cons] at hc
        simpa only [List.append_assoc] using hc
      rw [readCb_upd hu (hc'.infix (by rw [List.append_assoc]; exact (List.prefix_append _ _).isInfix))]
      cases hx : Dev.readCb md d bs with
      | error e => rfl
      | ok q =>
        obtain ⟨d1, e1⟩ := q
        show (Dev.spin md (upd G g d1) t rest >>= _) = _
        rw [ih (readCb_uinv hu hx) hc']
        simp only [ok_bind]
        cases Dev.spin md d1 t rest with
        | error e => rfl
        | ok o => cases o <;> rfl
    · rw [if_neg hb, if_neg hb]; rfl

theorem spin_uinv {md : Mode} : ∀ {its its' : List (List Byte × Nat)} {d d' : Dev} {dt dt' : Nat} {es : List Eff} {h : List Byte},
    UInv d h → Dev.spin md d dt its = .ok (some (d', dt', its', es)) → its' = [] → UInv d' (h ++ its.flatMap (·.1)) := by
  intro its
  induction its with
  | nil =>
    intro its' d d' dt dt' es h hu hr hi
    unfold Dev.spin at hr
    split at hr
    · cases hr
    · cases hr; rw [List.flatMap_nil, List.append_nil]; exact hu
  | cons x rest ih =>
    intro its' d d' dt dt' es h hu hr hi
    obtain ⟨bs, t⟩ := x
    unfold Dev.spin at hr
    split at hr
    · dsimp only at hr
      rw [bind_ok] at hr
      obtain ⟨⟨d1, e1⟩, h1, hr⟩ := hr
      dsimp only at hr
      rw [bind_ok] at hr
      obtain ⟨o, h2, hr⟩ := hr
      cases o with
      | none => cases hr
      | some q =>
        obtain ⟨d2, dt2, its2, e2⟩ := q
        cases hr
        have k := ih (readCb_uinv hu h1) h2 hi
        rw [List.flatMap_cons, ← List.append_assoc]; exact k
    · cases hr; cases hi

abbrev GetR := M (Option (Dev × List Eff × Bool))
def liftV (f : Dev → Dev) (x : GetR) : GetR := x.map (Option.map fun r => (f r.1, r.2))

theorem getVersion_upd {md : Mode} {G : Option (Nat → List Byte)} {g : Rtcm} {d : Dev} {sc : Ubx.Sched} {h : List Byte} (hu : UInv d h)
    (hc : Calm G (h ++ sc.bytes)) : Dev.getVersion md (upd G g d) sc = liftV (upd G g) (Dev.getVersion md d sc) := by
  unfold Dev.getVersion
  show (Ubx.sendMessage _ _ 0 { d.ubx with gotVer := false } >>= _) = _
  cases h1 : Ubx.sendMessage CLASS_MON MON_VER 0 { d.ubx with gotVer := false } with
  | error e => rfl
  | ok q =>
    obtain ⟨u, w⟩ := q
    simp only [ok_bind]
    have hu0 : UInv { d with ubx := u } h := by
      obtain ⟨h', k1, k2⟩ := hu
      exact ⟨h', k1.command .pollVersion h1, k2⟩
    unfold Ubx.Sched.bytes at hc
    rw [← List.append_assoc, ← List.append_assoc] at hc
    rw [show ({ upd G g d with ubx := u } : Dev) = upd G g { d with ubx := u } from rfl,
      readCb_upd hu0 (hc.infix (by rw [List.append_assoc]; exact (List.prefix_append _ _).isInfix))]
    cases h2 : Dev.readCb md { d with ubx := u } sc.before with
    | error e => rfl
    | ok q =>
      obtain ⟨d1, e1⟩ := q
      have u1 := readCb_uinv hu0 h2
      show (Dev.spin md (upd G g d1) 0 sc.iters >>= _) = _
      rw [spin_upd (s := sc.after) _ u1 hc]
      simp only [ok_bind]
      cases h3 : Dev.spin md d1 0 sc.iters with
      | error e => rfl
      | ok o =>
        match o, h3 with
        | none, _ => rfl
        | some (d2, dt, x :: xs, e2), _ => rfl
        | some (d2, dt, [], e2), h3 =>
          show (Dev.readCb md (upd G g d2) sc.after >>= _) = _
          rw [readCb_upd (spin_uinv u1 h3 rfl) hc]
          simp only [ok_bind]
          cases Dev.readCb md d2 sc.after <;> rfl

theorem getVersion_uinv {md : Mode} {d d' : Dev} {sc : Ubx.Sched} {h : List Byte} {es : List Eff} {ok : Bool} (hu : UInv d h)
    (hr : Dev.getVersion md d sc = .ok (some (d', es, ok))) : UInv d' (h ++ sc.bytes) := by
  unfold Dev.getVersion at hr
  rw [bind_ok] at hr
  obtain ⟨⟨u, w⟩, h1, hr⟩ := hr
  dsimp only at hr
  rw [bind_ok] at hr
  obtain ⟨⟨d1, e1⟩, h2, hr⟩ := hr
  dsimp only at hr
  rw [bind_ok] at hr
  obtain ⟨o, h3, hr⟩ := hr
  have hu0 : UInv { d with ubx := u } h := by
    obtain ⟨h', k1, k2⟩ := hu
    exact ⟨h', k1.command .pollVersion h1, k2⟩
  match o, h3, hr with
  | none, _, hr => cases hr
  | some (d2, dt, x :: xs, e2), _, hr => cases hr
  | some (d2, dt, [], e2), h3, hr =>
    dsimp only at hr
    rw [bind_ok] at hr
    obtain ⟨⟨d3, e3⟩, h4, hr⟩ := hr
    cases hr
    unfold Ubx.Sched.bytes
    rw [← List.append_assoc, ← List.append_assoc]
    exact readCb_uinv (spin_uinv (readCb_uinv hu0 h2) h3 rfl) h4

abbrev TryR := M (Option (Dev × List Eff × Nat × List Ubx.Sched))
def liftT (f : Dev → Dev) (x : TryR) : TryR := x.map (Option.map fun r => (f r.1, r.2))

theorem tryConnect_upd {md : Mode} {G : Option (Nat → List Byte)} {g : Rtcm} : ∀ (ss : List Ubx.Sched) {d : Dev} {k : Nat} {h : List Byte},
    UInv d h → Calm G (h ++ ss.flatMap Ubx.Sched.bytes) →
    Dev.tryConnect md k (upd G g d) ss = liftT (upd G g) (Dev.tryConnect md k d ss) := by
  intro ss
  induction ss with
  | nil =>
    intro d k h hu hc
    rw [Dev.tryConnect.eq_def, Dev.tryConnect.eq_def md k d]
    dsimp only
    by_cases hb : k + 1 < Dev.MAX_NUM_TRIES
    · rw [if_pos hb, if_pos hb]; rfl
    · rw [if_neg hb, if_neg hb]; rfl
  | cons sc rest ih =>
    intro d k h hu hc
    rw [Dev.tryConnect.eq_def, Dev.tryConnect.eq_def md k d]
    rw [List.flatMap_cons, ← List.append_assoc] at hc
    dsimp only
    by_cases hb : k + 1 < Dev.MAX_NUM_TRIES
    · rw [if_pos hb, if_pos hb]
      rw [getVersion_upd hu (hc.infix (List.prefix_append _ _).isInfix)]
      cases h1 : Dev.getVersion md d sc with
      | error e => rfl
      | ok o =>
        match o, h1 with
        | none, _ => rfl
        | some (d1, e1, true), _ => rfl
        | some (d1, e1, false), h1 =>
          show (Dev.tryConnect md (k + 1) (upd G g d1) rest >>= _) = _
          rw [ih (getVersion_uinv hu h1) hc]
          simp only [ok_bind]
          cases Dev.tryConnect md (k + 1) d1 rest with
          | error e => rfl
          | ok o => cases o <;> rfl
    · rw [if_neg hb, if_neg hb]; rfl

theorem tryConnect_uinv {md : Mode} : ∀ {ss ss' : List Ubx.Sched} {d d' : Dev} {k k' : Nat} {es : List Eff} {h : List Byte},
    UInv d h → Dev.tryConnect md k d ss = .ok (some (d', es, k', ss')) → ss' = [] → UInv d' (h ++ ss.flatMap Ubx.Sched.bytes) := by
  intro ss
  induction ss with
  | nil =>
    intro ss' d d' k k' es h hu hr hi
    unfold Dev.tryConnect at hr
    split at hr
    · cases hr
    · cases hr; rw [List.flatMap_nil, List.append_nil]; exact hu
  | cons sc rest ih =>
    intro ss' d d' k k' es h hu hr hi
    unfold Dev.tryConnect at hr
    rw [List.flatMap_cons, ← List.append_assoc]
    split at hr
    · dsimp only at hr
      rw [bind_ok] at hr
      obtain ⟨o, h1, hr⟩ := hr
      match o, h1, hr with
      | none, _, hr => cases hr
      | some (d1, e1, true), h1, hr =>
        cases hr; subst hi
        rw [List.flatMap_nil, List.append_nil]; exact getVersion_uinv hu h1
      | some (d1, e1, false), h1, hr =>
        dsimp only at hr
        rw [bind_ok] at hr
        obtain ⟨o2, h2, hr⟩ := hr
        cases o2 with
        | none => cases hr
        | some q =>
          obtain ⟨d2, e2, t, ss2⟩ := q
          cases hr
          exact ih (getVersion_uinv hu h1) h2 hi
    · cases hr; cases hi

theorem command_upd {G : Option (Nat → List Byte)} {g : Rtcm} (d : Dev) (cs : List Ubx.Command) :
    Dev.command (upd G g d) cs = lift (upd G g) (Dev.command d cs) := by
  unfold Dev.command
  show (Ubx.runCommands cs d.ubx >>= _) = _
  cases Ubx.runCommands cs d.ubx <;> rfl

theorem command_uinv {d d' : Dev} {cs : List Ubx.Command} {h : List Byte} {es : List Eff} (hu : UInv d h)
    (hr : Dev.command d cs = .ok (d', es)) : UInv d' h := by
  unfold Dev.command at hr
  rw [bind_ok] at hr
  obtain ⟨⟨u, w⟩, h1, hr⟩ := hr
  cases hr
  obtain ⟨h', k1, k2⟩ := hu
  exact ⟨h', Dev.runCommands_reach k1 h1, k2⟩

/-! ### Events -/

/-- Data on an RTK link: the only event that uses the debug parser. -/
def isRtk : Dev.Ev → Bool
  | .rtkRx .. => true
  | _ => false

/-- The bytes of an event. -/
def evBytes : Dev.Ev → List Byte
  | .rx b => b
  | _ => []

theorem step_upd {md : Mode} {G : Option (Nat → List Byte)} {g : Rtcm} {d : Dev} {h : List Byte} {e : Dev.Ev} (hu : UInv d h)
    (hc : Calm G (h ++ evBytes e)) (he : isRtk e = false) :
    Dev.step md (upd G g d) e = lift (upd G g) (Dev.step md d e) := by
  cases e with
  | rx b => exact readCb_upd hu hc
  | rtkRx i b => cases he
  | listen l => rfl
  | subscribe l c i => rfl
  | ephCb => rfl
  | gephCb => rfl
  | configBase i s => exact command_upd { d with role := .base, rtk := some i, rtcm := d.rtcm.registerListener 0 } _
  | configRover i =>
    show (Dev.command (upd G g { d with role := .rover }) Dev.roverCommands >>= _) = _
    rw [command_upd]
    show _ = lift (upd G g) (Dev.command { d with role := .rover } Dev.roverCommands >>= _)
    cases Dev.command { d with role := .rover } Dev.roverCommands <;> rfl

theorem step_uinv {md : Mode} {d d' : Dev} {h : List Byte} {e : Dev.Ev} {es : List Eff} (hu : UInv d h)
    (hr : Dev.step md d e = .ok (d', es)) : UInv d' (h ++ evBytes e) := by
  cases e with
  | rx b => exact readCb_uinv hu hr
  | rtkRx i b =>
    unfold Dev.step Dev.rtkRx at hr
    dsimp only at hr
    refine UInv.more hu ?_ (.inl rfl)
    split at hr
    · rw [bind_ok] at hr
      obtain ⟨⟨g, x⟩, -, hr⟩ := hr
      cases hr; rfl
    · cases hr; rfl
  | listen l =>
    cases hr
    obtain ⟨h', k1, k2⟩ := hu
    rw [show evBytes (.listen l) = [] from rfl, List.append_nil]
    exact ⟨h', k1.register _, k2⟩
  | subscribe l c i =>
    cases hr
    obtain ⟨h', k1, k2⟩ := hu
    rw [show evBytes (.subscribe l c i) = [] from rfl, List.append_nil]
    exact ⟨h', k1.subscribe _ _ _, k2⟩
  | ephCb => cases hr; exact UInv.more hu rfl (.inl rfl)
  | gephCb => cases hr; exact UInv.more hu rfl (.inl rfl)
  | configBase i s =>
    rw [show evBytes (.configBase i s) = [] from rfl, List.append_nil]
    exact command_uinv (d := { d with role := .base, rtk := some i, rtcm := d.rtcm.registerListener 0 }) hu hr
  | configRover i =>
    rw [show evBytes (.configRover i) = [] from rfl, List.append_nil]
    unfold Dev.step Dev.configRover at hr
    dsimp only at hr
    rw [bind_ok] at hr
    obtain ⟨⟨d1, e1⟩, h1, hr⟩ := hr
    cases hr
    have k : UInv d1 h := command_uinv (d := { d with role := .rover }) hu h1
    exact k

/-- The effects of data on an RTK link do not depend on the debug parser. -/
theorem rtk_effects {md : Mode} {G : Option (Nat → List Byte)} {g : Rtcm} {d d1 d2 : Dev} {i : Nat} {b : List Byte} {e1 e2 : List Eff}
    (h1 : Dev.step md d (.rtkRx i b) = .ok (d1, e1)) (h2 : Dev.step md (upd G g d) (.rtkRx i b) = .ok (d2, e2)) :
    e1 = e2 ∧ d2 = upd G d2.dbg d1 ∧ d1.nav = d.nav := by
  unfold Dev.step Dev.rtkRx at h1 h2
  dsimp only at h1 h2
  rw [show (upd G g d).fwd = d.fwd from rfl] at h2
  by_cases hi : i ∈ d.fwd
  · rw [if_pos hi, bind_ok] at h1 h2
    obtain ⟨⟨g1, x1⟩, -, h1⟩ := h1
    obtain ⟨⟨g2, x2⟩, -, h2⟩ := h2
    cases h1; cases h2
    exact ⟨rfl, rfl, rfl⟩
  · rw [if_neg hi] at h1 h2
    cases h1; cases h2
    exact ⟨rfl, rfl, rfl⟩

theorem rtk_same {md : Mode} {G : Option (Nat → List Byte)} (d : Dev) (i : Nat) (b : List Byte) :
    Dev.step md (upd G d.dbg d) (.rtkRx i b) = (Dev.step md d (.rtkRx i b)).map fun r => (upd G r.1.dbg r.1, r.2) := by
  unfold Dev.step Dev.rtkRx
  dsimp only
  rw [show (upd G d.dbg d).fwd = d.fwd from rfl]
  by_cases hi : i ∈ d.fwd
  · rw [if_pos hi, if_pos hi]
    show (d.dbg.readCb b >>= _) = _
    cases d.dbg.readCb b <;> rfl
  · rw [if_neg hi, if_neg hi]; rfl

/-! ### Two processes -/

theorem UInv.pre {d : Dev} {h : List Byte} (hu : UInv d h) (pre : List Byte) : UInv d (pre ++ h) := by
  obtain ⟨h', h1, h2⟩ := hu
  exact ⟨h', h1, fun bs hb => (h2 bs hb).trans (List.suffix_append _ _)⟩

theorem UInv.start {u : Ubx} {r g : Rtcm} (hu : Dev.FreshUbx u) (p : Proc) :
    UInv (p.load (Dev.start u r g)) [] := by
  obtain ⟨inMsg, outMsg, modName, major, minor, h1, h2, h3, rfl⟩ := hu
  refine ⟨[], ((Ubx.Reach.init _ _ _ _ _ h1 h2 h3).subscribe _ _ _).register _, ?_⟩
  intro bs hb; cases hb

/-- What each device has received. -/
def Known (p : Proc) (H : Nat → List Byte) : Prop := ∀ j d, p.dev j = some d → UInv d (H j)

/-- The history with one more event. -/
def more (H : Nat → List Byte) (j : Nat) (e : PEv) : Nat → List Byte := fun i => if i = j then H i ++ bytesIn e else H i

/-- Made of freshly constructed parsers. -/
def Made : PEv → Prop
  | .create u r _ => Dev.FreshUbx u ∧ Dev.FreshRtcm r
  | _ => True

theorem Known.put {p p' : Proc} {H : Nat → List Byte} {j : Nat} {e : PEv} (hk : Known p H)
    (ho : ∀ i, i ≠ j → p'.dev i = p.dev i) (hn : ∀ d, p'.dev j = some d → UInv d (H j ++ bytesIn e)) : Known p' (more H j e) := by
  intro i d hd
  unfold more
  by_cases hi : i = j
  · subst hi; rw [if_pos rfl]; exact hn d hd
  · rw [if_neg hi]; rw [ho i hi] at hd; exact hk i d hd

theorem known_step {md : Mode} {p p' : Proc} {H : Nat → List Byte} {j : Nat} {e : PEv} {es : List Eff} (hk : Known p H) (hm : Made e)
    (hr : p.step md j e = .ok (p', es)) : Known p' (more H j e) := by
  cases e with
  | destroy =>
    cases hr
    exact hk.put (fun i hi => if_neg hi) (fun d hd => by dsimp only at hd; rw [if_pos rfl] at hd; cases hd)
  | on ev =>
    unfold step at hr
    dsimp only at hr
    cases hd : p.dev j with
    | none =>
      rw [hd] at hr; cases hr
      exact hk.put (fun i hi => rfl) (fun d hd' => by rw [hd] at hd'; cases hd')
    | some d =>
      rw [hd] at hr
      dsimp only at hr
      rw [bind_ok] at hr
      obtain ⟨⟨d', es'⟩, h1, hr⟩ := hr
      cases hr
      refine hk.put (fun i hi => if_neg hi) (fun x hx => ?_)
      unfold save at hx
      dsimp only at hx
      rw [if_pos rfl] at hx
      cases hx
      have k := step_uinv (d := p.load d) (h := H j) (hk j d hd) h1
      cases ev <;> exact k
  | create u r ss =>
    unfold step create at hr
    dsimp only at hr
    rw [bind_ok] at hr
    obtain ⟨o, h1, hr⟩ := hr
    have none_case : ∀ {q : Proc}, q.dev = (fun i => if i = j then none else p.dev i) → Known q (more H j (.create u r ss)) := by
      intro q hq
      exact hk.put (fun i hi => by rw [hq]; exact if_neg hi) (fun d hd => by rw [hq] at hd; dsimp only at hd; rw [if_pos rfl] at hd; cases hd)
    match o, h1, hr with
    | none, _, hr => cases hr; exact none_case rfl
    | some (d1, e1, t, x :: xs), _, hr => cases hr; exact none_case rfl
    | some (d1, e1, t, []), h1, hr =>
      dsimp only at hr
      split at hr
      · cases hr; exact none_case rfl
      · rw [bind_ok] at hr
        obtain ⟨⟨d2, e2⟩, h2, hr⟩ := hr
        cases hr
        refine hk.put (fun i hi => if_neg hi) (fun x hx => ?_)
        unfold save at hx
        dsimp only at hx
        rw [if_pos rfl] at hx
        cases hx
        have k := command_uinv (tryConnect_uinv (UInv.start hm.1 p) h1 rfl) h2
        rw [List.nil_append] at k
        exact k.pre _

/-- The devices `k` of two processes differ in the shared variables only. -/
structure Rel (k k0 : Nat) (D : Prop) (p q : Proc) : Prop where
  dev : (p.dev k = none ∧ q.dev k = none) ∨ ∃ d G g, p.dev k = some d ∧ q.dev k = some (upd (some G) g d)
  gal : k = k0 → p.gal = q.gal
  dbg : D → p.dbg = q.dbg

/-- Data on an RTK link. -/
def pRtk : PEv → Bool
  | .on e => isRtk e
  | _ => false

theorem load_eq (p : Proc) (d : Dev) : p.load d = upd (some p.gal) p.dbg d := rfl

/-- A step of a device that hears no Galileo message leaves the store of pages alone; one without data on an RTK link, the debug parser. -/
theorem step_static {md : Mode} {p p' : Proc} {H : Nat → List Byte} {j : Nat} {e : PEv} {es : List Eff} (hk : Known p H) (hm : Made e)
    (hr : p.step md j e = .ok (p', es)) :
    (∀ i, i ≠ j → p'.dev i = p.dev i) ∧ (NoGalileo (H j ++ bytesIn e) → p'.gal = p.gal) ∧
    (pRtk e = false → p'.dbg = p.dbg) := by
  cases e with
  | destroy => cases hr; exact ⟨fun i hi => if_neg hi, fun _ => rfl, fun _ => rfl⟩
  | on ev =>
    unfold step at hr
    dsimp only at hr
    cases hd : p.dev j with
    | none => rw [hd] at hr; cases hr; exact ⟨fun _ _ => rfl, fun _ => rfl, fun _ => rfl⟩
    | some d =>
      rw [hd] at hr
      dsimp only at hr
      rw [bind_ok] at hr
      obtain ⟨⟨d', es'⟩, h1, hr⟩ := hr
      cases hr
      refine ⟨fun i hi => if_neg hi, fun hn => ?_, fun hx => ?_⟩
      · show d'.nav.gal = p.gal
        by_cases hx : isRtk ev = true
        · cases ev with
          | rtkRx i b => rw [(rtk_effects (G := none) (g := (p.load d).dbg) h1 h1).2.2]; rfl
          | _ => cases hx
        · have hx' : isRtk ev = false := by simpa using hx
          have hb : evBytes ev = bytesIn (.on ev) := by cases ev <;> rfl
          rw [load_eq, step_upd (hk j d hd) (.inr (by rw [hb]; exact hn)) hx'] at h1
          unfold lift at h1
          cases hs : Dev.step md d ev with
          | error x => rw [hs] at h1; cases h1
          | ok r => rw [hs] at h1; cases h1; rfl
      · show d'.dbg = p.dbg
        rw [show p.load d = upd none p.dbg (p.load d) from rfl, step_upd (d := p.load d) (h := H j) (hk j d hd) (.inl rfl) hx] at h1
        unfold lift at h1
        cases hs : Dev.step md (p.load d) ev with
        | error x => rw [hs] at h1; cases h1
        | ok r => rw [hs] at h1; cases h1; rfl
  | create u r ss =>
    unfold step create at hr
    dsimp only at hr
    rw [bind_ok] at hr
    obtain ⟨o, h1, hr⟩ := hr
    have hst := UInv.start (r := r) (g := p.dbg) hm.1 p
    have key : ∀ (d1 : Dev) (e1 : List Eff) (t : Nat) (ss' : List Ubx.Sched), o = some (d1, e1, t, ss') →
        (NoGalileo (H j ++ bytesIn (.create u r ss)) → d1.nav.gal = p.gal) ∧ d1.dbg = p.dbg := by
      intro d1 e1 t ss' ho
      subst ho
      constructor
      · intro hn
        have hn' : NoGalileo ([] ++ ss.flatMap Ubx.Sched.bytes) := fun q hq hi => hn q hq (hi.trans (List.suffix_append _ _).isInfix)
        rw [show p.load (Dev.start u r p.dbg) = upd (some p.gal) p.dbg (p.load (Dev.start u r p.dbg)) from rfl,
          tryConnect_upd ss hst (.inr hn')] at h1
        unfold liftT at h1
        cases hs : Dev.tryConnect md 0 (p.load (Dev.start u r p.dbg)) ss with
        | error x => rw [hs] at h1; cases h1
        | ok r =>
          rw [hs] at h1
          cases r with
          | none => cases h1
          | some v => obtain ⟨v1, v2, v3, v4⟩ := v; cases h1; rfl
      · rw [show p.load (Dev.start u r p.dbg) = upd none p.dbg (p.load (Dev.start u r p.dbg)) from rfl,
          tryConnect_upd ss hst (.inl rfl)] at h1
        unfold liftT at h1
        cases hs : Dev.tryConnect md 0 (p.load (Dev.start u r p.dbg)) ss with
        | error x => rw [hs] at h1; cases h1
        | ok r =>
          rw [hs] at h1
          cases r with
          | none => cases h1
          | some v => obtain ⟨v1, v2, v3, v4⟩ := v; cases h1; rfl
    match o, h1, hr, key with
    | none, _, hr, _ => cases hr; exact ⟨fun i hi => if_neg hi, fun _ => rfl, fun _ => rfl⟩
    | some (d1, e1, t, x :: xs), _, hr, _ => cases hr; exact ⟨fun i hi => if_neg hi, fun _ => rfl, fun _ => rfl⟩
    | some (d1, e1, t, []), h1, hr, key =>
      obtain ⟨k1, k2⟩ := key _ _ _ _ rfl
      dsimp only at hr
      split at hr
      · cases hr; exact ⟨fun i hi => if_neg hi, k1, fun _ => k2⟩
      · rw [bind_ok] at hr
        obtain ⟨⟨d2, e2⟩, h2, hr⟩ := hr
        cases hr
        unfold Dev.command at h2
        rw [bind_ok] at h2
        obtain ⟨⟨u2, w2⟩, -, h2⟩ := h2
        cases h2
        exact ⟨fun i hi => if_neg hi, k1, fun _ => k2⟩

theorem Rel.other {md : Mode} {k k0 : Nat} {D : Prop} {p p' q : Proc} {H : Nat → List Byte} {j : Nat} {e : PEv} {es : List Eff}
    (h : Rel k k0 D p q) (hk : Known p H) (hm : Made e) (hj : j ≠ k) (hn : j ≠ k0 → NoGalileo (H j ++ bytesIn e))
    (hD : D → pRtk e = false) (hr : p.step md j e = .ok (p', es)) : Rel k k0 D p' q := by
  obtain ⟨s1, s2, s3⟩ := step_static hk hm hr
  have e1 := s1 k (fun x => hj x.symm)
  refine ⟨?_, fun hx => ?_, fun hd => ?_⟩
  · rw [e1]; exact h.dev
  · rw [s2 (hn (fun y => hj (y.trans hx.symm)))]; exact h.gal hx
  · rw [s3 (hD hd)]; exact h.dbg hd

/-- The other store of pages: the same one for the device that may hear Galileo messages. -/
def otherG (k k0 : Nat) (q : Proc) : Option (Nat → List Byte) := if k = k0 then none else some q.gal

theorem Rel.load {k k0 : Nat} {D : Prop} {p q : Proc} (h : Rel k k0 D p q) (d : Dev) (G : Nat → List Byte) (g : Rtcm) :
    q.load (upd (some G) g d) = upd (otherG k k0 q) q.dbg (p.load d) := by
  unfold otherG
  split
  · rename_i hk
    have := h.gal hk
    show ({ d with nav := { d.nav with gal := q.gal }, dbg := q.dbg } : Dev) = { d with nav := { d.nav with gal := p.gal }, dbg := q.dbg }
    rw [this]
  · rfl

theorem Rel.load' {k k0 : Nat} {D : Prop} {p q : Proc} (h : Rel k k0 D p q) (u : Ubx) (r : Rtcm) :
    q.load (Dev.start u r q.dbg) = upd (otherG k k0 q) q.dbg (p.load (Dev.start u r p.dbg)) :=
  h.load (Dev.start u r p.dbg) Nav.init.gal q.dbg

theorem Rel.saved {k k0 : Nat} {D : Prop} {p q : Proc} {d : Dev} {g : Rtcm} (hg : D → d.dbg = g) :
    Rel k k0 D (p.save k d) (q.save k (upd (otherG k k0 q) g d)) := by
  refine ⟨.inr ⟨d, (upd (otherG k k0 q) g d).nav.gal, g, if_pos rfl, if_pos rfl⟩, fun hk => ?_, hg⟩
  show d.nav.gal = (otherG k k0 q).getD d.nav.gal
  unfold otherG
  rw [if_pos hk]; rfl

theorem Rel.gone {k k0 : Nat} {D : Prop} {p q p' q' : Proc} (hp : p'.dev = fun i => if i = k then none else p.dev i)
    (hq : q'.dev = fun i => if i = k then none else q.dev i) (h1 : k = k0 → p'.gal = q'.gal) (h2 : D → p'.dbg = q'.dbg) :
    Rel k k0 D p' q' := by
  refine ⟨.inl ⟨?_, ?_⟩, h1, h2⟩
  · rw [hp]; exact if_pos rfl
  · rw [hq]; exact if_pos rfl

theorem Rel.own {md : Mode} {k k0 : Nat} {D : Prop} {p p' q : Proc} {H : Nat → List Byte} {e : PEv} {es : List Eff}
    (h : Rel k k0 D p q) (hk : Known p H) (hm : Made e) (hn : k ≠ k0 → NoGalileo (H k ++ bytesIn e))
    (hr : p.step md k e = .ok (p', es)) :
    (∀ q' es', q.step md k e = .ok (q', es') → es = es' ∧ Rel k k0 D p' q') ∧
    (D ∨ pRtk e = false → ∃ q' es', q.step md k e = .ok (q', es')) := by
  have hcalm : Calm (otherG k k0 q) (H k ++ bytesIn e) := by
    unfold otherG
    split
    · exact .inl rfl
    · rename_i hx; exact .inr (hn hx)
  cases e with
  | destroy =>
    cases hr
    refine ⟨fun q' es' hq => ?_, fun _ => ⟨_, _, rfl⟩⟩
    cases hq
    exact ⟨rfl, .gone (p := p) (q := q) rfl rfl h.gal h.dbg⟩
  | on ev =>
    unfold step at hr ⊢
    dsimp only at hr ⊢
    rcases h.dev with ⟨d1, d2⟩ | ⟨d, G, g, d1, d2⟩
    · rw [d1] at hr; rw [d2]
      cases hr
      exact ⟨fun q' es' hq => by cases hq; exact ⟨rfl, h⟩, fun _ => ⟨_, _, rfl⟩⟩
    · rw [d1] at hr; rw [d2]
      dsimp only at hr ⊢
      rw [h.load]
      rw [bind_ok] at hr
      obtain ⟨⟨d', es1⟩, h1, hr⟩ := hr
      cases hr
      by_cases hx : isRtk ev = true
      · cases ev with
        | rtkRx i b =>
          constructor
          · intro q' es' hq
            rw [bind_ok] at hq
            obtain ⟨⟨d2, es2⟩, h2, hq⟩ := hq
            cases hq
            obtain ⟨k1, k2, k3⟩ := rtk_effects h1 h2
            refine ⟨k1, ?_⟩
            rw [k2]
            refine Rel.saved fun hD => ?_
            have e1 : q.dbg = (p.load d).dbg := (h.dbg hD).symm
            rw [e1, rtk_same, h1] at h2
            have := congrArg (·.1.dbg) (Except.ok.inj h2)
            exact this
          · intro hD
            rcases hD with hD | hD
            · have e1 : q.dbg = (p.load d).dbg := (h.dbg hD).symm
              rw [e1, rtk_same, h1]
              exact ⟨_, _, rfl⟩
            · cases hD
        | _ => cases hx
      · have hx' : isRtk ev = false := by simpa using hx
        have hb : evBytes ev = bytesIn (.on ev) := by cases ev <;> rfl
        rw [step_upd (h := H k) (d := p.load d) (hk k d d1) (by rw [hb]; exact hcalm) hx', h1]
        refine ⟨fun q' es' hq => ?_, fun _ => ⟨_, _, rfl⟩⟩
        cases hq
        refine ⟨rfl, Rel.saved fun hD => ?_⟩
        have hs := (step_static (e := .on ev) (j := k) (es := es1) hk hm (p' := p.save k d') (by
          unfold step; dsimp only; rw [d1]; dsimp only; rw [h1]; rfl)).2.2 hx'
        exact hs.trans (h.dbg hD)
  | create u r ss =>
    have hst := UInv.start (r := r) (g := p.dbg) hm.1 p
    have hcalm' : Calm (otherG k k0 q) ([] ++ ss.flatMap Ubx.Sched.bytes) := hcalm.infix (List.suffix_append _ _).isInfix
    have hs := step_static (es := es) hk hm hr
    unfold step create at hr ⊢
    dsimp only at hr ⊢
    rw [h.load', tryConnect_upd ss hst hcalm']
    rw [bind_ok] at hr
    obtain ⟨o, h1, hr⟩ := hr
    rw [h1]
    have hg : k = k0 → ∀ d : Dev, d.nav.gal = (upd (otherG k k0 q) q.dbg d).nav.gal := by
      intro hx d
      show d.nav.gal = (otherG k k0 q).getD d.nav.gal
      unfold otherG
      rw [if_pos hx]; rfl
    match o, h1, hr with
    | none, _, hr =>
      cases hr
      refine ⟨fun q' es' hq => ?_, fun _ => ⟨_, _, rfl⟩⟩
      cases hq
      exact ⟨rfl, .gone (p := p) (q := q) rfl rfl h.gal h.dbg⟩
    | some (d1, e1, t, x :: xs), _, hr =>
      cases hr
      refine ⟨fun q' es' hq => ?_, fun _ => ⟨_, _, rfl⟩⟩
      cases hq
      exact ⟨rfl, .gone (p := p) (q := q) rfl rfl h.gal h.dbg⟩
    | some (d1, e1, t, []), h1, hr =>
      dsimp only at hr
      show (∀ q' es', (if t = Dev.MAX_NUM_TRIES then _ else _) = _ → _) ∧ (_ → ∃ q' es', (if t = Dev.MAX_NUM_TRIES then _ else _) = _)
      by_cases ht : t = Dev.MAX_NUM_TRIES
      · rw [if_pos ht] at hr
        simp only [if_pos ht]
        cases hr
        refine ⟨fun q' es' hq => ?_, fun _ => ⟨_, _, rfl⟩⟩
        cases hq
        refine ⟨rfl, .gone (p := p) (q := q) rfl rfl (fun hx => hg hx d1) fun hD => ?_⟩
        exact (hs.2.2 rfl).trans (h.dbg hD)
      · rw [if_neg ht] at hr
        simp only [if_neg ht]
        rw [command_upd]
        rw [bind_ok] at hr
        obtain ⟨⟨d2, e2⟩, h2, hr⟩ := hr
        cases hr
        rw [h2]
        refine ⟨fun q' es' hq => ?_, fun _ => ⟨_, _, rfl⟩⟩
        cases hq
        exact ⟨rfl, Rel.saved fun hD => (hs.2.2 rfl).trans (h.dbg hD)⟩

end Proc
end Ublox
