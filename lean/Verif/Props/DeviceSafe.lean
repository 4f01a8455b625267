import Verif.Props.DeviceCtor
import Verif.Props.DeviceLink
import Verif.Props.NavGal

/-!
# Undefined behaviour of the whole driver (C70), recovery from garbage (C72)
-/

namespace Ublox
namespace Dev

open Nav (Nav NavCall Mode Sfrbx NavOp)
open Rtcm (RTail REvent rtStep rtRun)

/-! ## C70 -/

/-- A navigation message is undefined only in one of three ways (their causes: C61). -/
theorem nav_err {md : Mode} {n : Nav} {msg : List Byte} {e : UB} (hl : msg.length = 2048)
    (hn : ∃ ops cs, (∀ op ∈ ops, op.WF) ∧ Nav.init.run md ops = .ok (n, cs)) (h : n.step md (navOp msg) = .error e) :
    e = .missingReturn ∨ e = .oobWrite ∨ e = .overflow := by
  obtain ⟨ops, cs, hw, hr⟩ := hn
  have hm := ofBuffer_wf hl
  cases md with
  | strict =>
    rcases Nav.c61_causes_partial ops n cs _ _ e hw hm hr h with ⟨-, -, -, h⟩ | ⟨-, -, -, -, h | h⟩ | ⟨-, -, h | ⟨-, -, h | h⟩⟩
    · exact .inl h
    · exact .inl h
    · exact .inr (.inr h.1)
    · exact .inr (.inl h.2)
    · exact .inl h
    · exact .inr (.inr h)
  | lenient =>
    rcases Nav.c61_lenient_partial ops n cs _ _ e hw hm hr h with ⟨-, h, -⟩ | ⟨-, -, h | ⟨h, -⟩⟩ | ⟨-, h, -⟩
    · exact .inr (.inr h)
    · exact .inr (.inl h.2)
    · exact .inr (.inr h)
    · exact .inr (.inr h)

/-- The UBX parser is given a longer stream whose last byte completes a good frame `(c, i)`. -/
def CompletesUbx (u : Ubx) (b c i : Byte) : Prop :=
  ∃ hist pre p, Ubx.Reach u hist ∧ hist ++ [b] = pre ++ ubxFrame c i p

/-- The RTCM parser has been given a stream ending in an open frame whose header announces more than 1018 bytes. -/
def OversizedRtcm (r : Rtcm) : Prop :=
  ∃ hist pre b1 b2 rest, Rtcm.Reach r hist ∧ hist = pre ++ 0xD3 :: b1 :: b2 :: rest ∧ 1018 < rtcmLen b1 b2

/-- C70, what holds of received data, in any role: the first undefined operation is caused by a good MON-VER message (C16),
by a good RXM-SFRBX message (C61), or by an RTCM frame of more than 1018 bytes (C24); nothing else in a stream can make the
driver misbehave. -/
theorem c70_receiver_partial {md : Mode} {d : Dev} {evs : List Ev} {es0 : List Eff} {s : List Byte} {e : UB}
    (h : Reach md d evs es0) (hs : d.step md (.rx s) = .error e) :
    ∃ pre b post d1 e1, s = pre ++ b :: post ∧ d.step md (.rx pre) = .ok (d1, e1) ∧
      ((e = .unterminated ∧ CompletesUbx d1.ubx b 0x0A 0x04) ∨
       ((e = .missingReturn ∨ e = .oobWrite ∨ e = .overflow) ∧ CompletesUbx d1.ubx b 0x02 0x13) ∨
       (e = .oobWrite ∧ OversizedRtcm d1.rtcm)) := by
  obtain ⟨pre, b, post, d1, e1, rfl, hpre, he⟩ := readCb_err hs
  refine ⟨pre, b, post, d1, e1, rfl, hpre, ?_⟩
  have i1 := h.inv.readCb hpre
  obtain ⟨hu, r1⟩ := i1.ubx
  obtain ⟨hr, r2⟩ := i1.rtcm
  obtain ⟨t, ht, -⟩ := r2.inv.tail
  have hd : DAbs d1 (registered evs) (Ubx.tailOf hu) t := ⟨i1.wired, r1.inv.abs, ht⟩
  have comp : ∀ {c i : Byte} {p : List Byte}, (rxStep (Ubx.tailOf hu) b).2 = some (.good c i p) → CompletesUbx d1.ubx b c i := by
    intro c i p hg
    obtain ⟨⟨pre', hp⟩, -⟩ := rxStep_good (Ubx.tailHist hu) hg
    exact ⟨hu, pre', p, r1, hp⟩
  rcases rxByte_err hd he with ⟨h1, p, -, h2⟩ | ⟨p, msg, -, h1, h2, -, h3⟩ | ⟨h1, h2, -⟩
  · exact .inl ⟨h1, comp h2⟩
  · exact .inr (.inl ⟨nav_err h2 i1.nav h3, comp h1⟩)
  · obtain ⟨-, pre', b1, b2, rest, h4, h5⟩ := Rtcm.c24_partial r2 b _ h2
    exact .inr (.inr ⟨h1, hr, pre', b1, b2, rest, r2, h4, h5⟩)

/-- C70, what holds of a base, in terms of the mixed stream: from between messages, the undefined operation happens at the
byte that completes a MON-VER or RXM-SFRBX message of the stream, or inside an RTCM frame of more than 1018 bytes. -/
theorem c70_base_partial {md : Mode} {d : Dev} {evs : List Ev} {es0 : List Eff} {s : List Byte} {e : UB} {i : Nat}
    (h : Reach md d evs es0) (hb : configured evs = (.base, some i)) (hu : d.ubx.parsingMessage = false)
    (hr : d.rtcm.parsingMessage = false) (hs : d.step md (.rx s) = .error e) :
    ∃ pre b post, s = pre ++ b :: post ∧
      ((e = .unterminated ∧ ∃ p, (demux d.ubx.prev (pre ++ [b])).1 = (demux d.ubx.prev pre).1 ++ [.ubx 0x0A 0x04 p]) ∨
       ((e = .missingReturn ∨ e = .oobWrite ∨ e = .overflow) ∧
          ∃ p, (demux d.ubx.prev (pre ++ [b])).1 = (demux d.ubx.prev pre).1 ++ [.ubx 0x02 0x13 p]) ∨
       (e = .oobWrite ∧ ∃ b1 b2 rest, (demux d.ubx.prev pre).2 = .rtcm (0xD3 :: b1 :: b2 :: rest) ∧ 1018 < rtcmLen b1 b2)) := by
  have hd := h.idle hu hr
  have hrole : d.role = .base := by have := h.inv.role; rw [hb] at this; exact (Prod.mk.inj this).1
  have hbb : (d.role == .base) = true := by rw [hrole]; rfl
  obtain ⟨pre, b, post, d1, e1, rfl, hpre, he⟩ := readCb_err hs
  refine ⟨pre, b, post, rfl, ?_⟩
  have i1 := h.inv.readCb hpre
  obtain ⟨a1, s1, -⟩ := readCb_shows hd hpre
  rw [hbb] at a1
  have hb1 : (d1.role == .base) = true := by rw [s1.role, hrole]; rfl
  obtain ⟨-, k2, k3⟩ := demux_eq d.ubx.prev pre
  obtain ⟨-, -, k3'⟩ := demux_eq d.ubx.prev (pre ++ [b])
  have hev : ∀ c i p, (dStep true (dRun true (.idle d.ubx.prev) .idle pre).1 (dRun true (.idle d.ubx.prev) .idle pre).2.1 b).2.2.1
      = some (.good c i p) → (demux d.ubx.prev (pre ++ [b])).1 = (demux d.ubx.prev pre).1 ++ [.ubx c i p] := by
    intro c i p hg
    rw [← k3, ← k3', dRun_append, msgs_append]
    congr 1
    generalize (dRun true (.idle d.ubx.prev) .idle pre).1 = t at hg
    generalize (dRun true (.idle d.ubx.prev) .idle pre).2.1 = r at hg
    have hopen : uOpen t = true := by
      cases t with
      | opened x => rfl
      | idle x =>
        exfalso
        unfold dStep at hg
        simp only [uOpen, Bool.false_eq_true, if_false] at hg
        split at hg
        · cases hg
        · simp only [rxStep] at hg; split at hg <;> cases hg
    have hnone : (dStep true t r b).2.2.2 = none := by unfold dStep; rw [if_pos hopen]
    simp only [dRun, msgs, hg, hnone]
    rfl
  rcases rxByte_err a1 he with ⟨h1, p, hp, -⟩ | ⟨p, msg, hp, -, h2, -, h3⟩ | ⟨h1, h2, bs, hbs, hl⟩
  · rw [hb1] at hp; exact .inl ⟨h1, p, hev _ _ _ hp⟩
  · rw [hb1] at hp; exact .inr (.inl ⟨nav_err h2 i1.nav h3, p, hev _ _ _ hp⟩)
  · refine .inr (.inr ⟨h1, ?_⟩)
    have habs := a1.rtcm
    rw [hbs] at habs
    rw [k2] at hbs
    have h6 := habs.2.2.2.2.2
    match bs, hl, h6 with
    | [x], hl, _ => simp at hl
    | [x, y], hl, _ => simp at hl
    | x :: b1 :: b2 :: rest, hl, ⟨hx, _, _, h6⟩ =>
      subst hx
      refine ⟨b1, b2, rest, ?_, ?_⟩
      · cases hm : (demux d.ubx.prev pre).2 with
        | idle l => rw [hm] at hbs; cases hbs
        | ubx l => rw [hm] at hbs; cases hbs
        | rtcm l => rw [hm] at hbs; cases hbs; rfl
      · simp only [List.length_cons] at hl
        omega

/-- C70, the RTK side: data arriving on the RTK interface of a rover is undefined only if it contains an RTCM frame of
more than 1018 bytes. -/
theorem c70_rtk_partial {md : Mode} {d : Dev} {evs : List Ev} {es0 : List Eff} {j : Nat} {buf : List Byte} {e : UB}
    (h : Reach md d evs es0) (hs : d.step md (.rtkRx j buf) = .error e) : RoverOn evs j ∧ e = .oobWrite ∧
    ∃ pre b post g css, buf = pre ++ b :: post ∧ Rtcm.readCb d.dbg pre = .ok (g, css) ∧ OversizedRtcm g := by
  replace hs : rtkRx d j buf = .error e := hs
  unfold rtkRx at hs
  split at hs
  · rename_i hj
    rw [bind_err] at hs
    rcases hs with hs | ⟨_, -, hs⟩
    · obtain ⟨hg, r1⟩ := h.inv.dbg
      refine ⟨(h.inv.fwd j).1 hj, ?_⟩
      clear h hj
      generalize d.dbg = g at *
      induction buf generalizing g hg with
      | nil => cases hs
      | cons b bs ih =>
        rw [Rtcm.readCb_cons, bind_err] at hs
        rcases hs with hs | ⟨⟨g1, c1⟩, h1, hs⟩
        · obtain ⟨he, pre', b1, b2, rest, h4, h5⟩ := Rtcm.c24_partial r1 b _ hs
          exact ⟨he, [], b, bs, g, [], rfl, rfl, hg, pre', b1, b2, rest, r1, h4, h5⟩
        · rw [bind_err] at hs
          rcases hs with hs | ⟨_, -, hs⟩
          · have h1' : Rtcm.readCb g [b] = .ok (g1, [c1]) := by
              rw [Rtcm.readCb_cons, h1, ok_bind, Rtcm.readCb_nil, ok_bind]
            obtain ⟨he, pre, x, post, g2, css, h2, h3, h4⟩ := ih (hg ++ [b]) g1 hs (r1.feed h1')
            refine ⟨he, b :: pre, x, post, g2, c1 :: css, by rw [h2]; rfl, ?_, h4⟩
            rw [Rtcm.readCb_cons, h1, ok_bind]
            dsimp only
            rw [h3, ok_bind]
          · cases hs
    · cases hs
  · cases hs

/-- C70, the API calls: registering, subscribing and configuring never fail. -/
theorem c70_calls {md : Mode} {d : Dev} {evs : List Ev} {es0 : List Eff} (h : Reach md d evs es0) (ev : Ev)
    (hn : ∀ b, ev ≠ .rx b) (hm : ∀ j b, ev ≠ .rtkRx j b) : ∃ d' es, d.step md ev = .ok (d', es) := by
  obtain ⟨hh, r1⟩ := h.inv.ubx
  match ev, hn, hm with
  | .rx b, hn, _ => exact absurd rfl (hn b)
  | .rtkRx j b, _, hm => exact absurd rfl (hm j b)
  | .listen l, _, _ => exact ⟨_, _, rfl⟩
  | .subscribe l c i, _, _ => exact ⟨_, _, rfl⟩
  | .ephCb, _, _ => exact ⟨_, _, rfl⟩
  | .gephCb, _, _ => exact ⟨_, _, rfl⟩
  | .configBase i s, _, _ =>
    obtain ⟨o, g, w, -, -, e⟩ := command_ok (d := { d with role := .base, rtk := some i, rtcm := d.rtcm.registerListener 0 })
      (baseCommands s) r1.inv.wf.outLen
    exact ⟨_, _, e⟩
  | .configRover i, _, _ =>
    obtain ⟨d', e⟩ := c75_rover h i
    exact ⟨d', _, e⟩

/-- What a run from the example device ends in. -/
def exErr (evs : List Ev) : Option UB :=
  match construct .strict exStart [exSched] with
  | .ok (some (some d, _)) => errOf (run .strict d evs)
  | _ => none

/-- While an RTCM message is open on a base, the device is its RTCM parser. -/
theorem base_rtcm_run {md : Mode} {d : Dev} {s : List Byte} {r' : Rtcm} {css : List (List RtcmCall)}
    (hu : d.ubx.parsingMessage = false) (hb : d.role = .base) (hi : ∃ i, d.rtk = some i)
    (h : Rtcm.readCb d.rtcm s = .ok (r', css))
    (hop : ∀ k, k < s.length → ∀ rk ck, Rtcm.readCb d.rtcm (s.take k) = .ok (rk, ck) → rk.parsingMessage = true) :
    ∃ es, readCb md d s = .ok ({ d with rtcm := r' }, es) := by
  induction s generalizing d css with
  | nil => cases h; exact ⟨[], rfl⟩
  | cons b bs ih =>
    rw [Rtcm.readCb_cons, bind_ok] at h
    obtain ⟨⟨r1, c1⟩, h1, h⟩ := h
    rw [bind_ok] at h
    obtain ⟨⟨r2, c2⟩, h2, h⟩ := h
    cases h
    have hp : d.rtcm.parsingMessage = true := hop 0 (by simp) _ _ rfl
    obtain ⟨i, hi⟩ := hi
    have hgot : ∀ cs, gotRtcms { d with rtcm := r1 } cs = .ok (cs.map fun c => .toRtk i c.bytes) := by
      intro cs
      induction cs with
      | nil => rfl
      | cons c cs ih =>
        unfold gotRtcms
        have : gotRtcm { d with rtcm := r1 } c.bytes = .ok [.toRtk i c.bytes] := by
          unfold gotRtcm; dsimp only; rw [if_pos hb, hi]
        rw [this, ok_bind, ih]; rfl
    have hx : rxByte md d b = .ok ({ d with rtcm := r1 }, c1.map fun c => .toRtk i c.bytes) := by
      unfold rxByte
      rw [if_neg (by simp [hu]), if_pos (by rw [hp, hb]; rfl)]
      unfold rxRtcm
      rw [h1, ok_bind]
      dsimp only
      rw [hgot, ok_bind]
    obtain ⟨es, he⟩ := ih (d := { d with rtcm := r1 }) hu hb ⟨i, hi⟩ h2 (by
      intro k hk rk ck hh
      refine hop (k + 1) (by simpa using hk) rk (c1 :: ck) ?_
      rw [List.take_succ_cons, Rtcm.readCb_cons, h1, ok_bind]
      dsimp only
      rw [hh, ok_bind])
    refine ⟨(c1.map fun c => Eff.toRtk i c.bytes) ++ es, ?_⟩
    rw [readCb_cons, hx, ok_bind]
    dsimp only
    rw [he]; rfl

/-- C70 is false of the code: on every base, between messages, an RTCM frame of 1019 to 1023 bytes makes the driver store
outside its buffer. -/
theorem c70_rtcm_refuted {md : Mode} {d : Dev} {evs : List Ev} {es0 : List Eff} {i : Nat}
    (h : Reach md d evs es0) (hb : configured evs = (.base, some i)) (hu : d.ubx.parsingMessage = false)
    (hr : d.rtcm.parsingMessage = false) (b1 b2 : Byte) (hn : 1019 ≤ rtcmLen b1 b2) (q : List Byte)
    (hq : rtcmLen b1 b2 + 3 ≤ q.length) : d.step md (.rx (0xD3 :: b1 :: b2 :: q)) = .error .oobWrite := by
  have hd := h.idle hu hr
  have hrole : d.role = .base := by have := h.inv.role; rw [hb] at this; exact (Prod.mk.inj this).1
  have hbb : (d.role == .base) = true := by rw [hrole]; rfl
  have hlt := Rtcm.rtcmLen_lt b1 b2
  -- the preamble
  have st : dStep true (.idle d.ubx.prev) .idle 0xD3 = (.idle 0xD3, .opened [0xD3], none, none) := dStep_d3 _
  obtain ⟨d1, e1, h1⟩ : ∃ d1 e1, rxByte md d 0xD3 = .ok (d1, e1) := by
    cases hx : rxByte md d 0xD3 with
    | ok x => exact ⟨x.1, x.2, rfl⟩
    | error e =>
      exfalso
      rcases rxByte_err hd hx with ⟨-, p, hp, -⟩ | ⟨p, -, hp, -⟩ | ⟨-, -, bs, hbs, -⟩
      · rw [hbb, st] at hp; cases hp
      · rw [hbb, st] at hp; cases hp
      · cases hbs
  obtain ⟨a1, s1, -⟩ := rxByte_sim hd h1
  rw [hbb, st] at a1
  have hu1 : d1.ubx.parsingMessage = false := by rw [uOpen_iff a1.ubx]; rfl
  have hb1 : d1.role = .base := s1.role.trans hrole
  have hi1 := a1.wired.base hb1
  -- the next 1023 bytes
  have e2 : rtStep (.opened [0xD3]) b1 = (.opened [0xD3, b1], none) := rfl
  have e3 : rtStep (.opened [0xD3, b1]) b2 = (.opened [0xD3, b1, b2], none) := by
    simp only [rtStep, List.cons_append, List.nil_append]
    rw [if_neg (by omega), if_neg (by simp)]
  have hrun : ∀ p : List Byte, p.length ≤ 1021 → (rtRun (.opened [0xD3]) (b1 :: b2 :: p)).1 =
      .opened (0xD3 :: b1 :: b2 :: p) := by
    intro p hp
    have e4 := Rtcm.rtRun_opened 0xD3 b1 b2 (by omega) p [] (by simp only [List.length_nil]; omega)
    simp only [rtRun, e2, e3, e4, List.nil_append]
  have hall : ∀ k, k ≤ 1023 → (rtRun (.opened [0xD3]) ((b1 :: b2 :: q.take 1021).take k)).1 =
      .opened (0xD3 :: (b1 :: b2 :: q.take 1021).take k) := by
    intro k hk
    match k with
    | 0 => rfl
    | 1 => simp only [List.take_succ_cons, List.take_zero, rtRun, e2]
    | k + 2 => simp only [List.take_succ_cons]; exact hrun _ (by simp)
  have hlen : (b1 :: b2 :: q.take 1021).length = 1023 := by simp; omega
  obtain ⟨r2, c2, f2⟩ := Rtcm.readCb_total (s := b1 :: b2 :: q.take 1021) a1.wired.rlen a1.rtcm (by
    intro k bs hk hbs
    rw [hlen] at hk
    rw [hall k (by omega)] at hbs
    cases hbs
    simp only [List.length_cons, List.length_take]
    omega)
  obtain ⟨es, g2⟩ := base_rtcm_run (md := md) hu1 hb1 hi1 f2 (by
    intro k hk rk ck hh
    rw [hlen] at hk
    have := (Rtcm.readCb_sim a1.wired.rlen a1.rtcm hh).abs
    rw [hall k (by omega)] at this
    rw [rOpen_iff this]; rfl)
  have k2 := Rtcm.readCb_sim a1.wired.rlen a1.rtcm f2
  have habs := k2.abs
  rw [hrun _ (by simp)] at habs
  -- the byte that does not fit
  obtain ⟨x, xs, hx⟩ : ∃ x xs, q.drop 1021 = x :: xs := by
    match hd : q.drop 1021 with
    | [] => have := congrArg List.length hd; simp at this; omega
    | x :: xs => exact ⟨x, xs, rfl⟩
  have herr : rxByte md { d1 with rtcm := r2 } x = .error .oobWrite := by
    unfold rxByte
    have hpar : r2.parsingMessage = true := by rw [rOpen_iff habs]; rfl
    rw [if_neg (by simp [hu1]), if_pos (by simp only [hpar, hb1]; rfl)]
    unfold rxRtcm
    dsimp only
    rw [Rtcm.readByte_oob x k2.len habs (by simp; omega)]
    rfl
  have hsplit : (0xD3 : Byte) :: b1 :: b2 :: q = 0xD3 :: ((b1 :: b2 :: q.take 1021) ++ q.drop 1021) := by
    simp [List.take_append_drop]
  show readCb md d _ = _
  rw [hsplit, readCb_cons, h1, ok_bind]
  dsimp only
  rw [readCb_append, g2, ok_bind]
  dsimp only
  rw [hx, readCb_cons, herr]
  rfl

-- such a base and such a header exist
example : ∃ d es, Reach .strict d exBase es ∧ configured exBase = (.base, some 9) ∧ d.ubx.parsingMessage = false ∧
    d.rtcm.parsingMessage = false ∧ 1019 ≤ rtcmLen 0x03 0xFB := by
  obtain ⟨d, es, h, e⟩ := exRun_some (evs := exBase) (by decide +kernel)
  have k : (exRun exBase).map (fun x => (x.1.ubx.parsingMessage, x.1.rtcm.parsingMessage)) = some (false, false) := by
    decide +kernel
  rw [e] at k
  have := Prod.mk.inj (Option.some.inj k)
  exact ⟨d, es, h, rfl, this.1, this.2, by decide⟩

/-- C70 is false of the code: well-formed streams with undefined behaviour: a MON-VER message with a long text, a BeiDou
subframe. -/
theorem c70_refuted :
    exErr [.rx (ubxFrame 0x0A 0x04 exBadVer)] = some .unterminated ∧
    exErr [.rx (ubxFrame 0x02 0x13 (3 :: List.replicate 47 0))] = some .missingReturn := by
  refine ⟨?_, ?_⟩
  · decide +kernel
  · decide +kernel

/-! ## C72 -/

/-- Between messages: no UBX message open and, on a base, no RTCM message open. -/
def Between (d : Dev) : Prop := d.ubx.parsingMessage = false ∧ (d.role = .base → d.rtcm.parsingMessage = false)

/-- While a UBX message is open, the device is its UBX parser. -/
theorem ubx_open_run {md : Mode} {d d' : Dev} {s : List Byte} {es : List Eff} (h : readCb md d s = .ok (d', es)) :
    (∃ k dk ek, k ≤ s.length ∧ readCb md d (s.take k) = .ok (dk, ek) ∧ dk.ubx.parsingMessage = false) ∨
    (∃ o, Ubx.feed d.ubx s = .ok (d'.ubx, o) ∧ ∀ k, k ≤ s.length → ∀ uk ok, Ubx.feed d.ubx (s.take k) = .ok (uk, ok) →
      uk.parsingMessage = true) := by
  cases hp : d.ubx.parsingMessage with
  | false => exact .inl ⟨0, d, [], by omega, rfl, hp⟩
  | true =>
    induction s generalizing d es with
    | nil =>
      cases h
      refine .inr ⟨[], rfl, ?_⟩
      intro k hk uk ok hf
      simp only [List.take_nil] at hf
      cases hf
      exact hp
    | cons b bs ih =>
      obtain ⟨d1, e1, e2, h1, h2, rfl⟩ := readCb_cons_ok h
      have hx := h1
      unfold rxByte at hx
      rw [if_pos hp] at hx
      obtain ⟨-, r, ds, hu⟩ := rxUbx_ubx hx
      have one : readCb md d [b] = .ok (d1, e1) := by
        rw [readCb_cons, h1, ok_bind]; dsimp only; rw [readCb_nil, ok_bind]; simp
      cases hp1 : d1.ubx.parsingMessage with
      | false => exact .inl ⟨1, d1, e1, by simp, one, hp1⟩
      | true =>
        rcases ih h2 hp1 with ⟨k, dk, ek, hk, hr, hi⟩ | ⟨o, hf, hall⟩
        · refine .inl ⟨k + 1, dk, e1 ++ ek, by simpa using hk, ?_, hi⟩
          rw [List.take_succ_cons, readCb_cons, h1, ok_bind]
          dsimp only
          rw [hr, ok_bind]
        · refine .inr ⟨(r, ds) :: o, ?_, ?_⟩
          · unfold Ubx.feed; rw [hu]; simp only [ok_bind, hf]
          · intro k hk uk ok hfk
            match k with
            | 0 => cases hfk; exact hp
            | k + 1 =>
              rw [List.take_succ_cons] at hfk
              unfold Ubx.feed at hfk
              rw [hu] at hfk
              simp only [ok_bind] at hfk
              rw [bind_ok] at hfk
              obtain ⟨⟨u2, o2⟩, hf2, hfk⟩ := hfk
              cases hfk
              exact hall k (by simpa using hk) _ _ hf2

/-- The same for an RTCM message on a base. -/
theorem rtcm_open_run {md : Mode} {d d' : Dev} {s : List Byte} {es : List Eff} (h : readCb md d s = .ok (d', es))
    (hu : d.ubx.parsingMessage = false) (hb : d.role = .base) :
    (∃ k dk ek, k ≤ s.length ∧ readCb md d (s.take k) = .ok (dk, ek) ∧ dk.ubx.parsingMessage = false ∧
      dk.rtcm.parsingMessage = false) ∨
    (∃ o, Rtcm.readCb d.rtcm s = .ok (d'.rtcm, o) ∧ ∀ k, k ≤ s.length → ∀ rk ok, Rtcm.readCb d.rtcm (s.take k) = .ok (rk, ok) →
      rk.parsingMessage = true) := by
  cases hp : d.rtcm.parsingMessage with
  | false => exact .inl ⟨0, d, [], by omega, rfl, hu, hp⟩
  | true =>
    induction s generalizing d es with
    | nil =>
      cases h
      refine .inr ⟨[], rfl, ?_⟩
      intro k hk uk ok hf
      simp only [List.take_nil] at hf
      cases hf
      exact hp
    | cons b bs ih =>
      obtain ⟨d1, e1, e2, h1, h2, rfl⟩ := readCb_cons_ok h
      have one : readCb md d [b] = .ok (d1, e1) := by
        rw [readCb_cons, h1, ok_bind]; dsimp only; rw [readCb_nil, ok_bind]; simp
      obtain ⟨k1, -, -, -, cs, k2⟩ := c31_rtcm_in_progress hu hp hb one
      have hu1 : d1.ubx.parsingMessage = false := by rw [k1]; exact hu
      have hb1 : d1.role = .base := by
        have hx := h1
        unfold rxByte at hx
        rw [if_neg (by simp [hu]), if_pos (by rw [hp, hb]; rfl)] at hx
        rw [(rxRtcm_ubx hx).2, hb]
      cases hp1 : d1.rtcm.parsingMessage with
      | false => exact .inl ⟨1, d1, e1, by simp, one, hu1, hp1⟩
      | true =>
        rcases ih h2 hu1 hb1 hp1 with ⟨k, dk, ek, hk, hr, hi⟩ | ⟨o, hf, hall⟩
        · refine .inl ⟨k + 1, dk, e1 ++ ek, by simpa using hk, ?_, hi⟩
          rw [List.take_succ_cons, readCb_cons, h1, ok_bind]
          dsimp only
          rw [hr, ok_bind]
        · refine .inr ⟨cs :: o, ?_, ?_⟩
          · rw [Rtcm.readCb_cons, k2, ok_bind]; dsimp only; rw [hf, ok_bind]
          · intro k hk uk ok hfk
            match k with
            | 0 => cases hfk; exact hp
            | k + 1 =>
              rw [List.take_succ_cons, Rtcm.readCb_cons, k2, ok_bind] at hfk
              dsimp only at hfk
              rw [bind_ok] at hfk
              obtain ⟨⟨u2, o2⟩, hf2, hfk⟩ := hfk
              cases hfk
              exact hall k (by simpa using hk) _ _ hf2

/-- C72, what holds: unless the receiver sends a UBX header announcing length 0, the device is between messages at least
once during any 3078 bytes it processes; there C30 applies again (to a base) and C73 (otherwise), so the next well-formed
message is delivered. -/
theorem c72_partial {md : Mode} {d d' : Dev} {evs : List Ev} {es0 es : List Eff} {s : List Byte}
    (h : Reach md d evs es0) (hs : d.step md (.rx s) = .ok (d', es)) (hl : 3078 ≤ s.length) :
    (∃ k dk ek, k ≤ 3078 ∧ d.step md (.rx (s.take k)) = .ok (dk, ek) ∧ Between dk) ∨
    (∃ dk ek hist pre c i rest, d.step md (.rx (s.take 2054)) = .ok (dk, ek) ∧ Ubx.Reach dk.ubx hist ∧
      hist = pre ++ ([0xB5, 0x62, c, i, 0, 0] ++ rest) ∧ dk.ubx.parsingMessage = true) := by
  have cut : ∀ n, ∃ dk ek er, readCb md d (s.take n) = .ok (dk, ek) ∧ readCb md dk (s.drop n) = .ok (d', er) := by
    intro n
    have hs : readCb md d s = .ok (d', es) := hs
    rw [← List.take_append_drop n s] at hs
    obtain ⟨dk, e1, e2, h1, h2, -⟩ := readCb_append_ok hs
    exact ⟨dk, e1, e2, h1, h2⟩
  obtain ⟨da, ea, -, h1, -⟩ := cut 2054
  have hlen : (s.take 2054).length = 2054 := by simp; omega
  rcases ubx_open_run h1 with ⟨k, dk, ek, hk, hr, hidle⟩ | ⟨o, hf, hall⟩
  · left
    rw [hlen] at hk
    rw [List.take_take, Nat.min_eq_left hk] at hr
    by_cases hb : dk.role = .base
    · obtain ⟨dk', ek', er, g1, g2⟩ := cut k
      rw [hr] at g1
      cases g1
      have hlen2 : 1024 ≤ (s.drop k).length := by simp; omega
      obtain ⟨dm, em, h3⟩ : ∃ dm em, readCb md dk ((s.drop k).take 1024) = .ok (dm, em) := by
        rw [← List.take_append_drop 1024 (s.drop k)] at g2
        obtain ⟨dm, e1, e2, k1, -, -⟩ := readCb_append_ok g2
        exact ⟨dm, e1, k1⟩
      have hlen3 : ((s.drop k).take 1024).length = 1024 := by rw [List.length_take]; omega
      rcases rtcm_open_run h3 hidle hb with ⟨j, dj, ej, hj, hrj, hu, hrr⟩ | ⟨o, hf, hall⟩
      · rw [hlen3] at hj
        rw [List.take_take, Nat.min_eq_left hj] at hrj
        refine ⟨k + j, dj, ek ++ ej, by omega, ?_, hu, fun _ => hrr⟩
        have e : s.take (k + j) = s.take k ++ (s.drop k).take j := by rw [List.take_add]
        show readCb md d _ = _
        rw [e, readCb_append, hr, ok_bind]
        dsimp only
        rw [hrj]; rfl
      · exfalso
        obtain ⟨hh, rr⟩ := (h.inv.readCb hr).rtcm
        obtain ⟨j, rj, cj, hj, e, hp⟩ := Rtcm.c25_idle_again rr hf (by omega)
        have := hall j (by omega) _ _ e
        rw [hp] at this; cases this
    · exact ⟨k, dk, ek, by omega, hr, hidle, fun hh => absurd hh hb⟩
  · right
    obtain ⟨hh, rr⟩ := h.inv.ubx
    have hp := hall 2054 (by omega) _ _ (by rw [List.take_of_length_le (by omega)]; exact hf)
    rcases c06_partial rr hf (by omega) with ⟨k, uk, ok, hk, e, hi⟩ | ⟨pre, c, i, rest, hhist, -⟩
    · have := hall k (by omega) _ _ e
      rw [hi] at this; cases this
    · exact ⟨da, ea, hh ++ s.take 2054, pre, c, i, rest, h1, rr.feed hf, hhist, hp⟩

-- long streams that are processed without fault exist
example : ∃ d es0 d' es s, Reach .strict d exBase es0 ∧ d.step .strict (.rx s) = .ok (d', es) ∧ 3078 ≤ s.length := by
  obtain ⟨d, es, h, e⟩ := exRun_some (evs := exBase) (by decide +kernel)
  have k : (exRun exBase).map (fun x => (x.1.ubx.parsingMessage, x.1.rtcm.parsingMessage)) = some (false, false) := by
    decide +kernel
  rw [e] at k
  have k := Prod.mk.inj (Option.some.inj k)
  have hm : ∀ m ∈ [Msg.ubx 1 7 (List.replicate 2000 0), Msg.ubx 1 7 (List.replicate 2000 0xD3)], m.WF := by
    intro m hm
    simp only [List.mem_cons, List.not_mem_nil, or_false] at hm
    rcases hm with rfl | rfl <;> (simp only [Msg.WF, List.length_replicate]; omega)
  have hne : ∀ c i : Byte, (c, i) ≠ (1, 7) → ∀ p, Msg.ubx c i p ∉
      [Msg.ubx 1 7 (List.replicate 2000 0), Msg.ubx 1 7 (List.replicate 2000 0xD3)] := by
    intro c i hc p hp
    simp only [List.mem_cons, List.not_mem_nil, or_false, Msg.ubx.injEq] at hp
    rcases hp with ⟨rfl, rfl, -⟩ | ⟨rfl, rfl, -⟩ <;> exact hc rfl
  obtain ⟨d', es', hs⟩ := c30_total h rfl k.1 k.2 hm (hne _ _ (by decide)) (hne _ _ (by decide))
  refine ⟨d, es, d', es', _, h, hs, ?_⟩
  simp only [wire, List.flatMap_cons, List.flatMap_nil, List.append_nil, Msg.bytes, List.length_append, Ubx.ubxFrame_length,
    List.length_replicate]
  omega

end Dev
end Ublox
