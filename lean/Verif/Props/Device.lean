import Verif.Lemmas.DeviceRun
import Verif.Props.Rtcm
import Verif.Props.UbxWait

/-!
# The whole driver: chunking, demultiplexing, the RTK link (C04, C30–C34, C72)
-/

namespace Ublox
namespace Dev

open Nav (Nav NavCall Mode Sfrbx NavOp)

/-! ## A device to instantiate the theorems with -/

/-- A freshly constructed parser pair and one answered version poll. -/
def exStart : Dev :=
  start (Ubx.init (List.replicate 2048 0) (List.replicate 2048 0) (List.replicate 10 0) 0 0)
    (Rtcm.init (List.replicate 1024 0) 0 0 0) (Rtcm.init (List.replicate 1024 0) 0 0 0)
def exSched : Ubx.Sched := ⟨[], [([], 3), (ubxFrame 0x0A 0x04 exVer, 5)], []⟩

/-- What a run from the example device shows, after its construction. -/
def exRun (evs : List Ev) : Option (Dev × List Eff) :=
  match construct .strict exStart [exSched] with
  | .ok (some (some d, _)) =>
    match run .strict d evs with
    | .ok x => some x
    | .error _ => none
  | _ => none

theorem exRun_reach {evs : List Ev} {d : Dev} {es : List Eff} (h : exRun evs = some (d, es)) : Reach .strict d evs es := by
  unfold exRun at h
  split at h
  · rename_i d0 e0 hc
    split at h
    · rename_i x hr
      cases h
      exact ⟨_, _, _, [exSched], d0, e0, ⟨_, _, _, _, _, List.length_replicate, List.length_replicate, List.length_replicate, rfl⟩,
        ⟨_, _, _, _, List.length_replicate, rfl⟩, ⟨_, _, _, _, List.length_replicate, rfl⟩, hc, hr⟩
    · cases h
  · cases h

theorem exRun_some {evs : List Ev} (h : (exRun evs).isSome = true) : ∃ d es, Reach .strict d evs es ∧ exRun evs = some (d, es) := by
  cases hx : exRun evs with
  | none => rw [hx] at h; cases h
  | some x => exact ⟨x.1, x.2, exRun_reach hx, rfl⟩

/-! ## C04 -/

/-- C04. However a stream is cut into buffers, the device ends in the same state with the same effects (or the same
undefined behaviour). -/
theorem c04_chunking (md : Mode) (d : Dev) (chunks : List (List Byte)) :
    run md d (chunks.map .rx) = step md d (.rx chunks.flatten) := by
  show _ = readCb md d chunks.flatten
  induction chunks generalizing d with
  | nil => rfl
  | cons c cs ih =>
    rw [List.flatten_cons, readCb_append, List.map_cons]
    show (readCb md d c >>= _) = _
    cases readCb md d c with
    | error e => rfl
    | ok p =>
      obtain ⟨d1, e1⟩ := p
      simp only [ok_bind]
      rw [ih]

/-- C04, two ways of cutting the same stream. -/
theorem c04_two_ways (md : Mode) (d : Dev) (a b : List (List Byte)) (h : a.flatten = b.flatten) :
    run md d (a.map .rx) = run md d (b.map .rx) := by
  rw [c04_chunking, c04_chunking, h]

/-- C04 for the RTCM parser alone: the calls made and the final state depend only on the concatenation. -/
theorem c04_rtcm (r : Rtcm) (chunks : List (List Byte)) :
    (chunks.foldlM (fun (x : Rtcm × List (List RtcmCall)) c => do
      let y ← x.1.readCb c
      Except.ok (y.1, x.2 ++ y.2)) (r, []) : M _) = r.readCb chunks.flatten := by
  have key : ∀ (chunks : List (List Byte)) (r : Rtcm) (acc : List (List RtcmCall)),
      (chunks.foldlM (fun (x : Rtcm × List (List RtcmCall)) c => do
        let y ← x.1.readCb c
        Except.ok (y.1, x.2 ++ y.2)) (r, acc) : M _) =
      (r.readCb chunks.flatten >>= fun y => .ok (y.1, acc ++ y.2)) := by
    intro chunks
    induction chunks with
    | nil =>
      intro r acc
      show Except.ok _ = Except.ok _
      simp
    | cons c cs ih =>
      intro r acc
      rw [List.foldlM_cons, List.flatten_cons, Rtcm.readCb_append]
      dsimp only
      cases Rtcm.readCb r c with
      | error e => rfl
      | ok x =>
        simp only [ok_bind]
        rw [ih]
        cases Rtcm.readCb x.1 cs.flatten with
        | error e => rfl
        | ok y => simp only [ok_bind, List.append_assoc]
  rw [key]
  cases Rtcm.readCb r chunks.flatten with
  | error e => rfl
  | ok y => simp only [ok_bind, List.nil_append]

/-! ## What the device is, in terms of the calls made -/

theorem Reach.idle {md : Mode} {d : Dev} {evs : List Ev} {es : List Eff} (h : Reach md d evs es)
    (hu : d.ubx.parsingMessage = false) (hr : d.rtcm.parsingMessage = false) :
    DAbs d (registered evs) (.idle d.ubx.prev) .idle := by
  have hi := h.inv
  obtain ⟨h1, r1⟩ := hi.ubx
  obtain ⟨h2, r2⟩ := hi.rtcm
  obtain ⟨last, -, ha⟩ := Ubx.idle_of_reach r1 hu
  exact ⟨hi.wired, ⟨ha.1, ha.2.1, rfl⟩, Rtcm.abs_idle r2 hr⟩

theorem Inv.recipients {md : Mode} {d : Dev} {evs : List Ev} (h : Inv md d evs) :
    (fun c i => (registered evs).filter (d.userSub c i)) = recipients evs := by
  funext c i
  unfold Dev.recipients
  congr 1
  funext l
  have := h.subs l c i
  by_cases hs : Subscribed evs l c i
  · rw [this.2 hs]; simp [hs]
  · cases hx : d.userSub c i l with
    | false => simp [hs]
    | true => exact absurd (this.1 hx) hs

theorem Inv.links {md : Mode} {d : Dev} {evs : List Ev} (h : Inv md d evs) : lks d = links evs := by
  unfold lks Dev.links
  rw [← h.role, h.rlisteners]
  cases d.role <;> cases d.rtk <;> simp

/-! ## C30 -/

/-- C30, any stream. A base between messages shows exactly the good messages of the stream as split by `demux`, in
order: every UBX message at its subscribers (RXM-SFRBX also at the navigation parser), every RTCM3 frame on the link,
verbatim, and nothing else. -/
theorem c30_any_stream {md : Mode} {d d' : Dev} {evs : List Ev} {es0 es : List Eff} {i : Nat} {s : List Byte}
    (h : Reach md d evs es0) (hb : configured evs = (.base, some i))
    (hu : d.ubx.parsingMessage = false) (hr : d.rtcm.parsingMessage = false)
    (hs : d.step md (.rx s) = .ok (d', es)) :
    Shows md (recipients evs) (List.replicate (baseCalls evs) i) d.nav (demux d.ubx.prev s).1 d'.nav es := by
  have hi := h.inv
  obtain ⟨-, -, w⟩ := readCb_shows (h.idle hu hr) hs
  have hrole : d.role = .base := by have := hi.role; rw [hb] at this; exact (Prod.mk.inj this).1
  have hl : links evs = List.replicate (baseCalls evs) i := by unfold Dev.links; rw [hb]
  rw [hi.recipients, hi.links, hl, hrole] at w
  rw [(demux_eq d.ubx.prev s).2.2.symm]
  exact w

/-- C30. On a base between messages, a sequence of well-formed UBX messages and RTCM3 frames, in any order and with any
contents, shows exactly these messages, each once and in order; and the base is between messages again. -/
theorem c30_lossless {md : Mode} {d d' : Dev} {evs : List Ev} {es0 es : List Eff} {i : Nat} {ms : List Msg}
    (h : Reach md d evs es0) (hb : configured evs = (.base, some i))
    (hu : d.ubx.parsingMessage = false) (hr : d.rtcm.parsingMessage = false) (hw : ∀ m ∈ ms, m.WF)
    (hs : d.step md (.rx (wire ms)) = .ok (d', es)) :
    Shows md (recipients evs) (List.replicate (baseCalls evs) i) d.nav ms d'.nav es ∧
    d'.ubx.parsingMessage = false ∧ d'.rtcm.parsingMessage = false := by
  obtain ⟨last, hl⟩ := demux_wire ms hw d.ubx.prev []
  rw [List.append_nil] at hl
  have hd : demux last [] = ([], .idle last) := by rw [demux]
  rw [hd, List.append_nil] at hl
  have hw := c30_any_stream h hb hu hr hs
  rw [hl] at hw
  obtain ⟨a, -, -⟩ := readCb_shows (h.idle hu hr) hs
  have hrole : d.role = .base := by have := h.inv.role; rw [hb] at this; exact (Prod.mk.inj this).1
  rw [hrole] at a
  obtain ⟨k1, k2, -⟩ := demux_eq d.ubx.prev (wire ms)
  rw [hl] at k1 k2
  change DAbs d' _ (dRun true _ _ _).1 (dRun true _ _ _).2.1 at a
  rw [k1, k2] at a
  exact ⟨hw, uOpen_iff a.ubx, rOpen_iff a.rtcm⟩

/-- C30, no undefined behaviour: without MON-VER and RXM-SFRBX messages (see C16 and C61 for these) the stream is
processed to its end. -/
theorem c30_total {md : Mode} {d : Dev} {evs : List Ev} {es0 : List Eff} {i : Nat} {ms : List Msg}
    (h : Reach md d evs es0) (hb : configured evs = (.base, some i))
    (hu : d.ubx.parsingMessage = false) (hr : d.rtcm.parsingMessage = false) (hw : ∀ m ∈ ms, m.WF)
    (h1 : ∀ p, Msg.ubx 0x0A 0x04 p ∉ ms) (h2 : ∀ p, Msg.ubx 0x02 0x13 p ∉ ms) :
    ∃ d' es, d.step md (.rx (wire ms)) = .ok (d', es) := by
  have hrole : d.role = .base := by have := h.inv.role; rw [hb] at this; exact (Prod.mk.inj this).1
  exact readCb_total_base hrole (h.idle hu hr) hw h1 h2

theorem Shows.rtk {md : Mode} {rcv : Byte → Byte → List Nat} {lk : List Nat} {n n' : Nav} {ms : List Msg} {es : List Eff}
    (h : Shows md rcv lk n ms n' es) :
    es.filterMap Eff.rtk? = (ms.filterMap Msg.rtcm?).flatMap fun f => lk.map fun i => (i, f) := by
  have hu : ∀ (ls : List Nat) (c i : Byte) (b : List Byte), (ls.map fun l => Eff.ubx l c i b).filterMap Eff.rtk? = [] := by
    intro ls c i b; induction ls with
    | nil => rfl
    | cons l ls ih => exact ih
  have hn : ∀ cs : List NavCall, (cs.map Eff.nav).filterMap Eff.rtk? = [] := by
    intro cs; induction cs with
    | nil => rfl
    | cons l ls ih => exact ih
  induction h with
  | nil => rfl
  | @rtcm n n' f ms es _ ih =>
    rw [List.filterMap_append, ih]
    have : ∀ lk : List Nat, (lk.map fun i => Eff.toRtk i f).filterMap Eff.rtk? = lk.map fun i => (i, f) := by
      intro lk; induction lk with
      | nil => rfl
      | cons l ls ih => simp [List.filterMap_cons, Eff.rtk?] at ih ⊢; exact ih
    rw [this]
    simp [Msg.rtcm?]
  | ubx _ _ _ _ ih => rw [List.filterMap_append, ih, hu]; rfl
  | sfrbx _ _ _ _ ih => rw [List.filterMap_append, List.filterMap_append, ih, hn, hu]; rfl

/-- C30, the link: the buffers written to the link are exactly the RTCM3 frames, in order, each one once if `config_base`
was called once. -/
theorem c30_link {md : Mode} {d d' : Dev} {evs : List Ev} {es0 es : List Eff} {i : Nat} {ms : List Msg}
    (h : Reach md d evs es0) (hb : configured evs = (.base, some i)) (h1 : baseCalls evs = 1)
    (hu : d.ubx.parsingMessage = false) (hr : d.rtcm.parsingMessage = false) (hw : ∀ m ∈ ms, m.WF)
    (hs : d.step md (.rx (wire ms)) = .ok (d', es)) :
    es.filterMap Eff.rtk? = (ms.filterMap Msg.rtcm?).map fun f => (i, f) := by
  have := (c30_lossless h hb hu hr hw hs).1.rtk
  rw [this, h1]
  simp [List.map_eq_flatMap]

/-- A valid RTCM3 frame (C28). -/
def exFrame : List Byte := [0xD3, 0x00, 0x01, 0x00, 0x0A, 0x18, 0x8D]

/-- A UBX message whose payload contains an RTCM3 preamble and a UBX start sequence; a subscriber; a base. -/
def exMsgs : List Msg := [.ubx 0x01 0x07 [0xD3, 0x00, 0x01, 0xB5, 0x62], .rtcm exFrame, .rtcm exFrame, .ubx 0x01 0x08 [1]]
def exBase : List Ev := [.listen 4, .listen 5, .subscribe 5 0x01 0x07, .configBase 9 false]

theorem exMsgs_wf : ∀ m ∈ exMsgs, m.WF := by
  intro m hm
  simp only [exMsgs, List.mem_cons, List.not_mem_nil, or_false] at hm
  rcases hm with rfl | rfl | rfl | rfl
  · exact ⟨by decide, by decide⟩
  · exact ⟨_, Rtcm.exFrame, by decide, by decide⟩
  · exact ⟨_, Rtcm.exFrame, by decide, by decide⟩
  · exact ⟨by decide, by decide⟩

-- the hypotheses of C30 are met
example : ∃ d es0, Reach .strict d exBase es0 ∧ configured exBase = (.base, some 9) ∧ baseCalls exBase = 1 ∧
    d.ubx.parsingMessage = false ∧ d.rtcm.parsingMessage = false ∧ (∀ m ∈ exMsgs, m.WF) := by
  have h : (match exRun exBase with
    | some (d, _) => !d.ubx.parsingMessage && !d.rtcm.parsingMessage
    | none => false) = true := by decide +kernel
  cases hx : exRun exBase with
  | none => rw [hx] at h; cases h
  | some x =>
    rw [hx] at h
    simp only [Bool.and_eq_true, Bool.not_eq_true'] at h
    exact ⟨x.1, x.2, exRun_reach hx, by decide, by decide, h.1, h.2, exMsgs_wf⟩

/-- What the messages show (for examples): user calls cut to 5 bytes, link writes. -/
def brief : Eff → Option (Nat × List Byte)
  | .ubx l c i m => some (l, c :: i :: m.take 5)
  | .toRtk i b => some (i, b)
  | _ => none

example : (exRun (exBase ++ [.rx (wire exMsgs)])).map (fun x => x.2.filterMap brief) =
    some [(5, [0x01, 0x07, 0xD3, 0x00, 0x01, 0xB5, 0x62]), (9, exFrame), (9, exFrame)] := by decide +kernel

/-! ## C31 -/

theorem deliver_frame {md : Mode} {d d' : Dev} {ds : List Delivery} {es : List Eff} (h : deliver md d ds = .ok (d', es)) :
    d'.ubx = d.ubx ∧ d'.rtcm = d.rtcm ∧ es.filterMap Eff.rtk? = [] ∧ es.filterMap Eff.receiver? = [] := by
  induction ds generalizing d es with
  | nil => cases h; exact ⟨rfl, rfl, rfl, rfl⟩
  | cons x xs ih =>
    unfold deliver at h
    rw [bind_ok] at h
    obtain ⟨⟨d1, e1⟩, h1, h⟩ := h
    dsimp only at h
    rw [bind_ok] at h
    obtain ⟨⟨d2, e2⟩, h2, h⟩ := h
    cases h
    have k1 : d1.ubx = d.ubx ∧ d1.rtcm = d.rtcm ∧ e1.filterMap Eff.rtk? = [] ∧ e1.filterMap Eff.receiver? = [] := by
      unfold deliverOne at h1
      split at h1
      · split at h1
        · rw [bind_ok] at h1
          obtain ⟨⟨n, cs⟩, -, h1⟩ := h1
          cases h1
          refine ⟨rfl, rfl, ?_, ?_⟩
          · clear h2 ih; induction cs with
            | nil => rfl
            | cons c cs ih => exact ih
          · clear h2 ih; induction cs with
            | nil => rfl
            | cons c cs ih => exact ih
        · cases h1
      · cases h1; exact ⟨rfl, rfl, rfl, rfl⟩
    obtain ⟨a, b, c, e⟩ := ih h2
    obtain ⟨a1, b1, c1, e1'⟩ := k1
    exact ⟨a.trans a1, b.trans b1, by rw [List.filterMap_append, c1, c]; rfl, by rw [List.filterMap_append, e1', e]; rfl⟩

/-- C31, UBX. While a UBX message is in progress (in any role), a byte goes to the UBX parser and only there: the RTCM
parser is left exactly as it was, and nothing is written to the link. -/
theorem c31_ubx_in_progress {md : Mode} {d d' : Dev} {b : Byte} {es : List Eff} (hu : d.ubx.parsingMessage = true)
    (hs : d.step md (.rx [b]) = .ok (d', es)) :
    d'.rtcm = d.rtcm ∧ es.filterMap Eff.rtk? = [] ∧ ∃ r ds, d.ubx.readCb b = .ok (d'.ubx, r, ds) := by
  obtain ⟨d1, e1, e2, h1, h2, rfl⟩ := readCb_cons_ok hs
  cases h2
  unfold Dev.rxByte at h1
  rw [if_pos hu] at h1
  unfold Dev.rxUbx at h1
  rw [bind_ok] at h1
  obtain ⟨⟨u, r, ds⟩, h1, h2⟩ := h1
  obtain ⟨a, b, c, -⟩ := deliver_frame h2
  rw [List.append_nil]
  exact ⟨b, c, r, ds, by rw [a]; exact h1⟩

/-- C31, RTCM. While an RTCM message is in progress on a base (and no UBX message is), a byte goes to the RTCM parser and
only there: the UBX parser and the navigation parser are left exactly as they were, no listener or ephemeris callback is
called. -/
theorem c31_rtcm_in_progress {md : Mode} {d d' : Dev} {b : Byte} {es : List Eff} (hu : d.ubx.parsingMessage = false)
    (hr : d.rtcm.parsingMessage = true) (hb : d.role = .base) (hs : d.step md (.rx [b]) = .ok (d', es)) :
    d'.ubx = d.ubx ∧ d'.nav = d.nav ∧ es.filterMap Eff.user? = [] ∧ es.filterMap Eff.nav? = [] ∧
    ∃ cs, d.rtcm.readByte b = .ok (d'.rtcm, cs) := by
  obtain ⟨d1, e1, e2, h1, h2, rfl⟩ := readCb_cons_ok hs
  cases h2
  unfold Dev.rxByte at h1
  rw [if_neg (by simp [hu]), if_pos (by rw [hr, hb]; rfl)] at h1
  unfold Dev.rxRtcm at h1
  rw [bind_ok] at h1
  obtain ⟨⟨r, cs⟩, h1, h2⟩ := h1
  dsimp only at h2
  rw [bind_ok] at h2
  obtain ⟨es, h2, h3⟩ := h2
  cases h3
  have key : ∀ (cs : List RtcmCall) (es : List Eff), gotRtcms { d with rtcm := r } cs = .ok es →
      es.filterMap Eff.user? = [] ∧ es.filterMap Eff.nav? = [] := by
    intro cs
    induction cs with
    | nil => intro es h; cases h; exact ⟨rfl, rfl⟩
    | cons c cs ih =>
      intro es h
      unfold gotRtcms at h
      rw [bind_ok] at h
      obtain ⟨e1, h1, h⟩ := h
      rw [bind_ok] at h
      obtain ⟨e2, h2, h⟩ := h
      cases h
      obtain ⟨i1, i2⟩ := ih _ h2
      have : e1.filterMap Eff.user? = [] ∧ e1.filterMap Eff.nav? = [] := by
        unfold gotRtcm at h1
        rw [if_pos hb] at h1
        dsimp only at h1
        generalize d.rtk = k at h1
        cases k with
        | none => cases h1
        | some i => cases h1; exact ⟨rfl, rfl⟩
      exact ⟨by rw [List.filterMap_append, this.1, i1]; rfl, by rw [List.filterMap_append, this.2, i2]; rfl⟩
  rw [List.append_nil]
  exact ⟨rfl, rfl, (key _ _ h2).1, (key _ _ h2).2, cs, h1⟩

-- both situations are reachable
example : ∃ d es0, Reach .strict d (exBase ++ [.rx [0xB5, 0x62, 0x01]]) es0 ∧ d.ubx.parsingMessage = true := by
  have h : (exRun (exBase ++ [.rx [0xB5, 0x62, 0x01]])).map (fun x => x.1.ubx.parsingMessage) = some true := by decide +kernel
  cases hx : exRun (exBase ++ [.rx [0xB5, 0x62, 0x01]]) with
  | none => rw [hx] at h; cases h
  | some x => rw [hx] at h; exact ⟨x.1, x.2, exRun_reach hx, Option.some.inj h⟩
example : ∃ d es0, Reach .strict d (exBase ++ [.rx [0xD3, 0x00]]) es0 ∧
    (d.ubx.parsingMessage, d.rtcm.parsingMessage, d.role) = (false, true, .base) := by
  have h : (exRun (exBase ++ [.rx [0xD3, 0x00]])).map (fun x => (x.1.ubx.parsingMessage, x.1.rtcm.parsingMessage, x.1.role))
    = some (false, true, .base) := by decide +kernel
  cases hx : exRun (exBase ++ [.rx [0xD3, 0x00]]) with
  | none => rw [hx] at h; cases h
  | some x => rw [hx] at h; exact ⟨x.1, x.2, exRun_reach hx, Option.some.inj h⟩

/-! ## C32 -/

theorem gotRtcms_rtk {d : Dev} {cs : List RtcmCall} {es : List Eff} (h : gotRtcms d cs = .ok es) :
    es.filterMap Eff.receiver? = [] ∧
    ∀ j f, (j, f) ∈ es.filterMap Eff.rtk? → d.role = .base ∧ d.rtk = some j ∧ ∃ c ∈ cs, c.bytes = f := by
  induction cs generalizing es with
  | nil => cases h; exact ⟨rfl, fun j f h => by cases h⟩
  | cons c cs ih =>
    unfold gotRtcms at h
    rw [bind_ok] at h
    obtain ⟨e1, h1, h⟩ := h
    rw [bind_ok] at h
    obtain ⟨e2, h2, h⟩ := h
    cases h
    obtain ⟨i1, i2⟩ := ih h2
    have k : e1.filterMap Eff.receiver? = [] ∧
        ∀ j f, (j, f) ∈ e1.filterMap Eff.rtk? → d.role = .base ∧ d.rtk = some j ∧ c.bytes = f := by
      unfold gotRtcm at h1
      split at h1
      · rename_i hb
        split at h1
        · rename_i i hi
          cases h1
          refine ⟨rfl, fun j f h => ?_⟩
          simp only [List.filterMap_cons, Eff.rtk?, List.filterMap_nil, List.mem_singleton, Prod.mk.injEq] at h
          exact ⟨hb, by rw [hi, h.1], h.2.symm⟩
        · cases h1
      · cases h1; exact ⟨rfl, fun j f h => by cases h⟩
    refine ⟨by rw [List.filterMap_append, k.1, i1]; rfl, fun j f h => ?_⟩
    rw [List.filterMap_append, List.mem_append] at h
    rcases h with h | h
    · obtain ⟨a, b, e⟩ := k.2 j f h
      exact ⟨a, b, c, by simp, e⟩
    · obtain ⟨a, b, c', hc, e⟩ := i2 j f h
      exact ⟨a, b, c', by simp [hc], e⟩

theorem rxByte_rtk {md : Mode} {d d' : Dev} {evs : List Ev} {b : Byte} {es : List Eff} (hi : Inv md d evs)
    (h : rxByte md d b = .ok (d', es)) :
    es.filterMap Eff.receiver? = [] ∧
    ∀ j f, (j, f) ∈ es.filterMap Eff.rtk? → configured evs = (.base, some j) ∧
      ∃ p, RtcmFrame p f ∧ 1 ≤ p.length ∧ p.length ≤ 1018 := by
  obtain ⟨hist, hR⟩ := hi.rtcm
  have rt : ∀ {d1 d2 : Dev} {es : List Eff}, d1.role = d.role → d1.rtk = d.rtk → d1.rtcm = d.rtcm →
      rxRtcm d1 b = .ok (d2, es) → es.filterMap Eff.receiver? = [] ∧
      ∀ j f, (j, f) ∈ es.filterMap Eff.rtk? → configured evs = (.base, some j) ∧
        ∃ p, RtcmFrame p f ∧ 1 ≤ p.length ∧ p.length ≤ 1018 := by
    intro d1 d2 es hrole hrtk hrt h
    unfold Dev.rxRtcm at h
    rw [bind_ok] at h
    obtain ⟨⟨r, cs⟩, h1, h2⟩ := h
    dsimp only at h2
    rw [bind_ok] at h2
    obtain ⟨es', h2, h3⟩ := h2
    cases h3
    obtain ⟨k1, k2⟩ := gotRtcms_rtk h2
    refine ⟨k1, fun j f hj => ?_⟩
    obtain ⟨a, b', c, hc, rfl⟩ := k2 j f hj
    rw [hrt] at h1
    obtain ⟨-, pre, p, -, hp⟩ := Rtcm.c22_forwarded_was_received hR h1 c hc
    refine ⟨?_, p, hp⟩
    have a : d.role = .base := hrole.symm.trans a
    have b' : d.rtk = some j := hrtk.symm.trans b'
    rw [← hi.role, a, b']
  obtain ⟨t, r, ha⟩ := hi.dabs
  have ub : ∀ {d2 : Dev} {es : List Eff}, rxUbx md d b = .ok (d2, es) → d2.rtcm = d.rtcm ∧ d2.role = d.role ∧ d2.rtk = d.rtk ∧
      es.filterMap Eff.rtk? = [] ∧ es.filterMap Eff.receiver? = [] := by
    intro d2 es h
    obtain ⟨-, -, s, e, -⟩ := rxUbx_sim ha.wired ha.ubx h
    refine ⟨e, s.role, s.rtk, ?_⟩
    unfold Dev.rxUbx at h
    rw [bind_ok] at h
    obtain ⟨⟨u, r, ds⟩, h1, h2⟩ := h
    exact (deliver_frame h2).2.2
  unfold Dev.rxByte at h
  split at h
  · obtain ⟨-, -, -, e1, e2⟩ := ub h
    exact ⟨e2, fun j f hj => by rw [e1] at hj; cases hj⟩
  · split at h
    · exact rt rfl rfl rfl h
    · rw [bind_ok] at h
      obtain ⟨⟨d1, e1⟩, h1, h⟩ := h
      dsimp only at h
      rw [bind_ok] at h
      obtain ⟨⟨d2, e2⟩, h2, h⟩ := h
      cases h
      obtain ⟨a, b, c, e, e'⟩ := ub h1
      obtain ⟨k1, k2⟩ := rt b c a h2
      refine ⟨by rw [List.filterMap_append, e', k1]; rfl, fun j f hj => ?_⟩
      rw [List.filterMap_append, e] at hj
      exact k2 j f hj

/-- C32, data from the receiver. In any role it makes the device write nothing to the receiver, and to an RTK interface only
if the last configuration call was `config_base` with that interface, and then only valid RTCM3 frames. -/
theorem c32_receiver_data {md : Mode} {d d' : Dev} {evs : List Ev} {es0 es : List Eff} {s : List Byte}
    (h : Reach md d evs es0) (hs : d.step md (.rx s) = .ok (d', es)) :
    es.filterMap Eff.receiver? = [] ∧
    ∀ j f, (j, f) ∈ es.filterMap Eff.rtk? → configured evs = (.base, some j) ∧
      ∃ p, RtcmFrame p f ∧ 1 ≤ p.length ∧ p.length ≤ 1018 := by
  have hi := h.inv
  change Dev.readCb md d s = _ at hs
  clear h
  induction s generalizing d es with
  | nil => cases hs; exact ⟨rfl, fun j f h => by cases h⟩
  | cons b bs ih =>
    obtain ⟨d1, e1, e2, h1, h2, rfl⟩ := readCb_cons_ok hs
    obtain ⟨a1, a2⟩ := rxByte_rtk hi h1
    obtain ⟨b1, b2⟩ := ih (hi.rxByte h1) h2
    refine ⟨by rw [List.filterMap_append, a1, b1]; rfl, fun j f hj => ?_⟩
    rw [List.filterMap_append, List.mem_append] at hj
    rcases hj with hj | hj
    · exact a2 j f hj
    · exact b2 j f hj

/-- C32, data from an RTK interface: written to the receiver unchanged if `config_rover` was called with that interface;
otherwise without any effect. -/
theorem c32_rtk_data {md : Mode} {d d' : Dev} {evs : List Ev} {es0 es : List Eff} {j : Nat} {buf : List Byte}
    (h : Reach md d evs es0) (hs : d.step md (.rtkRx j buf) = .ok (d', es)) :
    (RoverOn evs j → es = [.toReceiver buf]) ∧ (¬ RoverOn evs j → es = [] ∧ d' = d) := by
  have hf := h.inv.fwd j
  change Dev.rtkRx d j buf = _ at hs
  unfold Dev.rtkRx at hs
  by_cases hj : j ∈ d.fwd
  · rw [if_pos hj, bind_ok] at hs
    obtain ⟨⟨g, cs⟩, -, hs⟩ := hs
    cases hs
    exact ⟨fun _ => rfl, fun hn => absurd (hf.1 hj) hn⟩
  · rw [if_neg hj] at hs
    cases hs
    exact ⟨fun hr => absurd (hf.2 hr) hj, fun _ => ⟨rfl, rfl⟩⟩

theorem roverOn_configured {evs : List Ev} {j : Nat} (h : RoverOn evs j) : (configured evs).1 ≠ .none := by
  have key : ∀ (evs : List Ev) (s : Role × Option Nat), (s.1 ≠ .none ∨ .configRover j ∈ evs) →
      (evs.foldl (fun s e => match e with
        | .configBase i _ => (.base, some i)
        | .configRover i => (.rover, some i)
        | _ => s) s).1 ≠ .none := by
    intro evs
    induction evs with
    | nil =>
      intro s h
      rcases h with h | h
      · exact h
      · cases h
    | cons e evs ih =>
      intro s h
      rw [List.foldl_cons]
      apply ih
      rcases h with h | h
      · left; split <;> first | exact h | (intro hh; cases hh)
      · rcases List.mem_cons.1 h with rfl | h
        · left; intro hh; cases hh
        · exact .inr h
  exact key evs _ (.inr h)

/-- C32, an unconfigured device: received data, from wherever, makes it write nothing. -/
theorem c32_unconfigured {md : Mode} {d d' : Dev} {evs : List Ev} {es0 es : List Eff} {e : Ev}
    (h : Reach md d evs es0) (hn : (configured evs).1 = .none) (he : (∃ s, e = .rx s) ∨ ∃ j s, e = .rtkRx j s)
    (hs : d.step md e = .ok (d', es)) : es.filterMap Eff.receiver? = [] ∧ es.filterMap Eff.rtk? = [] := by
  rcases he with ⟨s, rfl⟩ | ⟨j, s, rfl⟩
  · obtain ⟨h1, h2⟩ := c32_receiver_data h hs
    refine ⟨h1, List.eq_nil_iff_forall_not_mem.2 fun ⟨j, f⟩ hj => ?_⟩
    rw [(h2 j f hj).1] at hn
    cases hn
  · have := (c32_rtk_data h hs).2 fun hr => roverOn_configured hr hn
    rw [this.1]
    exact ⟨rfl, rfl⟩

theorem Reach.snoc {md : Mode} {d d' : Dev} {evs : List Ev} {es0 es : List Eff} {e : Ev}
    (h : Reach md d evs es0) (hs : d.step md e = .ok (d', es)) : Reach md d' (evs ++ [e]) (es0 ++ es) := by
  obtain ⟨u, r, g, ss, d0, e0, h1, h2, h3, h4, h5⟩ := h
  refine ⟨u, r, g, ss, d0, e0, h1, h2, h3, h4, ?_⟩
  rw [run_append, h5, ok_bind]
  dsimp only
  show ((d.step md e >>= _) >>= _) = _
  rw [hs]
  simp only [ok_bind]
  show ((Except.ok (d', []) >>= _) >>= _ : M (Dev × List Eff)) = _
  simp only [ok_bind, List.append_nil]

/-- C32, a rover: what it writes to the receiver is exactly what arrives on the link, in order, however it is cut. -/
theorem c32_rover_stream {md : Mode} {d d' : Dev} {evs : List Ev} {es0 es : List Eff} {j : Nat} {bufs : List (List Byte)}
    (h : Reach md d evs es0) (hr : RoverOn evs j) (hs : d.run md (bufs.map (.rtkRx j)) = .ok (d', es)) :
    es = bufs.map .toReceiver := by
  induction bufs generalizing d evs es0 es with
  | nil => cases hs; rfl
  | cons b bs ih =>
    rw [List.map_cons] at hs
    unfold run at hs
    rw [bind_ok] at hs
    obtain ⟨⟨d1, e1⟩, h1, hs⟩ := hs
    dsimp only at hs
    rw [bind_ok] at hs
    obtain ⟨⟨d2, e2⟩, h2, hs⟩ := hs
    cases hs
    rw [(c32_rtk_data h h1).1 hr, ih (h.snoc h1) (List.mem_append_left _ hr) h2]
    rfl

/-- C32, the other calls: registering and subscribing write nothing anywhere; a configuration call writes UBX frames to the
receiver and nothing else. -/
theorem c32_other_calls {md : Mode} {d d' : Dev} {evs : List Ev} {es0 es : List Eff} {e : Ev}
    (h : Reach md d evs es0) (hs : d.step md e = .ok (d', es)) :
    match e with
    | .rx _ | .rtkRx _ _ => True
    | .configBase _ _ | .configRover _ => ∃ ms, es = [.toReceiver (wireBytes ms)]
    | _ => es = [] := by
  obtain ⟨hu, h1⟩ := h.inv.ubx
  have cmd : ∀ {d1 d2 : Dev} {cs : List Ubx.Command} {es : List Eff}, d1.ubx = d.ubx → d1.command cs = .ok (d2, es) →
      ∃ ms, es = [.toReceiver (wireBytes ms)] := by
    intro d1 d2 cs es hd hc
    obtain ⟨u', ms, e1, -⟩ := c20_only_frames (u := d1.ubx) (by rw [hd]; exact h1.inv.wf.outLen) cs
    unfold Dev.command at hc
    rw [e1] at hc
    cases hc
    exact ⟨ms, rfl⟩
  cases e with
  | rx s => trivial
  | rtkRx j s => trivial
  | listen l => cases hs; rfl
  | subscribe l c i => cases hs; rfl
  | ephCb => cases hs; rfl
  | gephCb => cases hs; rfl
  | configBase i st =>
    exact cmd (d1 := { d with role := .base, rtk := some i, rtcm := d.rtcm.registerListener 0 }) rfl hs
  | configRover i =>
    change Dev.configRover d i = _ at hs
    unfold Dev.configRover at hs
    rw [bind_ok] at hs
    obtain ⟨⟨d1, e1⟩, h2, hs⟩ := hs
    cases hs
    exact cmd (d1 := { d with role := .rover }) rfl h2

end Dev
end Ublox
