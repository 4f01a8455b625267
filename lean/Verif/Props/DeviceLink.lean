import Verif.Props.Device

/-!
# The RTK link end to end, reconfiguration, other roles, wedging (C33, C34, C72–C74)
-/

namespace Ublox
namespace Dev

open Nav (Nav NavCall Mode Sfrbx NavOp)
open Rtcm (RTail REvent rtStep rtRun)

/-! ## C33 -/

/-- C33. A base (configured once) receives any well-formed mixed stream; what it writes to its link is carried to a rover
as a byte stream, cut in any way; the rover's receiver then gets exactly the RTCM3 frames of the stream, unmodified, in
order, once each. -/
theorem c33_end_to_end {mb mr : Mode} {b b' r r' : Dev} {evb evr : List Ev} {eb0 eb er0 er : List Eff} {i j : Nat} {ms : List Msg}
    {bufs : List (List Byte)}
    (hb : Reach mb b evb eb0) (hcb : configured evb = (.base, some i)) (h1 : baseCalls evb = 1)
    (hu : b.ubx.parsingMessage = false) (hr : b.rtcm.parsingMessage = false) (hw : ∀ m ∈ ms, m.WF)
    (hsb : b.step mb (.rx (wire ms)) = .ok (b', eb))
    (hr0 : Reach mr r evr er0) (hcr : RoverOn evr j)
    (hlink : bufs.flatten = ((eb.filterMap Eff.rtk?).filterMap fun x => if x.1 = i then some x.2 else none).flatten)
    (hsr : r.run mr (bufs.map (.rtkRx j)) = .ok (r', er)) :
    (er.filterMap Eff.receiver?).flatten = (ms.filterMap Msg.rtcm?).flatten := by
  rw [c32_rover_stream hr0 hcr hsr]
  have : (bufs.map Eff.toReceiver).filterMap Eff.receiver? = bufs := by
    clear hsr hlink
    induction bufs with
    | nil => rfl
    | cons x xs ih => rw [List.map_cons, List.filterMap_cons]; simp only [Eff.receiver?, ih]
  rw [this, hlink, c30_link hb hcb h1 hu hr hw hsb]
  congr 1
  generalize ms.filterMap Msg.rtcm? = fs
  induction fs with
  | nil => rfl
  | cons f fs ih => rw [List.map_cons, List.filterMap_cons]; simp only [if_true, ih]

theorem rtcm_stream_total (fs : List (List Byte)) (hf : ∀ f ∈ fs, ∃ p, RtcmFrame p f ∧ 1 ≤ p.length ∧ p.length ≤ 1018)
    {g : Rtcm} {hist : List Byte} (h : Rtcm.Reach g hist) (hp : g.parsingMessage = false) :
    ∃ g' css, g.readCb fs.flatten = .ok (g', css) ∧ g'.parsingMessage = false := by
  induction fs generalizing g hist with
  | nil => exact ⟨g, [], rfl, hp⟩
  | cons f fs ih =>
    obtain ⟨p, h1, h2, h3⟩ := hf f (by simp)
    obtain ⟨g1, e1, hp1, -⟩ := Rtcm.c23_frame_is_delivered h hp p f h1 h2 h3
    obtain ⟨g2, c2, e2, hp2⟩ := ih (fun f' hf' => hf f' (by simp [hf'])) (h.feed e1) hp1
    generalize List.replicate (p.length + 5) [] ++ [g.listeners.map fun l => (⟨l, f⟩ : RtcmCall)] = L at e1
    refine ⟨g2, L ++ c2, ?_, hp2⟩
    rw [List.flatten_cons, Rtcm.readCb_append, e1]
    simp only [ok_bind, e2]

theorem rtkRx_chunks {md : Mode} {r : Dev} {j : Nat} (hj : j ∈ r.fwd) {bufs : List (List Byte)} {g : Rtcm} {css : List (List RtcmCall)}
    (h : r.dbg.readCb bufs.flatten = .ok (g, css)) :
    r.run md (bufs.map (.rtkRx j)) = .ok ({ r with dbg := g }, bufs.map .toReceiver) := by
  induction bufs generalizing r css with
  | nil => cases h; rfl
  | cons b bs ih =>
    rw [List.flatten_cons, Rtcm.readCb_append] at h
    cases h1 : Rtcm.readCb r.dbg b with
    | error e => rw [h1] at h; cases h
    | ok x =>
      rw [h1] at h
      simp only [ok_bind] at h
      cases h2 : Rtcm.readCb x.1 bs.flatten with
      | error e => rw [h2] at h; cases h
      | ok y =>
        rw [h2] at h
        simp only [ok_bind] at h
        cases h
        have hs : step md r (.rtkRx j b) = .ok ({ r with dbg := x.1 }, [.toReceiver b]) := by
          show Dev.rtkRx r j b = _
          unfold Dev.rtkRx
          rw [if_pos hj, h1]; rfl
        rw [List.map_cons]
        unfold run
        rw [hs, ok_bind]
        dsimp only
        rw [ih (r := { r with dbg := x.1 }) hj h2]
        rfl

/-- C33, the rover's side never fails: if the forwarder's own parser is between messages (it is after whole frames only), the
frames of a base's link pass without undefined behaviour however they are cut, and it is between messages again. -/
theorem c33_rover_total {md : Mode} {r : Dev} {evr : List Ev} {er0 : List Eff} {j : Nat} {ms : List Msg} {bufs : List (List Byte)}
    (hr0 : Reach md r evr er0) (hcr : RoverOn evr j) (hp : r.dbg.parsingMessage = false) (hw : ∀ m ∈ ms, m.WF)
    (hb : bufs.flatten = (ms.filterMap Msg.rtcm?).flatten) :
    ∃ r', r.run md (bufs.map (.rtkRx j)) = .ok (r', bufs.map .toReceiver) ∧ r'.dbg.parsingMessage = false := by
  obtain ⟨hist, hd⟩ := hr0.inv.dbg
  have hf : ∀ f ∈ ms.filterMap Msg.rtcm?, ∃ p, RtcmFrame p f ∧ 1 ≤ p.length ∧ p.length ≤ 1018 := by
    intro f hf
    obtain ⟨m, hm, hmf⟩ := List.mem_filterMap.1 hf
    have := hw m hm
    cases m with
    | ubx c i p => cases hmf
    | rtcm f' => cases hmf; exact this
  obtain ⟨g, css, e, hg⟩ := rtcm_stream_total _ hf hd hp
  rw [← hb] at e
  exact ⟨_, rtkRx_chunks ((hr0.inv.fwd j).2 hcr) e, hg⟩

-- a rover that meets the hypotheses, and the whole chain on the messages of C30's example
example : ∃ r er0, Reach .strict r [.configRover 7] er0 ∧ RoverOn [.configRover 7] 7 ∧ r.dbg.parsingMessage = false := by
  have h : (exRun [.configRover 7]).map (fun x => x.1.dbg.parsingMessage) = some false := by decide +kernel
  cases hx : exRun [.configRover 7] with
  | none => rw [hx] at h; cases h
  | some x => rw [hx] at h; exact ⟨x.1, x.2, exRun_reach hx, List.mem_singleton.2 rfl, Option.some.inj h⟩
example : (exRun [.configRover 7, .rtkRx 7 (exFrame.take 3), .rtkRx 7 (exFrame.drop 3 ++ exFrame), .rtkRx 8 [1]]).map
    (fun x => (x.2.filterMap Eff.receiver?).drop 1) = some [exFrame.take 3, exFrame.drop 3 ++ exFrame] := by decide +kernel

/-! ## C34 -/

/-- C34 is false of the code: after two `config_base` calls every frame is written twice. -/
theorem c34_refuted : (exRun [.configBase 9 false, .configBase 9 false, .rx exFrame]).map (fun x => x.2.filterMap Eff.rtk?) =
    some [(9, exFrame), (9, exFrame)] := by decide +kernel

/-- C34, what holds: each frame is written exactly as often as `config_base` was called, always to the interface of the
last call. -/
theorem c34_partial {md : Mode} {d d' : Dev} {evs : List Ev} {es0 es : List Eff} {i : Nat} {ms : List Msg}
    (h : Reach md d evs es0) (hb : configured evs = (.base, some i))
    (hu : d.ubx.parsingMessage = false) (hr : d.rtcm.parsingMessage = false) (hw : ∀ m ∈ ms, m.WF)
    (hs : d.step md (.rx (wire ms)) = .ok (d', es)) :
    es.filterMap Eff.rtk? = (ms.filterMap Msg.rtcm?).flatMap fun f => List.replicate (baseCalls evs) (i, f) := by
  rw [(c30_lossless h hb hu hr hw hs).1.rtk]
  simp [List.map_replicate]

/-! ## C73: roles other than base -/

/-- The UBX messages among the items of a UBX stream. -/
def goodMsgs (its : List Item) : List Msg :=
  its.filterMap fun
    | .good c i p => some (.ubx c i p)
    | _ => none

/-- What role the RTCM messages play when there is no link: none. -/
def Msg.ubx? : Msg → Option Msg
  | .ubx c i p => some (.ubx c i p)
  | .rtcm _ => none

theorem Shows.noLink {md : Mode} {rcv : Byte → Byte → List Nat} {n n' : Nav} {ms : List Msg} {es : List Eff}
    (h : Shows md rcv [] n ms n' es) : Shows md rcv [] n (ms.filterMap Msg.ubx?) n' es := by
  induction h with
  | nil => exact .nil
  | rtcm _ ih => exact ih
  | ubx a b c _ ih => exact .ubx a b c ih
  | sfrbx a b c _ ih => exact .sfrbx a b c ih

open Classical in
theorem msgs_ubx (l : List (Option Item × Option REvent)) :
    (msgs l).filterMap Msg.ubx? = goodMsgs ((l.map (·.1)).filterMap id) := by
  induction l with
  | nil => rfl
  | cons x xs ih =>
    obtain ⟨it, ev⟩ := x
    have hu : (match it with
        | some (.good c i p) => [Msg.ubx c i p]
        | _ => []).filterMap Msg.ubx? ++ goodMsgs ((xs.map (·.1)).filterMap id) =
        goodMsgs ((it :: xs.map (·.1)).filterMap id) := by
      match it with
      | none => rfl
      | some (.good c i p) => rfl
      | some .badChecksum => rfl
      | some .tooLong => rfl
    rw [List.map_cons, ← hu, ← ih]
    simp only [msgs, List.filterMap_append, List.append_assoc]
    congr 1
    match ev with
    | none => rfl
    | some .zeroLen => rfl
    | some (.frame f) =>
      by_cases hv : CrcValid f
      · simp only [hv, if_true]; rfl
      · simp only [hv, if_false]; rfl

/-- C73. A device that is not a base shows exactly what its UBX parser alone would show, whatever else is in the stream
and whatever state the RTCM parser is in: the good frames of `scan`, in order, and nothing is written anywhere. -/
theorem c73_not_base {md : Mode} {d d' : Dev} {evs : List Ev} {es0 es : List Eff} {s : List Byte}
    (h : Reach md d evs es0) (hb : (configured evs).1 ≠ .base) (hu : d.ubx.parsingMessage = false)
    (hs : d.step md (.rx s) = .ok (d', es)) :
    Shows md (recipients evs) [] d.nav (goodMsgs (scan d.ubx.prev s).1) d'.nav es := by
  have hi := h.inv
  obtain ⟨hU, r1⟩ := hi.ubx
  obtain ⟨hR, r2⟩ := hi.rtcm
  obtain ⟨last, -, ha⟩ := Ubx.idle_of_reach r1 hu
  obtain ⟨t, ht, -⟩ := r2.inv.tail
  have hd : DAbs d (registered evs) (.idle d.ubx.prev) t := ⟨hi.wired, ⟨ha.1, ha.2.1, rfl⟩, ht⟩
  obtain ⟨-, -, w⟩ := readCb_shows hd hs
  have hrole : d.role ≠ .base := by have := congrArg Prod.fst hi.role; intro hh; rw [← this] at hb; exact hb hh
  have hf : (d.role == .base) = false := by
    cases hx : d.role with
    | base => exact absurd hx hrole
    | none => rfl
    | rover => rfl
  have hl : links evs = [] := by
    unfold links
    split
    · rename_i heq; rw [heq] at hb; exact absurd rfl hb
    · rfl
  rw [hi.recipients, hi.links, hl, hf] at w
  have w := w.noLink
  rw [msgs_ubx, (dRun_ubx_all (.idle d.ubx.prev) t s).2] at w
  rw [scan_eq_rxRun]
  exact w

-- an unconfigured device: a UBX message between two RTCM frames
example : (exRun [.listen 5, .subscribe 5 0x01 0x07, .rx (exFrame ++ ubxFrame 0x01 0x07 [1, 2] ++ exFrame)]).map
    (fun x => x.2.filterMap brief) = some [(5, [0x01, 0x07, 1, 2, 0, 0, 0])] := by decide +kernel

/-! ## C74: changing the role -/

/-- C74, base to rover: after `config_rover` nothing received makes the device write to any RTK interface any more. -/
theorem c74_base_to_rover {md : Mode} {d d' : Dev} {evs : List Ev} {es0 es : List Eff} {s : List Byte}
    (h : Reach md d evs es0) (hr : (configured evs).1 = .rover) (hs : d.step md (.rx s) = .ok (d', es)) :
    es.filterMap Eff.rtk? = [] := by
  refine List.eq_nil_iff_forall_not_mem.2 fun ⟨j, f⟩ hj => ?_
  have := ((c32_receiver_data h hs).2 j f hj).1
  rw [this] at hr
  cases hr

/-- C74 is false for rover to base, and for a rover moved to another link: data arriving on the old interface still goes to
the receiver. -/
theorem c74_refuted :
    (exRun [.configRover 7, .configBase 9 false, .rtkRx 7 [1, 2, 3]]).map (fun x => (x.2.filterMap Eff.receiver?).getLast?) =
      some (some [1, 2, 3]) ∧
    (exRun [.configRover 7, .configRover 8, .rtkRx 7 [1, 2, 3]]).map (fun x => (x.2.filterMap Eff.receiver?).getLast?) =
      some (some [1, 2, 3]) := by decide +kernel

/-- C74, what holds: an interface never used as a rover's link is never forwarded. -/
theorem c74_partial {md : Mode} {d d' : Dev} {evs : List Ev} {es0 es : List Eff} {j : Nat} {buf : List Byte}
    (h : Reach md d evs es0) (hr : ¬ RoverOn evs j) (hs : d.step md (.rtkRx j buf) = .ok (d', es)) : es = [] ∧ d' = d :=
  (c32_rtk_data h hs).2 hr

theorem Shows.of_nil {md : Mode} {rcv : Byte → Byte → List Nat} {lk : List Nat} {n n' : Nav} {es : List Eff}
    (h : Shows md rcv lk n [] n' es) : es = [] := by
  generalize hm : ([] : List Msg) = ms at h
  cases h with
  | nil => rfl
  | rtcm _ => cases hm
  | ubx _ _ _ _ => cases hm
  | sfrbx _ _ _ _ => cases hm

/-! ## C72: a zero-length UBX header -/

/-- C72 is false of the code: one UBX header announcing length 0 (e.g. any poll request seen on the line) and the whole
device is dead for ever: whatever follows, no listener is called, nothing is forwarded. -/
theorem c72_refuted {md : Mode} {d : Dev} {evs : List Ev} {es0 : List Eff}
    (h : Reach md d evs es0) (hu : d.ubx.parsingMessage = false) (hr : d.rtcm.parsingMessage = false) (c i : Byte) (s : List Byte) :
    ∃ d', d.step md (.rx (0xB5 :: 0x62 :: c :: i :: 0 :: 0 :: s)) = .ok (d', []) ∧ d'.ubx.parsingMessage = true := by
  have hd := h.idle hu hr
  -- everything the scanner says about such a stream
  have key : ∀ (base : Bool) (s : List Byte), ∃ l, dRun base (.idle d.ubx.prev) .idle (0xB5 :: 0x62 :: c :: i :: 0 :: 0 :: s) =
      (.opened (c :: i :: 0 :: 0 :: s), .idle, l) ∧ ∀ x ∈ l, x = (none, none) := by
    intro base s
    have e0 : dStep base (.idle d.ubx.prev) .idle 0xB5 = (.idle 0xB5, .idle, none, none) := by
      have k1 : rxStep (.idle d.ubx.prev) 0xB5 = (.idle 0xB5, none) := by
        simp only [rxStep]; rw [if_neg (by rintro ⟨_, h⟩; exact absurd h (by decide))]
      have k2 : rtStep .idle 0xB5 = (.idle, none) := rfl
      unfold dStep
      rw [if_neg (by simp [uOpen]), if_neg (by simp [rOpen]), k1, k2]
    have e1 : dStep base (.idle 0xB5) .idle 0x62 = (.opened [], .idle, none, none) := by
      have k1 : rxStep (.idle 0xB5) 0x62 = (.opened [], none) := rfl
      have k2 : rtStep .idle 0x62 = (.idle, none) := rfl
      unfold dStep
      rw [if_neg (by simp [uOpen]), if_neg (by simp [rOpen]), k1, k2]
    have e2 : rxStep (.opened [c, i, 0]) 0 = (.opened [c, i, 0, 0], none) := rfl
    have eb : ∀ q, dRun base (.idle d.ubx.prev) .idle (0xB5 :: 0x62 :: q) =
        ((dRun base (.opened []) .idle q).1, (dRun base (.opened []) .idle q).2.1,
          (none, none) :: (none, none) :: (dRun base (.opened []) .idle q).2.2) := by
      intro q; simp only [dRun, e0, e1]
    rw [eb, dRun_ubx_hdr, e2]
    simp only
    have hz : (0 : Byte).toNat + 256 * (0 : Byte).toNat = 0 := rfl
    rw [dRun_ubx]
    · rw [rxRun_zero c i 0 0 hz s []]
      refine ⟨_, rfl, ?_⟩
      intro x hx
      simp only [List.mem_cons, List.map_replicate] at hx
      rcases hx with h | h | h | h | h | h | h
      all_goals first | exact h | exact List.eq_of_mem_replicate h
    · intro q1 x q2 _
      rw [rxRun_zero c i 0 0 hz q1 []]; rfl
  cases hrun : d.step md (.rx (0xB5 :: 0x62 :: c :: i :: 0 :: 0 :: s)) with
  | ok x =>
    obtain ⟨d', es⟩ := x
    obtain ⟨a, -, w⟩ := readCb_shows hd hrun
    obtain ⟨l, hl, hn⟩ := key (d.role == .base) s
    rw [hl] at a w
    have hm : msgs l = [] := by
      clear hl w a
      induction l with
      | nil => rfl
      | cons x xs ih =>
        rw [hn x (by simp)]
        simp only [msgs, List.nil_append]
        exact ih fun y hy => hn y (by simp [hy])
    rw [hm] at w
    rw [w.of_nil]
    exact ⟨d', rfl, uOpen_iff a.ubx⟩
  | error e =>
    exfalso
    obtain ⟨pre, b, post, d1, e1, hs, hpre, he⟩ := readCb_err hrun
    obtain ⟨a1, s1, -⟩ := readCb_shows hd hpre
    rw [← s1.role] at a1
    obtain ⟨l, hl, hn⟩ := key (d1.role == .base) s
    rw [hs, dRun_append] at hl
    have hl2 := (Prod.mk.inj (Prod.mk.inj hl).2).2
    have hlr := (Prod.mk.inj (Prod.mk.inj hl).2).1
    have hit := hn (dStep (d1.role == .base) (dRun (d1.role == .base) (.idle d.ubx.prev) .idle pre).1
      (dRun (d1.role == .base) (.idle d.ubx.prev) .idle pre).2.1 b).2.2 (by rw [← hl2]; simp [dRun])
    rcases rxByte_err a1 he with ⟨-, p, hp, -⟩ | ⟨p, -, hp, -⟩ | ⟨-, -, bs, hbs, hl⟩
    · rw [hit] at hp; cases hp
    · rw [hit] at hp; cases hp
    · -- the RTCM parser never opens
      have : ∀ (base : Bool) (pre post : List Byte), 0xB5 :: 0x62 :: c :: i :: 0 :: 0 :: s = pre ++ post →
          (dRun base (.idle d.ubx.prev) .idle pre).2.1 = .idle := by
        intro base pre post hpp
        match pre, hpp with
        | [], _ => rfl
        | [x], hpp =>
          simp only [List.cons_append, List.cons.injEq] at hpp
          obtain ⟨rfl, -⟩ := hpp
          cases base <;> rfl
        | x :: y :: q, hpp =>
          simp only [List.cons_append, List.cons.injEq] at hpp
          obtain ⟨rfl, rfl, hpp⟩ := hpp
          have e0 : (dRun base (.idle d.ubx.prev) .idle (0xB5 :: 0x62 :: q)).2.1 = (dRun base (.opened []) .idle q).2.1 := by
            have k1 : rxStep (.idle d.ubx.prev) 0xB5 = (.idle 0xB5, none) := by
              simp only [rxStep]; rw [if_neg (by rintro ⟨_, h⟩; exact absurd h (by decide))]
            have k2 : rtStep .idle 0xB5 = (.idle, none) := rfl
            have e0 : dStep base (.idle d.ubx.prev) .idle 0xB5 = (.idle 0xB5, .idle, none, none) := by
              unfold dStep
              rw [if_neg (by simp [uOpen]), if_neg (by simp [rOpen]), k1, k2]
            have e1 : dStep base (.idle 0xB5) .idle 0x62 = (.opened [], .idle, none, none) := by
              have k1 : rxStep (.idle 0xB5) 0x62 = (.opened [], none) := rfl
              have k2 : rtStep .idle 0x62 = (.idle, none) := rfl
              unfold dStep
              rw [if_neg (by simp [uOpen]), if_neg (by simp [rOpen]), k1, k2]
            simp only [dRun, e0, e1]
          rw [e0, dRun_ubx]
          intro q1 z q2 hq
          have hz : (0 : Byte).toNat + 256 * (0 : Byte).toNat = 0 := rfl
          have hq1 : q1 ++ (z :: q2 ++ post) = c :: i :: 0 :: 0 :: s := by rw [hpp, hq]; simp
          match q1, hq1 with
          | [], _ => rfl
          | [x], _ => rfl
          | [x, y], _ => rfl
          | [x, y, w], _ => rfl
          | x :: y :: w :: v :: q3, hq1 =>
            simp only [List.cons_append, List.cons.injEq] at hq1
            obtain ⟨rfl, rfl, rfl, rfl, -⟩ := hq1
            have e2 : rxStep (.opened [x, y, 0]) 0 = (.opened [x, y, 0, 0], none) := rfl
            have e1 : rxRun (.opened []) (x :: y :: 0 :: 0 :: q3) =
              ((rxRun (.opened [x, y, 0, 0]) q3).1, none :: none :: none :: none :: (rxRun (.opened [x, y, 0, 0]) q3).2) := by
              simp only [rxRun, e2]; rfl
            rw [e1, rxRun_zero x y 0 0 hz q3 []]
            rfl
      rw [this _ pre (b :: post) hs] at hbs
      cases hbs

end Dev
end Ublox
