import Verif.Spec.Screen
import Verif.Props.Rtcm
import Verif.Props.DeviceCtor
import Verif.Props.Ubx
import Verif.Props.TimePrint

/-!
# C139 to C141: what the driver prints on the screen
-/

namespace Ublox
namespace Ubx

open UTCTime (decNat decInt)

/-- What a call prints, given what it completes. -/
def PrintsOk (u' : Ubx) (s : List Char) : Option Item → Prop
  | some (.good c i _) => s = if c = 0x0A ∧ i = 0x04 then banner u' else []
  | _ => s = []

theorem prints_sim {u u' : Ubx} {t : Tail} {b : Byte} {r : Bool} {ds : List Delivery} (hwf : WF u) (ha : Abs u t)
    (h : readCb u b = .ok (u', r, ds)) : ∃ s, prints u b = .ok s ∧ PrintsOk u' s (rxStep t b).2 := by
  obtain ⟨w1, w2, w3⟩ := hwf
  match t with
  | .idle p =>
    obtain ⟨hs, hst, hp⟩ := ha
    refine ⟨[], by unfold prints; rw [hs], ?_⟩
    have : (rxStep (.idle p) b).2 = none := by simp only [rxStep]; split <;> rfl
    rw [this]
    rfl
  | .opened [] =>
    obtain ⟨hst, hen, hs, hh⟩ := ha
    exact ⟨[], by unfold prints; rw [hs], rfl⟩
  | .opened [c] =>
    obtain ⟨hst, hen, hs, hh⟩ := ha
    exact ⟨[], by unfold prints; rw [hs], rfl⟩
  | .opened [c, i] =>
    obtain ⟨hst, hen, hs, hh⟩ := ha
    exact ⟨[], by unfold prints; rw [hs], rfl⟩
  | .opened [c, i, lo] =>
    obtain ⟨hst, hen, hs, hh, hc, hi, hl⟩ := ha
    by_cases h2 : 2048 < lo.toNat + 256 * b.toNat
    · have e : rxStep (.opened [c, i, lo]) b = (.idle b, some .tooLong) := by
        simp only [rxStep, List.cons_append, List.nil_append]; rw [if_pos h2]
      rw [e]
      exact ⟨[], by unfold prints; rw [hs], rfl⟩
    · have e : (rxStep (.opened [c, i, lo]) b).2 = none := by
        simp only [rxStep, List.cons_append, List.nil_append]; rw [if_neg h2]
        split
        · rfl
        · rw [if_neg (by simp)]
      rw [e]
      exact ⟨[], by unfold prints; rw [hs], rfl⟩
  | .opened (c :: i :: lo :: hi :: p) =>
    obtain ⟨hst, hen, hc, hi', hl, hle, hcase⟩ := ha
    rcases hcase with ⟨h0, hs, hh⟩ | ⟨hpl, hs, hh, hp⟩ | ⟨h0, hpl, hs, hp⟩ | ⟨h0, hpl, hs, hp⟩
    · have e : rxStep (.opened (c :: i :: lo :: hi :: p)) b = (.opened (c :: i :: lo :: hi :: (p ++ [b])), none) := by
        simp only [rxStep, List.cons_append]; rw [if_neg (by omega), if_pos (by omega)]
      rw [e]
      exact ⟨[], by unfold prints; rw [hs], rfl⟩
    · have e : rxStep (.opened (c :: i :: lo :: hi :: p)) b = (.opened (c :: i :: lo :: hi :: (p ++ [b])), none) := by
        simp only [rxStep, List.cons_append]
        rw [if_neg (by omega), if_neg (by omega), if_neg (by simp; omega)]
      rw [e]
      exact ⟨[], by unfold prints; rw [hs], rfl⟩
    · have e : rxStep (.opened (c :: i :: lo :: hi :: p)) b = (.opened (c :: i :: lo :: hi :: (p ++ [b])), none) := by
        simp only [rxStep, List.cons_append]
        rw [if_neg (by omega), if_neg (by omega), if_neg (by simp; omega)]
      rw [e]
      exact ⟨[], by unfold prints; rw [hs], rfl⟩
    · unfold readCb at h
      simp only [hs] at h
      unfold afterSwitch at h
      rw [if_pos rfl] at h
      have hbody : u.inMsg.take u.length = p.take u.length := by
        rw [← hp, List.take_append_of_le_length (by simp; omega), List.take_take, Nat.min_self]
      have hd : p = p.take u.length ++ [u.ckA] := by rw [← hbody]; exact hp.symm
      have hlp : (p.take u.length).length = u.length := by simp; omega
      have eD : ∀ (v : Ubx), v.inMsg = u.inMsg → v.cls = c → v.typ = i → v.length = u.length →
          calcChecksum v.cls v.typ v.length v.inMsg =
            .ok (fletcherA (c :: i :: lo :: hi :: p.take u.length),
                 fletcherB (c :: i :: lo :: hi :: p.take u.length)) := by
        intro v h1 h2 h3 h4
        rw [h1, h2, h3, h4, calcChecksum_ok c i lo hi u.length u.inMsg (by omega) hl, hbody]
      have e : rxStep (.opened (c :: i :: lo :: hi :: p)) b = (.idle b, some
          (if u.ckA = fletcherA (c :: i :: lo :: hi :: p.take u.length) ∧
              b = fletcherB (c :: i :: lo :: hi :: p.take u.length)
           then .good c i (p.take u.length) else .badChecksum)) := by
        simp only [rxStep, List.cons_append]
        rw [if_neg (by omega), if_neg (by omega), if_pos (by simp; omega), ← hl]
        have t1 : (p ++ [b]).take u.length = p.take u.length := List.take_append_of_le_length (by omega)
        have t2 : (p ++ [b]).drop u.length = [u.ckA, b] := by
          rw [hd]
          generalize p.take u.length = q at *
          rw [List.append_assoc, ← hlp, List.drop_left]; rfl
        rw [t1, t2]
        simp
      rw [e]
      clear hp
      have hin : u.inMsg.take (p.take u.length).length = p.take u.length := by rw [hlp]; exact hbody
      generalize hq : p.take u.length = q at *
      obtain ⟨⟨v, ok, ds'⟩, hdec, h⟩ := bind_ok.1 h
      unfold decodeMessage at hdec
      rw [eD _ rfl hc hi' rfl] at hdec
      simp only [ok_bind] at hdec
      have hsay : prints u b = (do
          let v := { u with ckB := b, state := PState.gotCkB }
          let (a, b) ← calcChecksum v.cls v.typ v.length v.inMsg
          if a ≠ v.ckA ∨ b ≠ v.ckB then .ok []
          else do
            let w ← handleMessage { v with numMsgs := (v.numMsgs + 1) % 2 ^ 32 }
            .ok (if v.cls = CLASS_MON ∧ v.typ = MON_VER then banner w else [])) := by
        unfold prints; rw [hs]
      rw [hsay]
      dsimp only
      rw [eD _ rfl hc hi' rfl]
      simp only [ok_bind]
      split at hdec
      · rename_i hbad
        rw [if_pos hbad, if_neg (by rintro ⟨h1, h2⟩; simp [h1, h2] at hbad)]
        exact ⟨_, rfl, rfl⟩
      · rename_i hgood
        rw [if_neg hgood]
        obtain ⟨w, hw, hdec⟩ := bind_ok.1 hdec
        cases hdec
        rw [hw]
        simp only [if_true, Except.ok.injEq, Prod.mk.injEq] at h
        obtain ⟨rfl, rfl, rfl⟩ := h
        have hg := not_or.1 hgood
        rw [if_pos ⟨(Decidable.of_not_not hg.1).symm, (Decidable.of_not_not hg.2).symm⟩]
        refine ⟨_, rfl, ?_⟩
        show (if u.cls = CLASS_MON ∧ u.typ = MON_VER then banner v else []) = _
        rw [hc, hi']
        rfl

theorem feedPrints_append (u : Ubx) (a b : List Byte) : feedPrints u (a ++ b) = (do
    let (u1, s1) ← feedPrints u a
    let (u2, s2) ← feedPrints u1 b
    .ok (u2, s1 ++ s2)) := by
  induction a generalizing u with
  | nil =>
    show feedPrints u b = (do
      let (u2, s2) ← feedPrints u b
      .ok (u2, [] ++ s2))
    cases feedPrints u b <;> rfl
  | cons x xs ih =>
    show (do
      let s ← prints u x
      let (u', _, _) ← readCb u x
      let (u'', ss) ← feedPrints u' (xs ++ b)
      .ok (u'', s :: ss)) = (do
        let (u1, s1) ← (do
          let s ← prints u x
          let (u', _, _) ← readCb u x
          let (u'', ss) ← feedPrints u' xs
          .ok (u'', s :: ss))
        let (u2, s2) ← feedPrints u1 b
        .ok (u2, s1 ++ s2))
    cases prints u x with
    | error e => rfl
    | ok s =>
      simp only [ok_bind]
      cases readCb u x with
      | error e => rfl
      | ok r =>
        obtain ⟨u1, r1, d1⟩ := r
        simp only [ok_bind]
        rw [ih]
        cases feedPrints u1 xs with
        | error e => rfl
        | ok r =>
          simp only [ok_bind]
          cases feedPrints r.1 b <;> rfl

/-- A stream that is read is also commented on, item by item. -/
theorem feedPrints_sim {u u' : Ubx} {t : Tail} {bs : List Byte} {outs : List Out} (hwf : WF u) (ha : Abs u t)
    (h : feed u bs = .ok (u', outs)) :
    ∃ ss, feedPrints u bs = .ok (u', ss) ∧ All2 (fun it s => it = none → s = ([] : List Char)) (rxRun t bs).2 ss := by
  induction bs generalizing u t outs with
  | nil =>
    simp only [feed_nil, Except.ok.injEq, Prod.mk.injEq] at h
    obtain ⟨rfl, rfl⟩ := h
    exact ⟨[], rfl, .nil⟩
  | cons b bs ih =>
    rw [feed_cons] at h
    obtain ⟨⟨u1, r, ds⟩, h1, h⟩ := bind_ok.1 h
    obtain ⟨⟨u2, o2⟩, h2, h⟩ := bind_ok.1 h
    cases h
    obtain ⟨s, es, hs⟩ := prints_sim hwf ha h1
    obtain ⟨ha1, hs1⟩ := readCb_sim hwf ha h1
    obtain ⟨ss, ess, hss⟩ := ih hs1.wf ha1 h2
    refine ⟨s :: ss, ?_, .cons (fun e => ?_) hss⟩
    · show (do
        let s ← prints u b
        let (u', _, _) ← readCb u b
        let (u'', ss) ← feedPrints u' bs
        .ok (u'', s :: ss)) = _
      rw [es, h1]
      simp only [ok_bind]
      rw [ess]
      rfl
    · rw [e] at hs
      exact hs

theorem silent_of {ss : List (List Char)} {n : Nat}
    (h : All2 (fun (it : Option Item) s => it = none → s = ([] : List Char)) (List.replicate n none) ss) :
    ss = List.replicate n [] := by
  induction n generalizing ss with
  | zero => cases h; rfl
  | succ n ih =>
    cases h with
    | cons h1 h2 => rw [h1 rfl, ih h2]; rfl

/-- What a frame makes the parser write. -/
theorem frame_prints {u u' : Ubx} {hist : List Byte} {outs : List Out} (h : Reach u hist) (hp : u.parsingMessage = false)
    (c i : Byte) (p : List Byte) (h1 : 1 ≤ p.length) (h2 : p.length ≤ 2048)
    (hf : feed u (ubxFrame c i p) = .ok (u', outs)) :
    ∃ s, feedPrints u (ubxFrame c i p) = .ok (u', List.replicate (p.length + 7) [] ++ [s]) ∧
      s = if c = 0x0A ∧ i = 0x04 then banner u' else [] := by
  obtain ⟨last, ht, ha⟩ := idle_of_reach h hp
  have hw := h.inv.wf
  have er := rxRun_ubxFrame last c i p h1 h2
  rw [ubxFrame_eq] at hf er ⊢
  generalize hck : fletcherA (ubxBody c i p) = ka at *
  generalize hcb : fletcherB (ubxBody c i p) = kb at *
  have hm := feed_mid u ha.idle hw.inLen c i _ _ ka p (len_bytes p.length (by omega)).symm h1 h2
  generalize (0xB5 :: 0x62 :: c :: i :: BitVec.ofNat 8 p.length :: BitVec.ofNat 8 (p.length / 256) :: (p ++ [ka]) : List Byte) =
    pre at *
  rw [feed_append, hm] at hf
  simp only [ok_bind] at hf
  obtain ⟨⟨u2, o2⟩, h2', hf⟩ := bind_ok.1 hf
  cases hf
  rw [feed_cons] at h2'
  obtain ⟨⟨u3, r, ds⟩, h3, h2'⟩ := bind_ok.1 h2'
  simp only [feed_nil, ok_bind] at h2'
  cases h2'
  have f := feed_sim hw ha hm
  obtain ⟨ss, ess, hss⟩ := feedPrints_sim hw ha hm
  rw [rxRun_append] at er
  have er2 := congrArg Prod.snd er
  simp only [rxRun] at er2
  obtain ⟨er3, er4⟩ := List.append_inj' er2 rfl
  rw [er3] at hss
  have er4 := List.head_eq_of_cons_eq er4
  obtain ⟨s, es, hs⟩ := prints_sim f.wf f.abs h3
  rw [er4] at hs
  refine ⟨s, ?_, ?_⟩
  · rw [feedPrints_append, ess, silent_of hss]
    simp only [ok_bind]
    show (do
      let (u2, s2) ← (do
        let s ← prints (mid u c i p ka) kb
        let (u', _, _) ← readCb (mid u c i p ka) kb
        let (u'', ss) ← feedPrints u' []
        .ok (u'', s :: ss))
      .ok (u2, _ ++ s2)) = _
    rw [es, h3]
    rfl
  · exact hs

/-! ## C139 -/

/-- **C139.** When the receiver sends its version (as in C15), the screen shows, once the last byte has arrived, the module's
name and the protocol version, and nothing else. -/
theorem c139_banner_partial {u : Ubx} {hist : List Byte} (h : Reach u hist) (hp : u.parsingMessage = false)
    (p : List Byte) (h1 : 1 ≤ p.length) (h2 : p.length ≤ 2048) (a b : Nat) (maj min name : List Byte)
    (hv : VersionText (p ++ u.inMsg.drop p.length) a b maj min name) :
    ∃ u', feedPrints u (ubxFrame 0x0A 0x04 p) =
      .ok (u', List.replicate (p.length + 7) [] ++ [connectedText name (decVal maj) (decVal min)]) := by
  obtain ⟨u', outs, hf, e1, e2, e3, -⟩ := c15_version_partial h hp p h1 h2 a b maj min name hv
  obtain ⟨s, es, e4⟩ := frame_prints h hp 0x0A 0x04 p h1 h2 hf
  refine ⟨u', ?_⟩
  have : banner u' = connectedText name (decVal maj) (decVal min) := by
    unfold banner connectedText
    have hn : u'.modName.takeWhile (· ≠ 0) = name := by
      rw [← List.take_append_drop (name.length + 1) u'.modName, e3, List.append_assoc,
        List.takeWhile_append_of_pos fun d hd => by simpa using hv.nameZ d hd]
      simp
    rw [hn, e1, e2]
    rfl
  rw [es, e4, if_pos ⟨rfl, rfl⟩, this]

theorem banner_ne (u : Ubx) : banner u ≠ [] := by
  intro h
  cases h

/-- **C139, streams.** For every stream, after every history: the parser prints only at bytes that complete a good version
message, so that the number of banners is the number of those messages. -/
theorem c139_count {u u' : Ubx} {hist bs : List Byte} {outs : List Out} (h : Reach u hist)
    (hf : feed u bs = .ok (u', outs)) : ∃ ss, feedPrints u bs = .ok (u', ss) ∧ ss.length = bs.length ∧
      (scan 0 (hist ++ bs)).1.countP isVersion =
        (scan 0 hist).1.countP isVersion + ss.countP (fun s => s ≠ []) := by
  induction bs generalizing u hist outs with
  | nil =>
    simp only [feed_nil, Except.ok.injEq, Prod.mk.injEq] at hf
    obtain ⟨rfl, rfl⟩ := hf
    exact ⟨[], rfl, rfl, by simp⟩
  | cons b bs ih =>
    rw [feed_cons] at hf
    obtain ⟨⟨u1, r, ds⟩, h1, hf⟩ := bind_ok.1 hf
    obtain ⟨⟨u2, o2⟩, h2, hf⟩ := bind_ok.1 hf
    cases hf
    obtain ⟨s, es, hs⟩ := prints_sim h.inv.wf h.inv.abs h1
    obtain ⟨ss, ess, el, ec⟩ := ih (h.byte h1) h2
    have en : (scan 0 (hist ++ [b])).1 = (scan 0 hist).1 ++ (rxStep (tailOf hist) b).2.toList := by
      rw [scan_zero, scan_zero]
      exact itemsOf_snoc hist b
    refine ⟨s :: ss, ?_, by simp [el], ?_⟩
    · show (do
        let s ← prints u b
        let (u', _, _) ← readCb u b
        let (u'', ss) ← feedPrints u' bs
        .ok (u'', s :: ss)) = _
      rw [es, h1]
      simp only [ok_bind]
      rw [ess]
      rfl
    · rw [List.append_assoc] at ec
      rw [show hist ++ b :: bs = hist ++ ([b] ++ bs) from rfl, ec, en, List.countP_append, List.countP_cons, Nat.add_assoc]
      congr 1
      rw [Nat.add_comm]
      congr 1
      generalize (rxStep (tailOf hist) b).2 = it at hs ⊢
      match it with
      | none => rw [show s = _ from hs]; rfl
      | some .badChecksum => rw [show s = _ from hs]; rfl
      | some .tooLong => rw [show s = _ from hs]; rfl
      | some (.good c i p) =>
        rw [show s = if c = 0x0A ∧ i = 0x04 then banner u1 else [] from hs]
        by_cases hc : c = 0x0A ∧ i = 0x04
        · rw [if_pos hc]
          obtain ⟨rfl, rfl⟩ := hc
          simp [banner_ne, isVersion]
        · rw [if_neg hc]
          simp only [Option.toList_some, List.countP_singleton, isVersion]
          simp
          exact fun h1 h2 => hc ⟨h1, h2⟩

theorem exVer_text : VersionText (exVer ++ exU.inMsg.drop exVer.length) 0 3 [0x31, 0x38] [0x30, 0x30]
    [0x4E, 0x45, 0x4F, 0x2D, 0x4D, 0x38, 0x50] := by
  constructor
  case verOnly => unfold TextAt; decide +kernel
  case modOnly => unfold TextAt; decide +kernel
  all_goals first | decide | (unfold TextAt; decide +kernel)

/-- The version message of a receiver, and what the screen shows. -/
example : ∃ u' ss, feedPrints exU (ubxFrame 0x0A 0x04 exVer) = .ok (u', ss) ∧
    ss.flatten = "Connected:\nModule: NEO-M8P\nProtocol Version: 18.0\n\n".toList := by
  obtain ⟨u', e⟩ := c139_banner_partial exU_reach exU_idle exVer (by decide +kernel) (by decide +kernel) _ _ _ _ _ exVer_text
  refine ⟨u', _, e, ?_⟩
  simp only [List.flatten_append, List.flatten_replicate_nil, List.nil_append]
  decide +kernel

end Ubx

namespace Rtcm

/-- The text is printed exactly when a frame is complete and its check value is wrong. -/
theorem prints_eq {r r' : Rtcm} {b : Byte} {cs : List RtcmCall}
    (h : readByte { r with listeners := [0], newData := false } b = .ok (r', cs)) :
    prints r b = .ok (if r'.newData = true ∧ cs = [] then crcLine else []) := by
  unfold readByte at h
  obtain ⟨q, hq, h⟩ := bind_ok.1 h
  have hsw : ∀ q : Rtcm, switch { r with listeners := [0], newData := false } b = .ok q →
      switch r b = .ok { q with listeners := r.listeners, newData := r.newData } ∧ q.listeners = [0] ∧ q.newData = false := by
    intro q hq
    unfold switch at hq ⊢
    cases hst : r.state <;> simp only [hst, store, restart] at hq ⊢
    all_goals
      first
      | (by_cases hb : b = START_BYTE
         · simp only [if_pos hb] at hq ⊢
           obtain ⟨w, hw, hq⟩ := bind_ok.1 hq
           cases hq
           rw [hw]
           exact ⟨rfl, rfl, rfl⟩
         · simp only [if_neg hb] at hq ⊢
           cases hq
           exact ⟨rfl, rfl, rfl⟩)
      | (obtain ⟨w, hw, hq⟩ := bind_ok.1 hq
         obtain ⟨w2, hw2, hw⟩ := bind_ok.1 hw
         rw [hw2]
         cases hw
         simp only [ok_bind] at hq ⊢
         repeat' split at hq
         all_goals (clear h; cases hq; refine ⟨?_, ?_, ?_⟩ <;> (repeat' split) <;> first | rfl | contradiction | (simp_all; done) | (simp_all; omega)))
      | (cases hq; exact ⟨rfl, rfl, rfl⟩)
  obtain ⟨hs, hl, hn⟩ := hsw q hq
  unfold prints
  rw [hs]
  simp only [ok_bind]
  split at h
  · rename_i hst
    rw [if_pos hst]
    unfold decode at h
    obtain ⟨⟨v, c⟩, hd, h⟩ := bind_ok.1 h
    cases h
    obtain ⟨ok, hc, hd⟩ := bind_ok.1 hd
    have hc' : checkCrc { q with listeners := r.listeners, newData := true, state := .start, startMsg := false, endMsg := true, messageLen := q.head } = .ok ok := hc
    rw [hc']
    simp only [ok_bind]
    cases ok
    · simp only [Bool.false_eq_true, if_false] at hd
      cases hd
      rfl
    · simp only [if_true] at hd
      cases hd
      simp [hl]
  · rename_i hst
    rw [if_neg hst]
    cases h
    simp [hn]

/-- The text goes with the event. -/
theorem prints_sim {r r' : Rtcm} {t : RTail} {b : Byte} {cs : List RtcmCall} (hl : r.inBuf.length = 1024) (ha : Abs r t)
    (h : readByte r b = .ok (r', cs)) :
    ∃ s, prints r b = .ok s ∧ (∀ f, (rtStep t b).2 = some (.frame f) → (CrcValid f ∧ s = []) ∨ (¬ CrcValid f ∧ s = crcLine)) ∧
      ((∀ f, (rtStep t b).2 ≠ some (.frame f)) → s = []) := by
  have ha' : Abs { r with listeners := [0], newData := false } t := by cases t <;> exact ha
  rcases readByte_cases b (r := { r with listeners := [0], newData := false }) hl ha' with ⟨bs, rfl, hb, -⟩ | ⟨q, c, hq, -, hs, -⟩
  · have := readByte_oob b hl ha (by omega)
    rw [h] at this
    cases this
  · refine ⟨_, prints_eq hq, fun f hf => ?_, fun hf => ?_⟩
    · obtain ⟨h1, h2 | h2⟩ := hs.frame f hf
      · exact .inl ⟨h2.1, by rw [h2.2, if_neg (by simp)]⟩
      · exact .inr ⟨h2.1, by rw [h2.2, if_pos ⟨h1, rfl⟩]⟩
    · obtain ⟨-, h2⟩ := hs.none hf
      have h2 : q.newData = false := h2
      rw [h2, if_neg (by simp)]

open Classical in
theorem feedPrints_sim {r r' : Rtcm} {t : RTail} {s : List Byte} {css : List (List RtcmCall)}
    (hl : r.inBuf.length = 1024) (ha : Abs r t) (h : readCb r s = .ok (r', css)) :
    ∃ ss, feedPrints r s = .ok (r', ss) ∧ ss.length = s.length ∧ (∀ x ∈ ss, x = [] ∨ x = crcLine) ∧
      ss.count crcLine = (evFrames (rtRun t s).2).countP fun f => ¬ CrcValid f := by
  induction s generalizing r t css with
  | nil =>
    cases h
    exact ⟨[], rfl, rfl, by simp, rfl⟩
  | cons b bs ih =>
    unfold readCb at h
    obtain ⟨⟨r1, c⟩, h1, h⟩ := bind_ok.1 h
    obtain ⟨⟨r2, cs⟩, h2, h⟩ := bind_ok.1 h
    cases h
    obtain ⟨x, hx, hx1, hx2⟩ := prints_sim hl ha h1
    have hnext : Abs r1 (rtStep t b).1 ∧ r1.inBuf.length = 1024 := by
      rcases readByte_cases b hl ha with ⟨_, -, -, he⟩ | ⟨q, c', hq, haq, hs, -⟩
      · rw [h1] at he; cases he
      · rw [h1] at hq
        cases hq
        exact ⟨haq, hs.len⟩
    obtain ⟨ss, e, el, em, ec⟩ := ih hnext.2 hnext.1 h2
    have ne : ([] : List Char) ≠ crcLine := by decide
    refine ⟨x :: ss, ?_, by simp [el], ?_, ?_⟩
    · unfold feedPrints
      rw [hx, h1]
      simp only [ok_bind]
      rw [e]
      rfl
    · intro y hy
      rcases List.mem_cons.1 hy with rfl | hy
      · by_cases hf : ∃ f, (rtStep t b).2 = some (.frame f)
        · obtain ⟨f, hf⟩ := hf
          rcases hx1 f hf with h | h
          · exact .inl h.2
          · exact .inr h.2
        · exact .inl (hx2 fun f hh => hf ⟨f, hh⟩)
      · exact em y hy
    · rw [List.count_cons, ec]
      show _ = (evFrames ((rtStep t b).2 :: (rtRun (rtStep t b).1 bs).2)).countP _
      generalize (rtStep t b).2 = ev at hx1 hx2 ⊢
      match ev with
      | some (.frame f) =>
        have e : ∀ evs, evFrames (some (.frame f) :: evs) = f :: evFrames evs := fun _ => rfl
        rw [e, List.countP_cons]
        rcases hx1 f rfl with ⟨hv, rfl⟩ | ⟨hv, rfl⟩
        · simp [hv, ne.symm]
        · simp [hv]
      | some .zeroLen => rw [hx2 (by simp)]; simp [ne]; rfl
      | none => rw [hx2 (by simp)]; simp [ne]; rfl

open Classical in
/-- **C140.** From every state between frames, for every stream of correction bytes: each call prints the line "RTCM not pass CRC
check" or nothing, and the number of lines is the number of complete frames of the stream whose check value is wrong.  (Applied to
each beginning of a stream this says which bytes print.) -/
theorem c140_stream {r r' : Rtcm} {hist s : List Byte} {css : List (List RtcmCall)} (h : Reach r hist)
    (hp : r.parsingMessage = false) (hr : readCb r s = .ok (r', css)) :
    ∃ ss, feedPrints r s = .ok (r', ss) ∧ ss.length = s.length ∧ (∀ x ∈ ss, x = [] ∨ x = crcLine) ∧
      ss.count crcLine = (rtcmScan s).1.countP fun f => ¬ CrcValid f := by
  obtain ⟨ss, e, el, em, ec⟩ := feedPrints_sim h.inv.len (abs_idle h hp) hr
  refine ⟨ss, e, el, em, ?_⟩
  rw [ec, scan_eq_rtRun s.length s (Nat.le_refl _)]

/-- A frame with a wrong check value, noise, and a good frame: one line, after the first frame. -/
example : (match feedPrints (init (List.replicate 1024 0) 0 0 0) ([0xD3, 0, 1, 7, 1, 2, 3, 9, 9] ++ [0xD3, 0x00, 0x01, 0x00, 0x0A, 0x18, 0x8D]) with
    | .ok (_, ss) => some ss
    | .error _ => none) = some (List.replicate 6 [] ++ [crcLine] ++ List.replicate (2 + 7) []) := by decide +kernel

end Rtcm

namespace Dev

open Nav (Mode)
open UTCTime (decNat)

/-- The effects in what an observer sees. -/
def effs (l : List Seen) : List Eff := l.filterMap fun | .eff e => some e | .text _ => none

theorem effs_map (l : List Eff) : effs (l.map .eff) = l := by
  induction l with
  | nil => rfl
  | cons a l ih => exact congrArg (a :: ·) ih

theorem effs_append (a b : List Seen) : effs (a ++ b) = effs a ++ effs b := List.filterMap_append

/-- The loop with its texts is the loop. -/
theorem tryTrace_effs (md : Mode) : ∀ (ss : List Ubx.Sched) (tries : Nat) (d : Dev), tryConnect md tries d ss =
    (tryTrace md tries d ss).map fun o => o.map fun p => (p.1, effs p.2.1, p.2.2.1, p.2.2.2)
  | [], tries, d => by
    unfold tryConnect tryTrace
    split <;> rfl
  | s :: rest, tries, d => by
    unfold tryConnect tryTrace
    by_cases ht : tries + 1 < MAX_NUM_TRIES
    · rw [if_pos ht, if_pos ht]
      dsimp only
      cases hg : getVersion md d s with
      | error e => rfl
      | ok o =>
        simp only [ok_bind]
        match o with
        | none => rfl
        | some (d1, e1, true) => simp [Except.map, effs_map]
        | some (d1, e1, false) =>
          dsimp only
          rw [tryTrace_effs md rest (tries + 1) d1]
          cases tryTrace md (tries + 1) d1 rest with
          | error e => rfl
          | ok o =>
            match o with
            | none => rfl
            | some (d2, e2, t, ss2) =>
              simp [Except.map, effs_map, effs_append, bind, Except.bind]
              rfl
    · rw [if_neg ht, if_neg ht]
      rfl

theorem getVersion_writes {md : Mode} {d d' : Dev} {s : Ubx.Sched} {es : List Eff} {r : Bool}
    (h : getVersion md d s = .ok (some (d', es, r))) : es ≠ [] := by
  unfold getVersion at h
  obtain ⟨⟨u, w⟩, -, h⟩ := bind_ok.1 h
  obtain ⟨⟨d1, e1⟩, -, h⟩ := bind_ok.1 h
  obtain ⟨o, -, h⟩ := bind_ok.1 h
  match o, h with
  | some (d2, _, [], e2), h =>
    obtain ⟨⟨d3, e3⟩, -, h⟩ := bind_ok.1 h
    cases h
    simp

theorem retry_one : retryText 1 = announces 2 := by decide +kernel

theorem retry_two : retryText 2 = announces 3 := by decide +kernel

/-- What an observer of the constructor sees before the configuration is written. -/
theorem ctor_trace {md : Mode} {u : Ubx} {r g : Rtcm} {ss : List Ubx.Sched} {res : Option Dev} {es : List Eff}
    (hu : FreshUbx u) (hr : FreshRtcm r) (hg : FreshRtcm g)
    (h : construct md (start u r g) ss = .ok (some (res, es))) :
    ∃ d tr t, tryTrace md 0 (start u r g) ss = .ok (some (d, tr, t, [])) ∧
      ((ss.length = 1 ∧ res ≠ none ∧ tr = [poll]) ∨
       (ss.length = 2 ∧ res ≠ none ∧ tr = [poll, .text (announces 2), poll]) ∨
       (ss.length = 2 ∧ res = none ∧ tr = [poll, .text (announces 2), poll, .text (announces 3)])) := by
  have hes := (c19_constructor hu hr hg h).2.2.2
  generalize start u r g = d0 at *
  unfold construct at h
  obtain ⟨o, h1, h⟩ := bind_ok.1 h
  match o, h1, h with
  | none, h1, h => cases h
  | some (d1, e1, t, x :: xs), h1, h => cases h
  | some (d1, e1, t, []), h1, h =>
    have he : (res = none ↔ t = MAX_NUM_TRIES) ∧ e1 = List.replicate ss.length (.toReceiver (ubxFrame 0x0A 0x04 [])) := by
      dsimp only at h
      split at h
      · rename_i ht
        cases h
        exact ⟨⟨fun _ => ht, fun _ => rfl⟩, by simpa using hes⟩
      · rename_i ht
        obtain ⟨⟨d2, e2⟩, hc, h⟩ := bind_ok.1 h
        cases h
        refine ⟨⟨fun hc => (by cases hc), fun hc => absurd hc ht⟩, ?_⟩
        have : e2.length = 1 := by
          unfold command at hc
          obtain ⟨⟨u2, w⟩, -, hc⟩ := bind_ok.1 hc
          cases hc
          rfl
        exact (List.append_inj' hes (by simp [this])).1
    obtain ⟨hn, he⟩ := he
    rcases tryConnect_cases h1 with ⟨s, rfl, rfl, g1⟩ | ⟨s1, s2, dm, ea, eb, rr, rfl, rfl, g1, g2, rfl⟩
    · refine ⟨d1, [poll], 1, ?_, .inl ⟨rfl, fun hc => (by cases hn.1 hc), rfl⟩⟩
      unfold tryTrace
      rw [if_pos (by decide)]
      dsimp only
      rw [g1, he]
      rfl
    · have na := getVersion_writes g1
      have nb := getVersion_writes g2
      obtain ⟨rfl, rfl⟩ : ea = [.toReceiver (ubxFrame 0x0A 0x04 [])] ∧ eb = [.toReceiver (ubxFrame 0x0A 0x04 [])] := by
        match ea, eb, na, nb, he with
        | [a], [b], _, _, he =>
          have he : [a, b] = [.toReceiver (ubxFrame 0x0A 0x04 []), .toReceiver (ubxFrame 0x0A 0x04 [])] := he
          simpa using he
        | a :: a2 :: as, b :: bs, _, _, he =>
          have := congrArg List.length he
          simp at this
        | [a], b :: b2 :: bs, _, _, he =>
          have := congrArg List.length he
          simp at this
      have step : tryTrace md 0 d0 [s1, s2] = (do
          match ← tryTrace md 1 dm [s2] with
          | none => .ok none
          | some (d2, e2, t, ss2) => .ok (some (d2, [poll] ++ .text (retryText 1) :: e2, t, ss2))) := by
        conv_lhs => unfold tryTrace
        rw [if_pos (by decide)]
        dsimp only
        rw [g1]
        rfl
      cases rr
      · refine ⟨d1, [poll, .text (announces 2), poll, .text (announces 3)], 3, ?_, .inr (.inr ⟨rfl, hn.2 rfl, rfl⟩)⟩
        have e2 : tryTrace md 1 dm [s2] = .ok (some (d1, [poll, .text (retryText 2)], 3, [])) := by
          have e3 : tryTrace md 2 d1 [] = .ok (some (d1, [], 3, [])) := by
            unfold tryTrace
            rw [if_neg (by decide)]
          unfold tryTrace
          rw [if_pos (by decide)]
          dsimp only
          rw [g2]
          simp only [ok_bind]
          rw [e3]
          rfl
        rw [step, e2, retry_one, retry_two]
        rfl
      · refine ⟨d1, [poll, .text (announces 2), poll], 2, ?_, .inr (.inl ⟨rfl, fun hc => (by cases hn.1 hc), rfl⟩)⟩
        have e2 : tryTrace md 1 dm [s2] = .ok (some (d1, [poll], 2, [])) := by
          unfold tryTrace
          rw [if_pos (by decide)]
          dsimp only
          rw [g2]
          rfl
        rw [step, e2, retry_one]
        rfl

theorem announces_inj {m n : Nat} (h : announces m = announces n) : m = n := by
  unfold announces at h
  exact UTCTime.decNat_inj (List.append_cancel_left (List.append_cancel_right h))

/-- **C141, what holds.** If the constructor returns, each line "Trying again (n out of 3)" is directly followed by the `n`-th
version poll. -/
theorem c141_partial {md : Mode} {u : Ubx} {r g : Rtcm} {ss : List Ubx.Sched} {d : Dev} {es : List Eff}
    (hu : FreshUbx u) (hr : FreshRtcm r) (hg : FreshRtcm g)
    (h : construct md (start u r g) ss = .ok (some (some d, es))) :
    ∃ d1 tr t, tryTrace md 0 (start u r g) ss = .ok (some (d1, tr, t, [])) ∧ Truthful tr ∧
      (ss.length = 2 → Seen.text (announces 2) ∈ tr) := by
  obtain ⟨d1, tr, t, e, hc⟩ := ctor_trace hu hr hg h
  refine ⟨d1, tr, t, e, ?_⟩
  rcases hc with ⟨hl, -, rfl⟩ | ⟨hl, -, rfl⟩ | ⟨-, hc, -⟩
  · refine ⟨?_, fun h2 => by omega⟩
    intro a b n he
    match a with
    | [] => cases he
    | [x] => cases he
    | x :: y :: a =>
      simp only [List.cons_append, List.cons.injEq] at he
      have := congrArg List.length he.2
      simp at this
  · refine ⟨?_, fun _ => by simp⟩
    intro a b n he
    match a with
    | [] => cases he
    | [x] =>
      simp only [List.cons_append, List.nil_append, List.cons.injEq, Seen.text.injEq] at he
      obtain ⟨rfl, h2, rfl⟩ := he
      have := announces_inj h2
      subst this
      exact ⟨⟨[], rfl⟩, [poll], rfl, rfl, by simp⟩
    | [x, y] => cases he
    | x :: y :: z :: a =>
      simp only [List.cons_append, List.cons.injEq] at he
      have := congrArg List.length he.2.2.2
      simp at this
  · cases hc

/-- **C141 is false of the code**: whenever the constructor throws, the last thing the screen shows is "Trying again (3 out of
3)", and no poll follows. -/
theorem c141_refuted {md : Mode} {u : Ubx} {r g : Rtcm} {ss : List Ubx.Sched} {es : List Eff}
    (hu : FreshUbx u) (hr : FreshRtcm r) (hg : FreshRtcm g)
    (h : construct md (start u r g) ss = .ok (some (none, es))) :
    ∃ d1 tr t, tryTrace md 0 (start u r g) ss = .ok (some (d1, tr ++ [.text (announces 3)], t, [])) ∧
      ¬ Truthful (tr ++ [.text (announces 3)]) ∧ tr = [poll, .text (announces 2), poll] := by
  obtain ⟨d1, tr, t, e, hc⟩ := ctor_trace hu hr hg h
  rcases hc with ⟨hl, hc, rfl⟩ | ⟨hl, hc, rfl⟩ | ⟨-, -, rfl⟩
  · exact absurd rfl hc
  · exact absurd rfl hc
  · refine ⟨d1, [poll, .text (announces 2), poll], t, e, fun ht => ?_, rfl⟩
    obtain ⟨⟨rest, hr⟩, -⟩ := ht _ _ _ rfl
    cases hr

/-- Construction answered at the second poll, and never answered (as in C19). -/
example : (∃ d es, construct .strict exStart [⟨[], [([1, 2], 1000)], []⟩, exSched] = .ok (some (some d, es))) ∧
    ∃ es, construct .strict exStart [⟨[], [([1, 2], 1000)], []⟩, ⟨[], [([], 5), ([3], 2000)], []⟩] = .ok (some (none, es)) := by
  constructor
  · have : ctorResult [⟨[], [([1, 2], 1000)], []⟩, exSched] = some (true, [8, 8, 97]) := by decide +kernel
    unfold ctorResult at this
    match e : construct .strict exStart [⟨[], [([1, 2], 1000)], []⟩, exSched] with
    | .ok (some (some d, es)) => exact ⟨d, es, rfl⟩
    | .ok (some (none, es)) => rw [e] at this; cases this
    | .ok none => rw [e] at this; cases this
    | .error _ => rw [e] at this; cases this
  · have : ctorResult [⟨[], [([1, 2], 1000)], []⟩, ⟨[], [([], 5), ([3], 2000)], []⟩] = some (false, [8, 8]) := by decide +kernel
    unfold ctorResult at this
    match e : construct .strict exStart [⟨[], [([1, 2], 1000)], []⟩, ⟨[], [([], 5), ([3], 2000)], []⟩] with
    | .ok (some (none, es)) => exact ⟨es, rfl⟩
    | .ok (some (some d, es)) => rw [e] at this; cases this
    | .ok none => rw [e] at this; cases this
    | .error _ => rw [e] at this; cases this

end Dev
end Ublox
