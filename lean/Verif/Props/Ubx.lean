import Verif.Lemmas.UbxVersion
import Verif.Lemmas.UbxDetect

/-!
# Properties of the UBX parser (C01–C03, C05–C16, C20, C21)

`Reach u hist` (Model/UbxCmd.lean) says that `u` can be reached by some interleaving of received bytes, listener
registrations, subscriptions and configuration calls, with exactly the bytes `hist` passed to `read_cb`.
`ubxFrame`, `scan` and the checksum are specified in Spec/Frame.lean.
-/

namespace Ublox
open Ubx

/-- A reachable example state: one listener subscribed to NAV-PVT, no bytes received. -/
def exU : Ubx :=
  (((Ubx.init (List.replicate 2048 0) (List.replicate 2048 0) (List.replicate 10 0) 18 0).registerListener 7).subscribe
    7 0x01 0x07)

theorem exU_reach : Reach exU [] :=
  .subscribe _ _ _ (.register _ (.init _ _ _ _ _ List.length_replicate List.length_replicate List.length_replicate))

theorem exU_idle : exU.parsingMessage = false := rfl

theorem exU_out : exU.outMsg.length = 2048 := List.length_replicate

/-! ## C01 -/

/-- C01. Every listener call is caused by a complete, correctly checksummed frame that ends with the byte just
received, and the listener sees exactly its class, id and payload. -/
theorem c01_delivered_was_received {u u' : Ubx} {hist : List Byte} {b : Byte} {r : Bool} {ds : List Delivery}
    (h : Reach u hist) (hr : readCb u b = .ok (u', r, ds)) (d : Delivery) (hd : d ∈ ds) :
    ∃ pre payload, hist ++ [b] = pre ++ ubxFrame d.cls d.id payload ∧
      1 ≤ payload.length ∧ payload.length ≤ 2048 ∧ d.msg.length = 2048 ∧ d.msg.take payload.length = payload := by
  obtain ⟨ha, hs⟩ := readCb_sim h.inv.wf h.inv.abs hr
  have hrt : r = true := by
    cases r with
    | true => rfl
    | false => rw [hs.quiet rfl] at hd; simp at hd
  obtain ⟨c, i, p, hit⟩ := hs.ret.1 hrt
  obtain ⟨⟨pre, he⟩, h1, h2⟩ := rxStep_good (tailHist hist) hit
  obtain ⟨msg, m1, m2, m3⟩ := hs.calls c i p hit
  rw [m3] at hd
  simp only [List.mem_map] at hd
  obtain ⟨l, -, rfl⟩ := hd
  exact ⟨pre, p, he, h1, h2, m1, m2⟩

/-! ## C02 -/

/-- C02. A well-formed frame arriving between messages: every call but the last returns false and calls nobody, the
last returns true and calls exactly the subscribed listeners in registration order with exactly the frame's
content, and the parser is between messages again.  (For a MON-VER frame this holds unless the version parser runs
into undefined behaviour, C16.) -/
theorem c02_frame_is_delivered {u : Ubx} {hist : List Byte} (h : Reach u hist) (hp : u.parsingMessage = false)
    (c i : Byte) (p : List Byte) (h1 : 1 ≤ p.length) (h2 : p.length ≤ 2048) :
    (∀ u' outs, feed u (ubxFrame c i p) = .ok (u', outs) →
      ∃ msg, msg.length = 2048 ∧ msg.take p.length = p ∧
        outs = List.replicate (p.length + 7) (false, []) ++
          [(true, (u.listeners.filter fun l => u.subscribed l c i).map fun l => ⟨l, c, i, msg⟩)] ∧
        u'.parsingMessage = false ∧ u'.listeners = u.listeners ∧ u'.subs = u.subs) ∧
    ((c, i) ≠ (0x0A, 0x04) → ∃ u' outs, feed u (ubxFrame c i p) = .ok (u', outs)) := by
  obtain ⟨last, ht, ha⟩ := idle_of_reach h hp
  have hw := h.inv.wf
  have er := rxRun_ubxFrame last c i p h1 h2
  constructor
  · intro u' outs e
    have f := feed_sim hw ha e
    have hs := f.shows
    rw [er] at hs
    obtain ⟨o1, o2, rfl, s1, s2⟩ := hs.append_inv
    cases s2 with
    | cons hr hn =>
      cases hn
      rename_i o
      obtain ⟨r, ds⟩ := o
      have hr1 : r = true := hr.1.2 ⟨c, i, p, rfl⟩
      obtain ⟨msg, m1, m2, m3⟩ := hr.2.2 c i p rfl
      refine ⟨msg, m1, m2, ?_, ?_, f.listeners, f.subs⟩
      · simp only at m3
        rw [s1.replicate_none, hr1, m3]
      · have := f.abs
        rw [er] at this
        have := parsing_iff this
        simpa using this
  · intro hne
    apply feed_total hw ha
    rw [er]
    intro q hq
    simp only [List.mem_append, List.mem_replicate, reduceCtorEq, and_false, List.mem_singleton, Option.some.injEq,
      Item.good.injEq, false_or] at hq
    exact hne (by rw [← hq.1, ← hq.2.1])

example : ∃ u' outs, feed exU (ubxFrame 0x01 0x07 [1, 2, 3]) = .ok (u', outs) :=
  (c02_frame_is_delivered exU_reach exU_idle 0x01 0x07 [1, 2, 3] (by simp) (by simp)).2 (by decide)

/-- What the calls return and deliver, with the first `n` bytes of the message object (for examples). -/
def seen (n : Nat) : M (Ubx × List Out) → List (Bool × List (Nat × Byte × Byte × List Byte))
  | .ok (_, outs) => outs.map fun o => (o.1, o.2.map fun d => (d.listener, d.cls, d.id, d.msg.take n))
  | .error _ => []

set_option synthInstance.maxSize 1000 in
example : seen 3 (feed exU (ubxFrame 0x01 0x07 [1, 2, 3])) =
    List.replicate 10 (false, []) ++ [(true, [(7, 0x01, 0x07, [1, 2, 3])])] := by decide +kernel

/-! ## C03 -/

/-- C03. What `send_message` writes, another parser between messages delivers, and is between messages again. For a MON-VER
message this needs the version parser to stay defined (C16), for all others reception never fails. -/
theorem c03_round_trip {u v : Ubx} {hist hist' : List Byte} (hu : Reach u hist) (hv : Reach v hist')
    (hp : v.parsingMessage = false) (c i : Byte) (len : Nat) (h1 : 1 ≤ len) (h2 : len ≤ 2048) :
    ∃ w, sendMessage c i len u = .ok (u, w) ∧
      (∀ v' outs, feed v w = .ok (v', outs) → ∃ msg, msg.take len = u.outMsg.take len ∧ v'.parsingMessage = false ∧
        outs = List.replicate (len + 7) (false, []) ++
          [(true, (v.listeners.filter fun l => v.subscribed l c i).map fun l => ⟨l, c, i, msg⟩)]) ∧
      ((c, i) ≠ (0x0A, 0x04) → ∃ v' outs, feed v w = .ok (v', outs)) := by
  have hl : (u.outMsg.take len).length = len := by simp [hu.inv.wf.outLen]; omega
  obtain ⟨k1, k2⟩ := c02_frame_is_delivered hv hp c i (u.outMsg.take len) (by omega) (by omega)
  refine ⟨_, sendMessage_ok c i len u (by rw [hu.inv.wf.outLen]; omega) (by omega), fun v' outs e => ?_, k2⟩
  obtain ⟨msg, m1, m2, m3, m4, -⟩ := k1 v' outs e
  rw [hl] at m2 m3
  exact ⟨msg, m2, m4, m3⟩

example : ∃ w, sendMessage 0x06 0x01 3 exU = .ok (exU, w) ∧ (∃ v' outs, feed exU w = .ok (v', outs)) := by
  obtain ⟨w, k1, -, k2⟩ := c03_round_trip exU_reach exU_reach exU_idle 0x06 0x01 3 (by omega) (by omega)
  exact ⟨w, k1, k2 (by decide)⟩

/-! ## C05 -/

/-- C05. Framing never reads or writes outside the message buffer: the only way any byte can lead to undefined
behaviour is a string function of the version parser on the last byte of a MON-VER frame; the buffer keeps its
size. -/
theorem c05_framing_in_bounds {u : Ubx} {hist : List Byte} (h : Reach u hist) (b : Byte) :
    (∀ e, readCb u b = .error e → e = .unterminated ∧
      ∃ pre payload, hist ++ [b] = pre ++ ubxFrame 0x0A 0x04 payload) ∧
    (∀ u' r ds, readCb u b = .ok (u', r, ds) → u'.inMsg.length = 2048) := by
  constructor
  · intro e he
    obtain ⟨h1, p, hg⟩ := readCb_err h.inv.wf h.inv.abs he
    exact ⟨h1, (rxStep_good (tailHist hist) hg).1.elim fun pre hpre => ⟨pre, p, hpre⟩⟩
  · intro u' r ds hr
    exact (readCb_sim h.inv.wf h.inv.abs hr).2.wf.inLen

/-! ## C06, C07: zero-length frames -/

/-- The state in which a zero-length frame leaves the parser. -/
theorem zero_stuck {u : Ubx} {hist : List Byte} {c i lo hi : Byte} {rest : List Byte} (h : Reach u hist)
    (ht : tailOf hist = .opened (c :: i :: lo :: hi :: rest)) (h0 : lo.toNat + 256 * hi.toNat = 0) (bs : List Byte) :
    ∃ u', feed u bs = .ok (u', List.replicate bs.length (false, [])) ∧ u'.parsingMessage = true ∧
      tailOf (hist ++ bs) = .opened (c :: i :: lo :: hi :: (rest ++ bs)) := by
  have er := rxRun_zero c i lo hi h0 bs rest
  have ha := h.inv.abs
  rw [ht] at ha
  obtain ⟨u', outs, e⟩ := feed_total (s := bs) h.inv.wf ha (by rw [er]; simp)
  have f := feed_sim h.inv.wf ha e
  have hs := f.shows
  have hab := f.abs
  rw [er] at hs hab
  refine ⟨u', ?_, (parsing_iff hab).2 ⟨_, rfl⟩, ?_⟩
  · rw [e, hs.replicate_none]
  · have : tailOf hist = (rxRun (.idle 0) hist).1 := rfl
    unfold tailOf
    rw [rxRun_append, ← this, ht, er]

/-- C07 is false of the code: after any zero-length frame the parser delivers nothing ever again, whatever
arrives. -/
theorem c07_refuted {u : Ubx} {hist : List Byte} (h : Reach u hist) (hp : u.parsingMessage = false) (c i : Byte)
    (later : List Byte) :
    ∃ u', feed u (ubxFrame c i [] ++ later) = .ok (u', List.replicate (later.length + 8) (false, [])) ∧
      u'.parsingMessage = true := by
  obtain ⟨last, ht, ha⟩ := idle_of_reach h hp
  have e0 : ubxFrame c i [] = [0xB5, 0x62, c, i, 0, 0] ++
      [fletcherA (ubxBody c i []), fletcherB (ubxBody c i [])] := rfl
  have er : rxRun (.idle last) [0xB5, 0x62, c, i, 0, 0] = (.opened [c, i, 0, 0], List.replicate 6 none) := by
    have s0 : rxStep (.idle last) 0xB5 = (.idle 0xB5, none) := by
      simp only [rxStep]; rw [if_neg (by rintro ⟨_, h⟩; exact absurd h (by decide))]
    simp only [rxRun, s0]; rfl
  obtain ⟨u1, o1, e1⟩ := feed_total (s := [0xB5, 0x62, c, i, 0, 0]) h.inv.wf ha (by rw [er]; simp)
  have f1 := feed_sim h.inv.wf ha e1
  have hs := f1.shows
  rw [er] at hs
  have ho1 := hs.replicate_none
  have ht1 : tailOf (hist ++ [0xB5, 0x62, c, i, 0, 0]) = .opened [c, i, 0, 0] := by
    have : tailOf hist = (rxRun (.idle 0) hist).1 := rfl
    unfold tailOf
    rw [rxRun_append, ← this, ht, er]
  obtain ⟨u2, e2, hp2, -⟩ := zero_stuck (h.feed e1) ht1 (by decide)
    ([fletcherA (ubxBody c i []), fletcherB (ubxBody c i [])] ++ later)
  refine ⟨u2, ?_, hp2⟩
  rw [e0, List.append_assoc, feed_append_ok _ e1, e2, ho1]
  simp only [ok_bind]
  rw [List.replicate_append_replicate]
  congr 3
  simp; omega

/-- C06 is false of the code: there is a reachable state from which the parser never becomes idle again. -/
theorem c06_refuted : ∃ u hist, Reach u hist ∧
    ∀ bs, ∃ u' outs, feed u bs = .ok (u', outs) ∧ u'.parsingMessage = true := by
  obtain ⟨u', e, -⟩ := c07_refuted exU_reach exU_idle 0x0A 0x04 []
  rw [List.append_nil] at e
  refine ⟨u', _, exU_reach.feed e, fun bs => ?_⟩
  have ht : tailOf ([] ++ ubxFrame 0x0A 0x04 []) = .opened [0x0A, 0x04, 0, 0, 0x0E, 0x34] := by decide
  obtain ⟨u2, e2, hp2, -⟩ := zero_stuck (exU_reach.feed e) ht (by decide) bs
  exact ⟨u2, _, e2, hp2⟩

/-- C06, what holds: unless the frame now open (or the next header) announces length 0, the parser has been idle at
least once after at most 2054 further bytes. -/
theorem c06_partial {u u' : Ubx} {hist bs : List Byte} {outs : List Out} (h : Reach u hist)
    (hf : feed u bs = .ok (u', outs)) (hl : 2054 ≤ bs.length) :
    (∃ k uk ok, k ≤ 2054 ∧ feed u (bs.take k) = .ok (uk, ok) ∧ uk.parsingMessage = false) ∨
    (∃ pre c i rest, hist ++ bs = pre ++ ([0xB5, 0x62, c, i, 0, 0] ++ rest) ∧ u'.parsingMessage = true) := by
  -- states after each prefix exist
  have hpre : ∀ k, ∃ uk ok, feed u (bs.take k) = .ok (uk, ok) := by
    intro k
    have := hf
    rw [← List.take_append_drop k bs, feed_append] at this
    obtain ⟨⟨uk, ok⟩, hk, -⟩ := bind_ok.1 this
    exact ⟨uk, ok, hk⟩
  by_cases hidle : ∃ k last, k ≤ 2054 ∧ tailOf (hist ++ bs.take k) = .idle last
  · obtain ⟨k, last, hk, ht⟩ := hidle
    obtain ⟨uk, ok, e⟩ := hpre k
    refine .inl ⟨k, uk, ok, hk, e, ?_⟩
    have ha := (h.feed e).inv.abs
    rw [ht] at ha
    have := parsing_iff ha
    simpa using this
  · right
    -- the open frame only grows
    have hop : ∃ bs0, tailOf hist = .opened bs0 := by
      match ht : tailOf hist with
      | .idle last => exact absurd ⟨0, last, by omega, by simpa using ht⟩ hidle
      | .opened bs0 => exact ⟨bs0, rfl⟩
    obtain ⟨bs0, ht0⟩ := hop
    have grow : ∀ k, k ≤ 2054 → tailOf (hist ++ bs.take k) = .opened (bs0 ++ bs.take k) := by
      intro k
      induction k with
      | zero => intro _; simpa using ht0
      | succ k ih =>
        intro hk
        have ihk := ih (by omega)
        have hlt : k < bs.length := by omega
        have es : bs.take (k + 1) = bs.take k ++ [bs[k]] := by
          rw [List.take_add_one, List.getElem?_eq_getElem hlt]; rfl
        have hstep := tailOf_snoc (hist ++ bs.take k) bs[k]
        rw [List.append_assoc, ← es, ihk] at hstep
        have : ∀ x y, (rxStep (.opened x) y).1 = .opened (x ++ [y]) ∨ (rxStep (.opened x) y).1 = .idle y := by
          intro x y
          simp only [rxStep]
          split
          · split
            · exact .inr rfl
            · split
              · exact .inl rfl
              · split
                · exact .inr rfl
                · exact .inl rfl
          · exact .inl rfl
        rcases this (bs0 ++ bs.take k) bs[k] with h1 | h1
        · rw [hstep, h1, es, List.append_assoc]
        · exact absurd ⟨k + 1, bs[k], hk, by rw [hstep, h1]⟩ hidle
    have htail := grow 2054 (by omega)
    obtain ⟨uk, ok, e⟩ := hpre 2054
    have ha := (h.feed e).inv.abs
    rw [htail] at ha
    obtain ⟨ha1, ha2, ha3⟩ := ha
    have hlen : 2054 ≤ (bs0 ++ bs.take 2054).length := by simp; omega
    have hth := tailHist (hist ++ bs.take 2054)
    rw [htail] at hth
    obtain ⟨pre, hpre'⟩ := hth
    match hq : bs0 ++ bs.take 2054, hlen, ha3 with
    | c :: i :: lo :: hi :: p, hlen, ha3 =>
      obtain ⟨-, -, hL, hL2, hc⟩ := ha3
      simp only [List.length_cons] at hlen
      rcases hc with ⟨h0, -, -⟩ | ⟨h0, -⟩ | ⟨-, h0, -⟩ | ⟨-, h0, -⟩
      · have hlo : lo = 0 := by apply BitVec.eq_of_toNat_eq; simp; omega
        have hhi : hi = 0 := by apply BitVec.eq_of_toNat_eq; simp; omega
        subst hlo; subst hhi
        rw [hq] at hpre'
        refine ⟨pre, c, i, p ++ bs.drop 2054, ?_, ?_⟩
        · have : hist ++ bs = (hist ++ bs.take 2054) ++ bs.drop 2054 := by
            rw [List.append_assoc, List.take_append_drop]
          rw [this, hpre']
          simp
        · rw [hq] at htail
          have hz := zero_stuck (h.feed e) htail (by decide) (bs.drop 2054)
          obtain ⟨u2, e2, hp2, -⟩ := hz
          have hfull := hf
          rw [← List.take_append_drop 2054 bs, feed_append, e] at hfull
          simp only [ok_bind, e2, Except.ok.injEq, Prod.mk.injEq] at hfull
          rw [← hfull.1]; exact hp2
      all_goals omega

example : ∃ u' outs, feed exU (List.replicate 2054 0) = .ok (u', outs) :=
  feed_total exU_reach.inv.wf exU_reach.inv.abs (by
    have : ∀ n, rxRun (.idle 0) (List.replicate n 0) = (.idle 0, List.replicate n none) := by
      intro n
      induction n with
      | zero => rfl
      | succ n ih =>
        have : rxStep (.idle 0) 0 = (.idle 0, none) := by decide
        simp only [List.replicate_succ, rxRun, this, ih]
    have e : tailOf [] = .idle 0 := rfl
    rw [e, this]
    intro q hq
    exact absurd (List.eq_of_mem_replicate hq) (by simp))

/-! ## C08 -/

/-- C08. A header announcing more than 2048 bytes: nothing is delivered, the message buffer is untouched, exactly one
error is counted, and the parser is idle on the very byte that completed the length. -/
theorem c08_oversized {u : Ubx} {hist : List Byte} (h : Reach u hist) (hp : u.parsingMessage = false)
    (c i lo hi : Byte) (hlen : 2048 < lo.toNat + 256 * hi.toNat) :
    ∃ u', feed u [0xB5, 0x62, c, i, lo, hi] = .ok (u', List.replicate 6 (false, [])) ∧
      u'.parsingMessage = false ∧ u'.inMsg = u.inMsg ∧ u'.numErrors = (u.numErrors + 1) % 2 ^ 32 ∧
      u'.numMsgs = u.numMsgs := by
  obtain ⟨last, ht, ha⟩ := idle_of_reach h hp
  obtain ⟨hs, hst, hpr⟩ := ha
  have r1 : readCb u 0xB5 = .ok ({ u with prev := 0xB5 }, false, []) := by
    unfold readCb; simp only [hs]
    rw [if_neg (by rintro ⟨h, _⟩; exact absurd h (by decide)), afterSwitch_quiet _ (by simp [hs]), hs]
  have r2 : readCb { u with prev := 0xB5 } 0x62 = .ok (opn u, false, []) := by
    unfold readCb; simp only [hs]
    rw [if_pos ⟨rfl, rfl⟩, afterSwitch_quiet _ (by simp)]
    rfl
  rw [feed_cons_ok _ r1, feed_cons_ok _ r2]
  have r3 : ∀ v : Ubx, v.state = .gotStartFrame → readCb v c =
      .ok ({ v with cls := c, state := .gotClass, prev := c }, false, []) := by
    intro v hv; unfold readCb; simp only [hv]; rw [afterSwitch_quiet _ (by simp)]
  rw [feed_cons_ok _ (r3 _ rfl)]
  have r4 : ∀ v : Ubx, v.state = .gotClass → readCb v i =
      .ok ({ v with typ := i, state := .gotMsgId, prev := i }, false, []) := by
    intro v hv; unfold readCb; simp only [hv]; rw [afterSwitch_quiet _ (by simp)]
  rw [feed_cons_ok _ (r4 _ rfl)]
  have r5 : ∀ v : Ubx, v.state = .gotMsgId → readCb v lo =
      .ok ({ v with length := lo.toNat, state := .gotLength1, prev := lo }, false, []) := by
    intro v hv; unfold readCb; simp only [hv]; rw [afterSwitch_quiet _ (by simp)]
  rw [feed_cons_ok _ (r5 _ rfl)]
  have r6 : ∀ v : Ubx, v.state = .gotLength1 → v.length = lo.toNat → ∃ v', readCb v hi = .ok (v', false, []) ∧
      v'.startMsg = false ∧ v'.inMsg = v.inMsg ∧ v'.numErrors = (v.numErrors + 1) % 2 ^ 32 ∧
      v'.numMsgs = v.numMsgs := by
    intro v hv hv2; unfold readCb BUFFER_SIZE; simp only [hv, hv2, or_shift_eq]
    rw [if_pos hlen]
    exact ⟨_, rfl, rfl, rfl, rfl, rfl⟩
  obtain ⟨v', e, q1, q2, q3, q4⟩ := r6 { opn u with cls := c, typ := i, length := lo.toNat, state := .gotLength1, prev := lo }
    rfl rfl
  refine ⟨v', ?_, by simp [parsingMessage, q1], q2, q3, q4⟩
  rw [feed_cons_ok _ e]
  rfl

example : ∃ u', feed exU [0xB5, 0x62, 1, 7, 1, 8] = .ok (u', List.replicate 6 (false, [])) ∧
    u'.parsingMessage = false ∧ u'.inMsg = exU.inMsg ∧ u'.numErrors = (exU.numErrors + 1) % 2 ^ 32 ∧
      u'.numMsgs = exU.numMsgs :=
  c08_oversized exU_reach exU_idle 1 7 1 8 (by decide)

/-! ## C09 -/

/-- C09. `calculate_checksum` is the 8-bit Fletcher checksum of class, id, little-endian length and payload, whatever
the buffer holds after the payload. -/
theorem c09_checksum (c i : Byte) (p rest : List Byte) (hp : p.length < 65536) :
    calcChecksum c i p.length (p ++ rest) = .ok (fletcherA (ubxBody c i p), fletcherB (ubxBody c i p)) := by
  have := calcChecksum_ok c i (BitVec.ofNat 8 p.length) (BitVec.ofNat 8 (p.length / 256)) p.length (p ++ rest)
    (by simp) (len_bytes p.length hp).symm
  rw [this, List.take_left]; rfl

example : calcChecksum 0x06 0x01 3 ([0x01, 0x07, 0x01] ++ [0xAA]) = .ok (0x13, 0x51) := by decide

/-! ## C10 -/

/-- C10, single byte. Replace any byte of a well-formed frame other than the start sequence and the length field by a
different byte: nothing is delivered, one error is counted and the parser is idle afterwards. -/
theorem c10_replaced_byte {u : Ubx} {hist : List Byte} (h : Reach u hist) (hp : u.parsingMessage = false)
    (c i : Byte) (p : List Byte) (h1 : 1 ≤ p.length) (h2 : p.length ≤ 2048) (k : Nat) (x : Byte)
    (hk : k = 2 ∨ k = 3 ∨ (6 ≤ k ∧ k < p.length + 8)) (hx : (ubxFrame c i p)[k]? ≠ some x) :
    ∃ u', feed u ((ubxFrame c i p).set k x) = .ok (u', List.replicate (p.length + 8) (false, [])) ∧
      u'.parsingMessage = false ∧ u'.numErrors = (u.numErrors + 1) % 2 ^ 32 ∧ u'.numMsgs = u.numMsgs := by
  rw [ubxFrame_eq'] at hx ⊢
  rcases hk with rfl | rfl | ⟨hk1, hk2⟩
  · have hxc : x ≠ c := by rintro rfl; simp at hx
    have := rejected h hp x i (fletcherA (ubxBody c i p)) (fletcherB (ubxBody c i p)) p h1 h2 (by
      rintro ⟨hA, -⟩
      exact fletcherA_set (ubxBody c i p) 0 x (by simp [ubxBody]) (by simpa [ubxBody] using hxc) hA.symm)
    simpa [rawFrame, ubxBody] using this
  · have hxc : x ≠ i := by rintro rfl; simp at hx
    have := rejected h hp c x (fletcherA (ubxBody c i p)) (fletcherB (ubxBody c i p)) p h1 h2 (by
      rintro ⟨hA, -⟩
      exact fletcherA_set (ubxBody c i p) 1 x (by simp [ubxBody]) (by simpa [ubxBody] using hxc) hA.symm)
    simpa [rawFrame, ubxBody] using this
  · obtain ⟨j, rfl⟩ : ∃ j, k = j + 6 := ⟨k - 6, by omega⟩
    simp only [List.getElem?_cons_succ, List.set_cons_succ] at hx ⊢
    by_cases hj : j < p.length
    · have hxc : x ≠ p[j] := by
        intro hc; apply hx
        rw [List.getElem?_append_left hj, List.getElem?_eq_getElem hj, hc]
      rw [List.set_append_left _ _ hj]
      have := rejected h hp c i (fletcherA (ubxBody c i p)) (fletcherB (ubxBody c i p)) (p.set j x)
        (by simpa using h1) (by simpa using h2) (by
        rintro ⟨hA, -⟩
        have e : ubxBody c i (p.set j x) = (ubxBody c i p).set (j + 4) x := by simp [ubxBody]
        rw [e] at hA
        exact fletcherA_set (ubxBody c i p) (j + 4) x (by simp [ubxBody]; omega)
          (by simpa [ubxBody] using hxc) hA.symm)
      simpa [rawFrame, ubxBody] using this
    · by_cases hj2 : j = p.length
      · subst hj2
        have hxc : x ≠ fletcherA (ubxBody c i p) := by rintro rfl; simp at hx
        have := rejected h hp c i x (fletcherB (ubxBody c i p)) p h1 h2 (fun hc => hxc hc.1)
        rw [List.set_append_right _ _ (by omega)]
        simpa [rawFrame, ubxBody] using this
      · obtain rfl : j = p.length + 1 := by omega
        have hxc : x ≠ fletcherB (ubxBody c i p) := by
          rintro rfl; apply hx; rw [List.getElem?_append_right (by omega)]; simp
        have := rejected h hp c i (fletcherA (ubxBody c i p)) x p h1 h2 (fun hc => hxc hc.2)
        rw [List.set_append_right _ _ (by omega)]
        simpa [rawFrame, ubxBody] using this

/-- C10, exchanged payload bytes. Two adjacent different payload bytes exchanged: the frame is rejected. -/
theorem c10_swapped_payload {u : Ubx} {hist : List Byte} (h : Reach u hist) (hp : u.parsingMessage = false)
    (c i a b : Byte) (x y : List Byte) (h2 : x.length + y.length + 2 ≤ 2048) (hab : a ≠ b) :
    ∃ u', feed u (rawFrame c i (x ++ b :: a :: y) (fletcherA (ubxBody c i (x ++ a :: b :: y)))
        (fletcherB (ubxBody c i (x ++ a :: b :: y)))) =
        .ok (u', List.replicate (x.length + y.length + 2 + 8) (false, [])) ∧
      u'.parsingMessage = false ∧ u'.numErrors = (u.numErrors + 1) % 2 ^ 32 ∧ u'.numMsgs = u.numMsgs := by
  have hl : (x ++ b :: a :: y).length = x.length + y.length + 2 := by simp; omega
  have := rejected h hp c i (fletcherA (ubxBody c i (x ++ a :: b :: y))) (fletcherB (ubxBody c i (x ++ a :: b :: y)))
    (x ++ b :: a :: y) (by simp; omega) (by simp; omega) (by
      rintro ⟨-, hB⟩
      have := fletcherB_swap (c :: i :: BitVec.ofNat 8 (x.length + y.length + 2) ::
        BitVec.ofNat 8 ((x.length + y.length + 2) / 256) :: x) y a b hab
      have hl2 : (x ++ a :: b :: y).length = x.length + y.length + 2 := by simp; omega
      apply this
      simpa [ubxBody, hl, hl2, Nat.add_assoc, Nat.add_left_comm, Nat.add_comm] using hB.symm)
  rw [hl] at this
  exact this

/-- C10, exchanged class and id: the frame is rejected. -/
theorem c10_swapped_class_id {u : Ubx} {hist : List Byte} (h : Reach u hist) (hp : u.parsingMessage = false)
    (c i : Byte) (p : List Byte) (h1 : 1 ≤ p.length) (h2 : p.length ≤ 2048) (hne : c ≠ i) :
    ∃ u', feed u (rawFrame i c p (fletcherA (ubxBody c i p)) (fletcherB (ubxBody c i p))) =
        .ok (u', List.replicate (p.length + 8) (false, [])) ∧
      u'.parsingMessage = false ∧ u'.numErrors = (u.numErrors + 1) % 2 ^ 32 ∧ u'.numMsgs = u.numMsgs :=
  rejected h hp i c _ _ p h1 h2 (by
    rintro ⟨-, hB⟩
    exact fletcherB_swap [] (BitVec.ofNat 8 p.length :: BitVec.ofNat 8 (p.length / 256) :: p) c i hne hB.symm)

example : ∃ u', feed exU ((ubxFrame 0x01 0x07 [1, 2, 3]).set 6 9) = .ok (u', List.replicate 11 (false, [])) ∧
    u'.parsingMessage = false ∧ u'.numErrors = (exU.numErrors + 1) % 2 ^ 32 ∧ u'.numMsgs = exU.numMsgs :=
  c10_replaced_byte exU_reach exU_idle 0x01 0x07 [1, 2, 3] (by simp) (by simp) 6 9 (by simp) (by decide)

/-! ## C11 -/

theorem key_inj {c i c' i' : Byte} (h : key c i = key c' i') : c = c' ∧ i = i' := by
  have h2 := congrArg BitVec.toNat h
  have b1 := c.isLt; have b2 := i.isLt; have b3 := c'.isLt; have b4 := i'.isLt
  have e : ∀ c i : Byte, (key c i).toNat = 256 * c.toNat + i.toNat := by
    intro c i
    have b1 := c.isLt; have b2 : i.toNat < 2 ^ 8 := i.isLt
    simp only [key, BitVec.toNat_or, BitVec.toNat_shiftLeft, BitVec.truncate_eq_setWidth, BitVec.toNat_setWidth]
    rw [Nat.mod_eq_of_lt (a := c.toNat) (by omega), Nat.mod_eq_of_lt (a := i.toNat) (by omega), Nat.shiftLeft_eq,
      Nat.mod_eq_of_lt (by omega), Nat.mul_comm, ← Nat.two_pow_add_eq_or_of_lt b2]
  rw [e, e] at h2
  exact ⟨BitVec.eq_of_toNat_eq (by omega), BitVec.eq_of_toNat_eq (by omega)⟩

/-- C11, subscriptions. Subscribing adds exactly that (class, id) pair, for exactly that listener. -/
theorem c11_subscribe (u : Ubx) (l l' : Nat) (c i c' i' : Byte) :
    (u.subscribe l c i).subscribed l' c' i' = true ↔ (l' = l ∧ c' = c ∧ i' = i) ∨ u.subscribed l' c' i' = true := by
  unfold subscribed Ubx.subscribe
  simp only
  split
  · rename_i hl
    simp only [List.contains_cons, Bool.or_eq_true, beq_iff_eq, hl, true_and]
    constructor
    · rintro (hk | hk)
      · exact .inl (key_inj hk)
      · exact .inr hk
    · rintro (⟨rfl, rfl⟩ | hk)
      · exact .inl rfl
      · exact .inr hk
  · rename_i hl
    simp [hl]

/-- C11, dispatch. In every reachable state a received byte calls nobody unless it completes an accepted frame, and
then it calls exactly the subscribed listeners, once per registration, in registration order, with that frame's
class, id and payload. -/
theorem c11_dispatch {u u' : Ubx} {hist : List Byte} {b : Byte} {r : Bool} {ds : List Delivery}
    (h : Reach u hist) (hr : readCb u b = .ok (u', r, ds)) :
    (r = false ∧ ds = []) ∨ (r = true ∧ ∃ c i p pre msg, hist ++ [b] = pre ++ ubxFrame c i p ∧
      msg.take p.length = p ∧
      ds.map (fun d => (d.listener, d.cls, d.id, d.msg)) =
        (u.listeners.filter fun l => u.subscribed l c i).map fun l => (l, c, i, msg)) := by
  obtain ⟨ha, hs⟩ := readCb_sim h.inv.wf h.inv.abs hr
  cases r with
  | false => exact .inl ⟨rfl, hs.quiet rfl⟩
  | true =>
    right
    obtain ⟨c, i, p, hit⟩ := hs.ret.1 rfl
    obtain ⟨⟨pre, he⟩, h1, h2⟩ := rxStep_good (tailHist hist) hit
    obtain ⟨msg, m1, m2, m3⟩ := hs.calls c i p hit
    refine ⟨rfl, c, i, p, pre, msg, he, m2, ?_⟩
    rw [m3]; simp

example : exU.subscribed 7 0x01 0x07 = true ∧ exU.subscribed 7 0x07 0x01 = false := by decide

/-! ## C12, C13 -/

/-- C12. The message counter is the number of good frames in the received stream and the error counter the number of
rejected ones (mod 2^32). -/
theorem c12_counters {u : Ubx} {hist : List Byte} (h : Reach u hist) :
    u.numMessagesReceived = goods (scan 0 hist).1 % 2 ^ 32 ∧ u.numErrors = bads (scan 0 hist).1 % 2 ^ 32 := by
  rw [scan_zero]
  exact ⟨h.inv.msgs, h.inv.errs⟩

/-- C12, per stream: the message counter grows by the number of `true` results. -/
theorem c12_true_results {u u' : Ubx} {hist bs : List Byte} {outs : List Out} (h : Reach u hist)
    (hf : feed u bs = .ok (u', outs)) :
    u'.numMessagesReceived % 2 ^ 32 = (u.numMessagesReceived + outs.countP (·.1)) % 2 ^ 32 := by
  have hwf := h.inv.wf
  have ha := h.inv.abs
  clear h
  generalize tailOf hist = t at ha
  unfold numMessagesReceived
  induction bs generalizing u t outs with
  | nil =>
    simp only [feed_nil, Except.ok.injEq, Prod.mk.injEq] at hf
    obtain ⟨rfl, rfl⟩ := hf; simp
  | cons b bs ih =>
    rw [feed_cons] at hf
    obtain ⟨⟨u1, r, ds⟩, h1, hf⟩ := bind_ok.1 hf
    obtain ⟨⟨u2, o2⟩, h2, hf⟩ := bind_ok.1 hf
    cases hf
    obtain ⟨a1, s1⟩ := readCb_sim hwf ha h1
    have := ih h2 s1.wf _ a1
    rw [this, s1.msgs, List.countP_cons]
    cases r <;> simp <;> omega

/-- C13. `parsing_message()` is true exactly when a frame is open. -/
theorem c13_parsing {u : Ubx} {hist : List Byte} (h : Reach u hist) :
    u.parsingMessage = true ↔ ∃ bytes, (scan 0 hist).2 = .opened bytes := by
  rw [scan_zero]
  exact parsing_iff h.inv.abs

/-- C13, reading of "open": the stream ends with a start sequence followed by the bytes of the open frame. -/
theorem c13_open_frame (hist bytes : List Byte) (h : (scan 0 hist).2 = .opened bytes) :
    ∃ pre, hist = pre ++ 0xB5 :: 0x62 :: bytes := by
  rw [scan_zero] at h
  have := tailHist hist
  simp only at h
  rw [h] at this
  exact this

/-! ## C14 -/

/-- C14, what holds and what leaks: the message object handed to the listeners is the payload followed by whatever
the buffer held before at those positions. -/
theorem c14_partial {u u' : Ubx} {hist : List Byte} {outs : List Out} (h : Reach u hist)
    (hp : u.parsingMessage = false) (c i : Byte) (p : List Byte) (h1 : 1 ≤ p.length) (h2 : p.length ≤ 2048)
    (hf : feed u (ubxFrame c i p) = .ok (u', outs)) :
    ∀ o ∈ outs, ∀ d ∈ o.2, d.msg = p ++ u.inMsg.drop p.length := by
  obtain ⟨last, ht, ha⟩ := idle_of_reach h hp
  have hl := h.inv.wf.inLen
  rw [ubxFrame_eq, feed_append, feed_mid u ha.idle hl c i _ _ _ p (len_bytes p.length (by omega)).symm h1 h2] at hf
  simp only [ok_bind] at hf
  obtain ⟨⟨u2, o2⟩, h2', hf⟩ := bind_ok.1 hf
  cases hf
  rw [feed_cons] at h2'
  obtain ⟨⟨u3, r, ds⟩, h3, h2'⟩ := bind_ok.1 h2'
  simp only [feed_nil, ok_bind] at h2'
  cases h2'
  intro o ho d hd
  simp only [List.mem_append, List.mem_replicate, List.mem_singleton] at ho
  rcases ho with ⟨-, rfl⟩ | rfl
  · simp at hd
  · unfold readCb afterSwitch at h3
    simp only [mid, if_true] at h3
    obtain ⟨⟨v, ok, ds'⟩, hdec, h3⟩ := bind_ok.1 h3
    unfold decodeMessage at hdec
    obtain ⟨⟨a, b⟩, -, hdec⟩ := bind_ok.1 hdec
    simp only at hdec
    split at hdec
    · cases hdec; simp at h3; obtain ⟨-, -, rfl⟩ := h3; simp at hd
    · obtain ⟨v', hm, hdec⟩ := bind_ok.1 hdec
      cases hdec
      simp at h3
      obtain ⟨-, -, rfl⟩ := h3
      unfold dispatch at hd
      simp only [List.mem_map] at hd
      obtain ⟨l, -, rfl⟩ := hd
      exact (handleMessage_core hm).fields.1

/-- C14 is false of the code: two parsers that received different earlier messages hand different message objects to
the same listener for the same frame. -/
theorem c14_refuted : ∃ (u v : Ubx) (hu hv : List Byte) (u' v' : Ubx) (m1 m2 : List Byte),
    Reach u hu ∧ Reach v hv ∧ u.parsingMessage = false ∧ v.parsingMessage = false ∧
    feed u (ubxFrame 0x01 0x07 [1]) = .ok (u', List.replicate 8 (false, []) ++ [(true, [⟨7, 0x01, 0x07, m1⟩])]) ∧
    feed v (ubxFrame 0x01 0x07 [1]) = .ok (v', List.replicate 8 (false, []) ++ [(true, [⟨7, 0x01, 0x07, m2⟩])]) ∧
    m1 ≠ m2 := by
  have e0 : ∃ v o, feed exU (ubxFrame 0x02 0x02 [9, 9]) = .ok (v, o) :=
    (c02_frame_is_delivered exU_reach exU_idle 0x02 0x02 [9, 9] (by simp) (by simp)).2 (by decide)
  obtain ⟨v, o, ev⟩ := e0
  have rv := exU_reach.feed ev
  have hvp : v.parsingMessage = false := by
    obtain ⟨msg, -, -, -, hq, -⟩ :=
      (c02_frame_is_delivered exU_reach exU_idle 0x02 0x02 [9, 9] (by simp) (by simp)).1 v o ev
    exact hq
  obtain ⟨u', o1, e1⟩ := (c02_frame_is_delivered exU_reach exU_idle 0x01 0x07 [1] (by simp) (by simp)).2 (by decide)
  obtain ⟨v', o2, e2⟩ := (c02_frame_is_delivered rv hvp 0x01 0x07 [1] (by simp) (by simp)).2 (by decide)
  obtain ⟨m1, -, -, rfl, -⟩ :=
    (c02_frame_is_delivered exU_reach exU_idle 0x01 0x07 [1] (by simp) (by simp)).1 u' o1 e1
  obtain ⟨m2, -, -, rfl, -⟩ := (c02_frame_is_delivered rv hvp 0x01 0x07 [1] (by simp) (by simp)).1 v' o2 e2
  have k1 := c14_partial exU_reach exU_idle 0x01 0x07 [1] (by simp) (by simp) e1
  have k2 := c14_partial rv hvp 0x01 0x07 [1] (by simp) (by simp) e2
  have hsub : exU.listeners.filter (fun l => exU.subscribed l 0x01 0x07) = [7] := by decide
  have hs : v.listeners = exU.listeners ∧ v.subs = exU.subs := by
    obtain ⟨msg, -, -, -, -, hq⟩ :=
      (c02_frame_is_delivered exU_reach exU_idle 0x02 0x02 [9, 9] (by simp) (by simp)).1 v o ev
    exact hq
  have hsub2 : v.listeners.filter (fun l => v.subscribed l 0x01 0x07) = [7] := by
    rw [hs.1]; unfold subscribed; rw [hs.2]; exact hsub
  rw [hsub] at e1 k1
  rw [hsub2] at e2 k2
  refine ⟨exU, v, _, _, u', v', m1, m2, exU_reach, rv, exU_idle, hvp, e1, e2, ?_⟩
  have q1 := k1 _ (List.mem_append_right _ (List.mem_singleton.2 rfl)) _ (List.mem_singleton.2 rfl)
  have q2 := k2 _ (List.mem_append_right _ (List.mem_singleton.2 rfl)) _ (List.mem_singleton.2 rfl)
  simp only at q1 q2
  have hvin : v.inMsg[1]? = some 9 := by
    have : (match feed exU (ubxFrame 0x02 0x02 [9, 9]) with | .ok (w, _) => w.inMsg[1]? | .error _ => none) =
        some 9 := by decide +kernel
    rw [ev] at this
    exact this
  intro hc
  rw [q1, q2] at hc
  have := congrArg (fun l => l[1]?) hc
  simp only [List.cons_append, List.nil_append, List.getElem?_cons_succ, List.length_cons, List.length_nil,
    List.getElem?_drop, Nat.zero_add, Nat.add_zero, hvin] at this
  have : exU.inMsg[1]? = some 9 := this
  exact absurd this (by decide +kernel)

/-! ## C15, C16 -/

/-- C15. A MON-VER frame whose extension block (rows of 10 bytes from offset 40, the first 20 of them) has
`PROTVER=<major>.<minor>` in one row and `MOD=<name>` in one row is decoded exactly: 1 to 4 digit numbers, name up to
9 characters, NUL terminated. -/
theorem c15_version_partial {u : Ubx} {hist : List Byte} (h : Reach u hist) (hp : u.parsingMessage = false)
    (p : List Byte) (h1 : 1 ≤ p.length) (h2 : p.length ≤ 2048) (a b : Nat) (maj min name : List Byte)
    (hv : VersionText (p ++ u.inMsg.drop p.length) a b maj min name) :
    ∃ u' outs, feed u (ubxFrame 0x0A 0x04 p) = .ok (u', outs) ∧ u'.major = decVal maj ∧ u'.minor = decVal min ∧
      u'.modName.take (name.length + 1) = name ++ [0] ∧ u'.gotVer = true := by
  obtain ⟨last, ht, ha⟩ := idle_of_reach h hp
  have hl := h.inv.wf.inLen
  have hml := h.inv.wf.modLen
  rw [ubxFrame_eq, feed_append, feed_mid u ha.idle hl 0x0A 0x04 _ _ _ p (len_bytes p.length (by omega)).symm h1 h2]
  simp only [ok_bind]
  have hck : calcChecksum 0x0A 0x04 p.length (p ++ u.inMsg.drop p.length) =
      .ok (fletcherA (ubxBody 0x0A 0x04 p), fletcherB (ubxBody 0x0A 0x04 p)) := c09_checksum _ _ _ _ (by omega)
  have hcb := fun v : Ubx => fun hv1 : v.inMsg = p ++ u.inMsg.drop p.length => fun hv2 : v.modName = u.modName =>
    versionCb_text v (by rw [hv1]; exact hv) (by rw [hv2]; exact hml)
  rw [feed_cons]
  unfold readCb afterSwitch decodeMessage
  simp only [mid, if_true, hck, ok_bind, not_true_eq_false, ne_eq, or_self, if_false]
  unfold handleMessage
  simp only [show (0x0A : Byte) = CLASS_MON from rfl,
    show (0x04 : Byte) = MON_VER from rfl, if_true, if_false, show CLASS_MON ≠ CLASS_ACK from by decide]
  rw [hcb]
  rotate_left
  · rfl
  · rfl
  simp only [ok_bind, if_true, feed_nil]
  refine ⟨_, _, rfl, rfl, rfl, ?_, rfl⟩
  simp only
  rw [List.take_append_of_le_length (by simp), List.take_of_length_le (by simp)]

/-- A payload with the text of a real receiver: 30-byte extension fields, `PROTVER=18.00` and `MOD=NEO-M8P`. -/
def exVer : List Byte :=
  List.replicate 40 0 ++
  ([0x50, 0x52, 0x4F, 0x54, 0x56, 0x45, 0x52, 0x3D, 0x31, 0x38, 0x2E, 0x30, 0x30] ++ List.replicate 17 0) ++
  ([0x4D, 0x4F, 0x44, 0x3D, 0x4E, 0x45, 0x4F, 0x2D, 0x4D, 0x38, 0x50] ++ List.replicate 19 0) ++ List.replicate 160 0

example : VersionText (exVer ++ exU.inMsg.drop exVer.length) 0 3 [0x31, 0x38] [0x30, 0x30]
    [0x4E, 0x45, 0x4F, 0x2D, 0x4D, 0x38, 0x50] := by
  constructor
  case verOnly => unfold TextAt; decide +kernel
  case modOnly => unfold TextAt; decide +kernel
  all_goals first | decide | (unfold TextAt; decide +kernel)

/-- A MON-VER payload whose protocol version has five digits and no point. -/
def exBadVer : List Byte :=
  List.replicate 40 0 ++ [0x50, 0x52, 0x4F, 0x54, 0x56, 0x45, 0x52, 0x3D, 0x39, 0x39, 0x39, 0x39, 0x39]

/-- C16 is false of the code: a well-formed MON-VER frame can make the version parser run off its temporary array. -/
theorem c16_refuted : feed exU (ubxFrame 0x0A 0x04 exBadVer) = .error .unterminated :=
  errOf_some (by decide +kernel)

/-- C16 is false of the code in a second way: a MON-VER frame without a module name prints the (never initialised)
name array although it holds no NUL. -/
theorem c16_refuted_name :
    feed (Ubx.init (List.replicate 2048 0) (List.replicate 2048 0) (List.replicate 10 0x41) 18 0)
      (ubxFrame 0x0A 0x04 [0]) = .error .unterminated :=
  errOf_some (by decide +kernel)

/-- C16, what holds: the version parser never accesses the message buffer or the name array out of bounds; the only
undefined behaviour is a libc string function running over a missing terminator.  Sufficient for safety: the text
conditions of C15. -/
theorem c16_partial {u : Ubx} {hist : List Byte} (h : Reach u hist) (b : Byte) :
    readCb u b ≠ .error .oobRead ∧ readCb u b ≠ .error .oobWrite ∧ readCb u b ≠ .error .overflow := by
  refine ⟨?_, ?_, ?_⟩ <;> intro he <;> exact absurd ((c05_framing_in_bounds h b).1 _ he).1 (by decide)

/-! ## C20, C21 -/

theorem wireBytes_append (a b : List (Byte × Byte × List Byte)) : wireBytes (a ++ b) = wireBytes a ++ wireBytes b := by
  simp [wireBytes]

/-- C20. Any sequence of configuration calls succeeds and writes exactly a concatenation of well-formed frames: the
classes, ids and payload lengths are those of the calls, in call order. -/
theorem c20_only_frames {u : Ubx} (hu : u.outMsg.length = 2048) (cs : List Command) :
    ∃ u' ms, runCommands cs u = .ok (u', wireBytes ms) ∧ u'.outMsg.length = 2048 ∧ u'.major = u.major ∧
      ms.map (fun m => (m.1, m.2.1, m.2.2.length)) =
        (cs.flatMap (expectedMessages u.major)).map (fun m => (m.1, m.2.1, m.2.2.length)) := by
  induction cs generalizing u with
  | nil => exact ⟨u, [], rfl, hu, rfl, rfl⟩
  | cons c cs ih =>
    by_cases hc : c = .startSurveyIn
    · subst hc
      obtain ⟨o, ho, e⟩ := startSurveyIn_ok u hu
      obtain ⟨u', ms, e2, h2, hm, h3⟩ := ih (u := { u with outMsg := o }) (by rw [← hu]; exact ho)
      refine ⟨u', (0x06, 0x71, surveyPayload u.outMsg) :: ms, ?_, h2, hm, ?_⟩
      · have := andThen_ok (c := Command.startSurveyIn.run) e e2
        exact this
      · simp only [List.map_cons, h3, List.flatMap_cons, List.map_append]
        simp [expectedMessages, surveyPayload, leBytes_length, hu]
    · obtain ⟨o, g, ho, e⟩ := run_expected c hc u hu
      obtain ⟨u', ms, e2, h2, hm, h3⟩ := ih (u := { u with outMsg := o, gotVer := g }) ho
      refine ⟨u', expectedMessages u.major c ++ ms, ?_, h2, hm, ?_⟩
      · rw [wireBytes_append]
        exact andThen_ok e e2
      · simp only [List.map_append, h3, List.flatMap_cons]

example : ∃ u' ms, runCommands [.disableNmea, .setNavRate 200, .enableMessage 1 7 1, .startSurveyIn] exU =
    .ok (u', wireBytes ms) ∧ ms.length = 4 := by
  obtain ⟨u', ms, e, -, -, h⟩ := c20_only_frames (u := exU) exU_out
    [.disableNmea, .setNavRate 200, .enableMessage 1 7 1, .startSurveyIn]
  refine ⟨u', ms, e, ?_⟩
  have := congrArg List.length h
  rw [List.length_map, List.length_map] at this
  rw [this]
  decide +kernel

/-- C21, what holds: every call but `start_survey_in` sends exactly the documented messages, determined by its
arguments and the protocol version alone. -/
theorem c21_partial {u : Ubx} (hu : u.outMsg.length = 2048) (c : Command) (hc : c ≠ .startSurveyIn) :
    ∃ u', c.run u = .ok (u', wireBytes (expectedMessages u.major c)) := by
  obtain ⟨o, g, -, e⟩ := run_expected c hc u hu
  exact ⟨_, e⟩

/-- C21, what `start_survey_in` sends: flags, duration and accuracy limit are right; every other byte is whatever the
output buffer held. -/
theorem c21_survey_partial {u : Ubx} (hu : u.outMsg.length = 2048) :
    ∃ u', Command.startSurveyIn.run u = .ok (u', ubxFrame 0x06 0x71
      (u.outMsg.take 2 ++ leBytes 2 1 ++ (u.outMsg.drop 4).take 20 ++ leBytes 4 60 ++ leBytes 4 3 ++
        (u.outMsg.drop 32).take 8)) := by
  obtain ⟨o, -, e⟩ := startSurveyIn_ok u hu
  exact ⟨_, e⟩

/-- C21 is false of the code: after a `configure` call, `start_survey_in` sends that call's bytes along. -/
theorem c21_refuted : ∃ (u v : Ubx) (u' v' : Ubx) (w1 w2 : List Byte), Reach u [] ∧ Reach v [] ∧ u.major = v.major ∧
    Command.startSurveyIn.run u = .ok (u', w1) ∧ Command.startSurveyIn.run v = .ok (v', w2) ∧ w1 ≠ w2 := by
  have hx : exU.outMsg.length = 2048 := exU_out
  obtain ⟨o, g, ho, e⟩ := run_expected (.configure 0 1 119 0x40030010 2) (by simp) exU hx
  have hv := Reach.command _ exU_reach e
  obtain ⟨u', e1⟩ := c21_survey_partial (u := exU) hx
  obtain ⟨v', e2⟩ := c21_survey_partial (u := { exU with outMsg := o, gotVer := g }) ho
  refine ⟨exU, _, u', v', _, _, exU_reach, hv, rfl, e1, e2, ?_⟩
  have ho8 : o[8]? = some 119 := by
    have : (match (Command.configure 0 1 119 0x40030010 2).run exU with
        | .ok (w, _) => w.outMsg[8]? | .error _ => none) = some 119 := by decide +kernel
    rw [e] at this
    exact this
  intro hc
  have := congrArg (fun l => l[14]?) hc
  have k1 : ∀ q r s : List Byte, ∀ x y : Byte, q.length = 2048 →
      (ubxFrame x y (q.take 2 ++ leBytes 2 1 ++ (q.drop 4).take 20 ++ r))[14]? = q[8]? := by
    intro q r s x y hq
    rw [ubxFrame_eq']
    simp only [List.getElem?_cons_succ, List.append_assoc]
    rw [List.getElem?_append_right (by simp [hq]), List.getElem?_append_right (by simp [hq, leBytes_length]),
      List.getElem?_append_left (by simp [hq, leBytes_length])]
    simp [hq, leBytes_length]
  simp only [List.append_assoc] at this
  have k2 := k1 exU.outMsg (leBytes 4 60 ++ leBytes 4 3 ++ (exU.outMsg.drop 32).take 8) [] 0x06 0x71 hx
  have k3 := k1 o (leBytes 4 60 ++ leBytes 4 3 ++ (o.drop 32).take 8) [] 0x06 0x71 ho
  simp only [List.append_assoc] at k2 k3
  rw [k2, k3, ho8] at this
  exact absurd this (by decide +kernel)

end Ublox
