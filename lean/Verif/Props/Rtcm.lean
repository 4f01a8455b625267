import Verif.Lemmas.RtcmRun
import Verif.Props.Crc

/-!
# Properties of the RTCM parser (C22–C26, C29)

`Reach r hist` (Model/Rtcm.lean): `r` can be reached by some interleaving of received bytes, registrations,
`restart` and `new_data` calls, with exactly the bytes `hist` fed.  `RtcmShape`, `RtcmFrame`, `rtcmScan` are specified
in Spec/Rtcm.lean, `CrcValid` in Spec/Crc.lean.
-/

namespace Ublox
namespace Rtcm

/-- A reachable example parser with one listener. -/
def exR : Rtcm := (init (List.replicate 1024 0) 0 0 0).registerListener 5

theorem exR_reach : Reach exR [] := .register _ (.init _ _ _ _ List.length_replicate)

theorem exR_idle : exR.parsingMessage = false := rfl

/-- The frame of C28's example. -/
theorem exFrame : RtcmFrame [0x00] [0xD3, 0x00, 0x01, 0x00, 0x0A, 0x18, 0x8D] :=
  ⟨⟨0x00, 0x01, 0x0A, 0x18, 0x8D, rfl, by decide⟩, c28_example_valid⟩

/-- C22. Every `got_rtcm` call passes exactly the last bytes received, and they form a valid RTCM3 frame with a payload
of 1 to 1018 bytes. -/
theorem c22_forwarded_was_received {r r' : Rtcm} {hist : List Byte} {b : Byte} {cs : List RtcmCall}
    (h : Reach r hist) (hr : readByte r b = .ok (r', cs)) (c : RtcmCall) (hc : c ∈ cs) :
    c.listener ∈ r.listeners ∧
    ∃ pre payload, hist ++ [b] = pre ++ c.bytes ∧ RtcmFrame payload c.bytes ∧ 1 ≤ payload.length ∧
      payload.length ≤ 1018 := by
  obtain ⟨t, ha, ht⟩ := h.inv.tail
  rcases readByte_cases b h.inv.len ha with ⟨_, _, _, he⟩ | ⟨r1', cs', he, a1, s1, -⟩
  · rw [he] at hr; cases hr
  · rw [he] at hr
    simp only [Except.ok.injEq, Prod.mk.injEq] at hr
    obtain ⟨rfl, rfl⟩ := hr
    by_cases hf : ∃ f, (rtStep t b).2 = some (.frame f)
    · obtain ⟨f, hf⟩ := hf
      rcases (s1.frame f hf).2 with ⟨hv, rfl⟩ | ⟨-, rfl⟩
      · simp only [List.mem_map] at hc
        obtain ⟨l, hl, rfl⟩ := hc
        refine ⟨hl, ?_⟩
        match t, ha, ht with
        | .idle, ha, ht =>
          simp only [rtStep] at hf
          split at hf <;> cases hf
        | .opened bs, ha, ⟨pre, hpre⟩ =>
          have hoob := fun hf => readByte_oob b h.inv.len ha hf
          obtain ⟨-, -, -, h4, h5, h6⟩ := ha
          match bs, h6 with
          | [x], ⟨hx, h6⟩ => simp [rtStep] at hf
          | [x, b1], ⟨hx, h6⟩ =>
            simp only [rtStep, List.cons_append, List.nil_append] at hf
            split at hf
            · cases hf
            · split at hf
              · rename_i h; simp at h
              · cases hf
          | x :: b1 :: b2 :: rest, ⟨hx, hp1, hp2, h6⟩ =>
            simp only [rtStep, List.cons_append] at hf
            rw [if_neg (by omega)] at hf
            split at hf
            · rename_i hlen
              simp only [Option.some.injEq, REvent.frame.injEq] at hf
              subst hf
              simp only [List.length_append, List.length_cons, List.length_nil] at hlen
              -- was there room for the last byte?
              have hroom : rest.length + 3 < 1024 := by
                by_cases hlt : rest.length + 3 < 1024
                · exact hlt
                · simp only [List.length_cons] at h5
                  have := hoob (by simp; omega)
                  rw [this] at he; cases he
              obtain ⟨q1, q2, hq, hq2⟩ : ∃ q1 q2 : List Byte, rest = q1 ++ q2 ∧ q2.length = 2 :=
                ⟨rest.take (rest.length - 2), rest.drop (rest.length - 2), (List.take_append_drop _ _).symm,
                  by simp; omega⟩
              match q2, hq2 with
              | [c0, c1], _ =>
                subst hq; subst hx
                simp only [List.length_append, List.length_cons, List.length_nil] at hlen hroom
                refine ⟨pre, q1, ?_, ⟨⟨b1, b2, c0, c1, b, ?_, ?_⟩, hv⟩, ?_, ?_⟩
                · rw [hpre]; simp
                · simp
                · omega
                · omega
                · omega
            · cases hf
      · simp at hc
    · have := (s1.none (fun f hc => hf ⟨f, hc⟩)).1
      rw [this] at hc; simp at hc

/-- C23. A valid frame with 1 to 1018 payload bytes arriving between messages is delivered exactly once to every
registered listener, on its last byte, byte for byte, and the parser is between messages again. -/
theorem c23_frame_is_delivered {r : Rtcm} {hist : List Byte} (h : Reach r hist) (hp : r.parsingMessage = false)
    (payload f : List Byte) (hf : RtcmFrame payload f) (h1 : 1 ≤ payload.length) (h2 : payload.length ≤ 1018) :
    ∃ r', readCb r f = .ok (r', List.replicate (payload.length + 5) [] ++ [r.listeners.map fun l => ⟨l, f⟩]) ∧
      r'.parsingMessage = false ∧ r'.listeners = r.listeners := by
  obtain ⟨⟨b1, b2, c0, c1, c2, rfl, hl⟩, hv⟩ := hf
  have ha := abs_idle h hp
  have hq : (payload ++ [c0, c1, c2]).length = rtcmLen b1 b2 + 3 := by simp; omega
  obtain ⟨r', css, e⟩ := readCb_shape h.inv.len ha b1 b2 _ hq (by omega)
  have k := readCb_sim h.inv.len ha e
  have er := rtRun_frame b1 b2 (payload ++ [c0, c1, c2]) (by omega) hq
  have hs := k.shows
  rw [er] at hs
  obtain ⟨o1, o2, rfl, s1, s2⟩ := hs.append_inv
  cases s2 with
  | cons hr hn =>
    cases hn
    refine ⟨r', ?_, ?_, k.listeners⟩
    · rcases hr.2 _ rfl with ⟨-, hcs⟩ | ⟨hc, -⟩
      · rw [e, s1.replicate_none, hcs]
        simp
      · exact absurd hv hc
    · have := k.abs
      rw [er] at this
      exact idle_parsing this

example : ∃ r', readCb exR [0xD3, 0x00, 0x01, 0x00, 0x0A, 0x18, 0x8D] =
    .ok (r', List.replicate 6 [] ++ [[⟨5, [0xD3, 0x00, 0x01, 0x00, 0x0A, 0x18, 0x8D]⟩]]) ∧
    r'.parsingMessage = false ∧ r'.listeners = exR.listeners :=
  c23_frame_is_delivered exR_reach exR_idle [0x00] _ exFrame (by simp) (by simp)

open Classical in
/-- C22/C23 for a whole stream from an idle parser: the calls made are exactly the valid frames of the stream, in
order, one call per listener. -/
theorem c22_stream {r r' : Rtcm} {hist s : List Byte} {css : List (List RtcmCall)} (h : Reach r hist)
    (hp : r.parsingMessage = false) (hr : readCb r s = .ok (r', css)) :
    css.flatten = ((rtcmScan s).1.filter fun f => CrcValid f).flatMap fun f => r.listeners.map fun l => ⟨l, f⟩ := by
  have ha := abs_idle h hp
  have k := readCb_sim h.inv.len ha hr
  rw [scan_eq_rtRun s.length s (Nat.le_refl _)]
  simp only
  have : ∀ (evs : List (Option REvent)) (css : List (List RtcmCall)), ShowsAll r.listeners evs css →
      css.flatten = ((evFrames evs).filter fun f => CrcValid f).flatMap fun f => r.listeners.map fun l => ⟨l, f⟩ := by
    intro evs css hs
    induction hs with
    | nil => rfl
    | @cons ev cs evs css hs _ ih =>
      rw [List.flatten_cons, ih]
      match ev with
      | some (.frame f) =>
        have e : evFrames (some (.frame f) :: evs) = f :: evFrames evs := rfl
        rw [e, List.filter_cons]
        rcases hs.2 f rfl with ⟨hv, hcs⟩ | ⟨hv, hcs⟩
        · simp [hv, hcs]
        · simp [hv, hcs]
      | some .zeroLen => rw [hs.1 (by simp)]; rfl
      | none => rw [hs.1 (by simp)]; rfl
  exact this _ _ k.shows

/-- C24 is false of the code: any header announcing 1019 to 1023 bytes, followed by that many bytes and three more,
makes the parser store outside its buffer, from every idle state. -/
theorem c24_refuted {r : Rtcm} {hist : List Byte} (h : Reach r hist) (hp : r.parsingMessage = false) (b1 b2 : Byte)
    (hn : 1019 ≤ rtcmLen b1 b2) (q : List Byte) (hq : q.length = rtcmLen b1 b2 + 3) :
    readCb r (0xD3 :: b1 :: b2 :: q) = .error .oobWrite := by
  have ha := abs_idle h hp
  have hlt := rtcmLen_lt b1 b2
  have hsplit : (0xD3 : Byte) :: b1 :: b2 :: q = (0xD3 :: b1 :: b2 :: q.take 1021) ++ q.drop 1021 := by
    simp [List.take_append_drop]
  have e1 : rtStep .idle 0xD3 = (.opened [0xD3], none) := rfl
  have e2 : rtStep (.opened [0xD3]) b1 = (.opened [0xD3, b1], none) := rfl
  have e3 : rtStep (.opened [0xD3, b1]) b2 = (.opened [0xD3, b1, b2], none) := by
    simp only [rtStep, List.cons_append, List.nil_append]
    rw [if_neg (by omega), if_neg (by simp)]
  have hrun : ∀ p : List Byte, p.length ≤ 1021 → (rtRun .idle (0xD3 :: b1 :: b2 :: p)).1 =
      .opened (0xD3 :: b1 :: b2 :: p) := by
    intro p hp
    have e4 := rtRun_opened 0xD3 b1 b2 (by omega) p [] (by simp; omega)
    simp only [rtRun, e1, e2, e3, e4, List.nil_append]
  obtain ⟨r1, cs1, f1⟩ := readCb_total (s := 0xD3 :: b1 :: b2 :: q.take 1021) h.inv.len ha (by
    intro k bs hk hbs
    have hth : ∀ (s : List Byte) (t : RTail) (hist : List Byte), TailHist t hist →
        TailHist (rtRun t s).1 (hist ++ s) := by
      intro s
      induction s with
      | nil => intro t hist h; simpa [rtRun] using h
      | cons b s ih =>
        intro t hist h
        have := ih _ _ (rtStep_hist b h)
        simpa [rtRun] using this
    have := hth ((0xD3 :: b1 :: b2 :: q.take 1021).take k) .idle [] trivial
    rw [hbs] at this
    obtain ⟨pre, hpre⟩ := this
    have hlen := congrArg List.length hpre
    simp only [List.nil_append, List.length_take, List.length_append, List.length_cons] at hlen hk
    omega)
  have k1 := readCb_sim h.inv.len ha f1
  have habs := k1.abs
  rw [hrun _ (by simp)] at habs
  rw [hsplit, readCb_append, f1]
  simp only [ok_bind]
  obtain ⟨x, xs, hx⟩ : ∃ x xs, q.drop 1021 = x :: xs := by
    match hd : q.drop 1021 with
    | [] => have := congrArg List.length hd; simp at this; omega
    | x :: xs => exact ⟨x, xs, rfl⟩
  rw [hx, readCb_cons, readByte_oob x k1.len habs (by simp; omega)]
  rfl

example : 1019 ≤ rtcmLen 0x03 0xFB ∧ ∃ q : List Byte, q.length = rtcmLen 0x03 0xFB + 3 :=
  ⟨by decide, List.replicate _ 0, List.length_replicate⟩

/-- C24, what holds: undefined behaviour only after a header announcing more than 1018 bytes, and then it is the
out-of-bounds store. -/
theorem c24_partial {r : Rtcm} {hist : List Byte} (h : Reach r hist) (b : Byte) (e : UB)
    (he : readByte r b = .error e) :
    e = .oobWrite ∧ ∃ pre b1 b2 rest, hist = pre ++ 0xD3 :: b1 :: b2 :: rest ∧ 1018 < rtcmLen b1 b2 := by
  obtain ⟨t, ha, ht⟩ := h.inv.tail
  rcases readByte_cases b h.inv.len ha with ⟨bs, rfl, hbs, he'⟩ | ⟨r1', cs', he', -⟩
  · rw [he'] at he
    cases he
    refine ⟨rfl, ?_⟩
    obtain ⟨pre, hpre⟩ := ht
    obtain ⟨-, -, -, -, -, h6⟩ := ha
    match bs, h6 with
    | [x], _ => simp at hbs
    | [x, b1], _ => simp at hbs
    | x :: b1 :: b2 :: rest, ⟨hx, hp1, hp2, h6⟩ =>
      subst hx
      refine ⟨pre, b1, b2, rest, hpre, ?_⟩
      simp only [List.length_cons] at hbs
      rcases h6 with ⟨hr, -⟩ | ⟨hr, -⟩ | ⟨hr, -⟩ | ⟨hr, -⟩ <;> omega
  · rw [he'] at he; cases he

/-- C25. From any reachable state the parser has been between messages at least once after at most 1024 further bytes
(unless it ran into the undefined behaviour of C24). -/
theorem c25_idle_again {r r' : Rtcm} {hist s : List Byte} {css : List (List RtcmCall)} (h : Reach r hist)
    (hr : readCb r s = .ok (r', css)) (hl : 1024 ≤ s.length) :
    ∃ k rk ck, k ≤ 1024 ∧ readCb r (s.take k) = .ok (rk, ck) ∧ rk.parsingMessage = false := by
  obtain ⟨t, ha, ht⟩ := h.inv.tail
  have hpre : ∀ k, ∃ rk ck, readCb r (s.take k) = .ok (rk, ck) := by
    intro k
    have := hr
    rw [← List.take_append_drop k s, readCb_append] at this
    obtain ⟨⟨rk, ck⟩, hk, -⟩ := bind_ok.1 this
    exact ⟨rk, ck, hk⟩
  apply Classical.byContradiction
  intro hno
  have hop : ∀ k, k ≤ 1024 → ∃ bs, (rtRun t (s.take k)).1 = .opened bs := by
    intro k hk
    obtain ⟨rk, ck, e⟩ := hpre k
    have ka := (readCb_sim h.inv.len ha e).abs
    match hq : (rtRun t (s.take k)).1 with
    | .idle => rw [hq] at ka; exact absurd ⟨k, rk, ck, hk, e, idle_parsing ka⟩ hno
    | .opened bs => exact ⟨bs, rfl⟩
  have grow : ∀ k, k ≤ 1024 → ∃ bs, (rtRun t (s.take k)).1 = .opened bs ∧ k < bs.length := by
    intro k
    induction k with
    | zero =>
      intro _
      obtain ⟨bs, hbs⟩ := hop 0 (by omega)
      refine ⟨bs, hbs, ?_⟩
      simp only [List.take_zero, rtRun] at hbs
      rw [hbs] at ha
      match bs, ha.2.2.2.2.2 with
      | _ :: _, _ => simp
    | succ k ih =>
      intro hk
      obtain ⟨bs, hbs, hlt⟩ := ih (by omega)
      obtain ⟨bs', hbs'⟩ := hop (k + 1) hk
      refine ⟨bs', hbs', ?_⟩
      have hks : k < s.length := by omega
      have es : s.take (k + 1) = s.take k ++ [s[k]] := by
        rw [List.take_add_one, List.getElem?_eq_getElem hks]; rfl
      rw [es, rtRun_append, hbs] at hbs'
      simp only [rtRun] at hbs'
      have : ∀ x y z, (rtStep (.opened x) y).1 = .opened z → z = x ++ [y] := by
        intro x y z hz
        simp only [rtStep] at hz
        split at hz
        · split at hz
          · cases hz
          · split at hz
            · cases hz
            · cases hz; rfl
        · cases hz; rfl
      rw [this _ _ _ hbs']
      simp; omega
  obtain ⟨bs, hbs, hlt⟩ := grow 1024 (by omega)
  obtain ⟨rk, ck, e⟩ := hpre 1024
  have ka := (readCb_sim h.inv.len ha e).abs
  rw [hbs] at ka
  have := ka.2.2.2.2.1
  omega

/-- C26, what holds: the parser was between messages, has received `s1`, is asked `new_data`, and receives `s2`. Then `new_data`
returns true exactly when some frame (whatever its CRC) was completed by the bytes of `s2`, also if it began in `s1`; and asked
once more it returns false. -/
theorem c26_partial {r r1 r2 : Rtcm} {hist s1 s2 : List Byte} {css1 css2 : List (List RtcmCall)} (h : Reach r hist)
    (hp : r.parsingMessage = false) (h1 : readCb r s1 = .ok (r1, css1)) (h2 : readCb r1.newDataCall.1 s2 = .ok (r2, css2)) :
    (r2.newDataCall.2 = true ↔ (rtcmScan s1).1.length < (rtcmScan (s1 ++ s2)).1.length) ∧ r2.newDataCall.1.newDataCall.2 = false := by
  have ha := abs_idle h hp
  have k := readCb_sim h.inv.len ha h1
  have ha1 : Abs r1.newDataCall.1 (rtRun .idle s1).1 := by
    have := k.abs
    revert this
    cases (rtRun .idle s1).1 <;> exact id
  have k2 := readCb_sim (Reach.newData (h.feed h1)).inv.len ha1 h2
  rw [scan_eq_rtRun s1.length s1 (Nat.le_refl _), scan_eq_rtRun (s1 ++ s2).length (s1 ++ s2) (Nat.le_refl _), rtRun_append]
  refine ⟨?_, rfl⟩
  dsimp only
  rw [evFrames_append, List.length_append]
  show r2.newData = true ↔ _
  rw [k2.newData]
  simp only [newDataCall, Bool.false_eq_true, false_or]
  constructor
  · rintro ⟨f, hf⟩
    have := List.length_pos_of_mem (mem_evFrames.2 hf)
    omega
  · intro hc
    match hq : evFrames (rtRun (rtRun .idle s1).1 s2).2 with
    | [] => rw [hq] at hc; simp at hc
    | f :: fs => exact ⟨f, mem_evFrames.1 (by rw [hq]; simp)⟩

/-- What a run delivered and whether `new_data` is then true (for examples). -/
def outcome : M (Rtcm × List (List RtcmCall)) → Option (List (List RtcmCall) × Bool)
  | .ok (r, css) => some (css, r.newDataCall.2)
  | .error _ => none

/-- C26 is false of the code: a frame with a wrong CRC is not delivered, yet `new_data` returns true. -/
theorem c26_refuted : outcome (readCb exR [0xD3, 0x00, 0x01, 0x00, 0x0A, 0x18, 0x8C]) =
    some (List.replicate 7 [], true) := by decide +kernel

/-- C29, zero-length header: nothing is delivered and the parser is between messages immediately. -/
theorem c29_zero_length {r : Rtcm} {hist : List Byte} (h : Reach r hist) (hp : r.parsingMessage = false)
    (b1 b2 : Byte) (h0 : rtcmLen b1 b2 = 0) :
    ∃ r', readCb r [0xD3, b1, b2] = .ok (r', [[], [], []]) ∧ r'.parsingMessage = false ∧
      r'.listeners = r.listeners := by
  have ha := abs_idle h hp
  have e1 : rtStep .idle 0xD3 = (.opened [0xD3], none) := rfl
  have e2 : rtStep (.opened [0xD3]) b1 = (.opened [0xD3, b1], none) := rfl
  have e3 : rtStep (.opened [0xD3, b1]) b2 = (.idle, some .zeroLen) := by
    simp only [rtStep, List.cons_append, List.nil_append]
    rw [if_pos h0]
  have er : rtRun .idle [0xD3, b1, b2] = (.idle, [none, none, some .zeroLen]) := by
    simp only [rtRun, e1, e2, e3]
  obtain ⟨r', css, e⟩ := readCb_total (s := [0xD3, b1, b2]) h.inv.len ha (by
    intro k bs hk hbs
    match k, hk with
    | 0, _ => simp [rtRun] at hbs
    | 1, _ => simp only [List.take_succ_cons, List.take_zero, rtRun, e1] at hbs; cases hbs; simp
    | 2, _ => simp only [List.take_succ_cons, List.take_zero, rtRun, e1, e2] at hbs; cases hbs; simp)
  have k := readCb_sim h.inv.len ha e
  have hs := k.shows
  have hab := k.abs
  rw [er] at hs hab
  refine ⟨r', ?_, idle_parsing hab, k.listeners⟩
  rw [e]
  cases hs with
  | cons h1 hs => cases hs with
    | cons h2 hs => cases hs with
      | cons h3 hs =>
        cases hs
        rw [h1.1 (by simp), h2.1 (by simp), h3.1 (by simp)]

/-- C29, wrong CRC: nothing is delivered and the parser is between messages immediately (so, by C23, the next
well-formed frame is delivered). -/
theorem c29_wrong_crc {r : Rtcm} {hist : List Byte} (h : Reach r hist) (hp : r.parsingMessage = false)
    (payload f : List Byte) (hf : RtcmShape payload f) (hv : ¬ CrcValid f) (h1 : 1 ≤ payload.length)
    (h2 : payload.length ≤ 1018) :
    ∃ r', readCb r f = .ok (r', List.replicate (payload.length + 6) []) ∧
      r'.parsingMessage = false ∧ r'.listeners = r.listeners ∧ Reach r' (hist ++ f) := by
  obtain ⟨b1, b2, c0, c1, c2, rfl, hl⟩ := hf
  have ha := abs_idle h hp
  have hq : (payload ++ [c0, c1, c2]).length = rtcmLen b1 b2 + 3 := by simp; omega
  obtain ⟨r', css, e⟩ := readCb_shape h.inv.len ha b1 b2 _ hq (by omega)
  have k := readCb_sim h.inv.len ha e
  have er := rtRun_frame b1 b2 (payload ++ [c0, c1, c2]) (by omega) hq
  have hs := k.shows
  rw [er] at hs
  obtain ⟨o1, o2, rfl, s1, s2⟩ := hs.append_inv
  cases s2 with
  | cons hr hn =>
    cases hn
    refine ⟨r', ?_, ?_, k.listeners, h.feed e⟩
    · rcases hr.2 _ rfl with ⟨hc, -⟩ | ⟨-, hcs⟩
      · exact absurd hc hv
      · rw [e, s1.replicate_none, hcs, ← List.replicate_succ']
        simp
    · have := k.abs
      rw [er] at this
      exact idle_parsing this

/-- The hypotheses of `c29_wrong_crc` are met: one flipped bit (C28) makes the example frame invalid. -/
example : RtcmShape [0x00] [0xD3, 0x00, 0x01, 0x00, 0x0A, 0x18, 0x8C] ∧
    ¬ CrcValid [0xD3, 0x00, 0x01, 0x00, 0x0A, 0x18, 0x8C] :=
  ⟨⟨0x00, 0x01, 0x0A, 0x18, 0x8C, rfl, by decide⟩,
   c28_odd [0xD3, 0x00, 0x01, 0x00, 0x0A, 0x18, 0x8D] [0, 0, 0, 0, 0, 0, 0x01] rfl c28_example_valid (by decide)⟩

end Rtcm
end Ublox
