import Verif.Lemmas.Rtcm

/-! Whole streams through the RTCM parser. -/

namespace Ublox
namespace Rtcm

/-- The scanner over a stream. -/
def rtRun : RTail → List Byte → RTail × List (Option REvent)
  | t, [] => (t, [])
  | t, b :: bs => ((rtRun (rtStep t b).1 bs).1, (rtStep t b).2 :: (rtRun (rtStep t b).1 bs).2)

theorem rtRun_append (t : RTail) (a b : List Byte) :
    rtRun t (a ++ b) = ((rtRun (rtRun t a).1 b).1, (rtRun t a).2 ++ (rtRun (rtRun t a).1 b).2) := by
  induction a generalizing t with
  | nil => rfl
  | cons x a ih => simp only [List.cons_append, rtRun, ih]

theorem rtRun_opened (x b1 b2 : Byte) (h0 : rtcmLen b1 b2 ≠ 0) (bs rest : List Byte)
    (h : rest.length + bs.length < rtcmLen b1 b2 + 3) :
    rtRun (.opened (x :: b1 :: b2 :: rest)) bs =
      (.opened (x :: b1 :: b2 :: (rest ++ bs)), List.replicate bs.length none) := by
  induction bs generalizing rest with
  | nil => simp [rtRun]
  | cons b bs ih =>
    simp only [List.length_cons] at h
    have : rtStep (.opened (x :: b1 :: b2 :: rest)) b = (.opened (x :: b1 :: b2 :: (rest ++ [b])), none) := by
      simp only [rtStep, List.cons_append]
      rw [if_neg h0, if_neg (by simp; omega)]
    simp only [rtRun, this]
    rw [ih (rest ++ [b]) (by simp; omega)]
    simp [List.replicate_succ]

theorem rtRun_frame (b1 b2 : Byte) (q : List Byte) (h0 : rtcmLen b1 b2 ≠ 0) (h : q.length = rtcmLen b1 b2 + 3) :
    rtRun .idle (0xD3 :: b1 :: b2 :: q) =
      (.idle, List.replicate (q.length + 2) none ++ [some (.frame (0xD3 :: b1 :: b2 :: q))]) := by
  obtain ⟨q', c, rfl⟩ : ∃ q' c, q = q' ++ [c] :=
    ⟨q.dropLast, q.getLast (by intro hq; simp [hq] at h), (List.dropLast_append_getLast _).symm⟩
  simp only [List.length_append, List.length_cons, List.length_nil] at h
  have e1 : rtStep .idle 0xD3 = (.opened [0xD3], none) := rfl
  have e2 : rtStep (.opened [0xD3]) b1 = (.opened [0xD3, b1], none) := rfl
  have e3 : rtStep (.opened [0xD3, b1]) b2 = (.opened [0xD3, b1, b2], none) := by
    simp only [rtStep, List.cons_append, List.nil_append]
    rw [if_neg h0, if_neg (by simp)]
  have e4 := rtRun_opened 0xD3 b1 b2 h0 q' [] (by simp; omega)
  have e5 : rtStep (.opened (0xD3 :: b1 :: b2 :: q')) c = (.idle, some (.frame (0xD3 :: b1 :: b2 :: (q' ++ [c])))) := by
    simp only [rtStep, List.cons_append]
    rw [if_neg h0, if_pos (by simp; omega)]
  simp only [rtRun, e1, e2, e3, rtRun_append, e4, List.nil_append, e5]
  simp [List.replicate_succ]

/-- What one iteration shows. -/
def Shows (ls : List Nat) (ev : Option REvent) (cs : List RtcmCall) : Prop :=
  ((∀ f, ev ≠ some (.frame f)) → cs = []) ∧
  ∀ f, ev = some (.frame f) → (CrcValid f ∧ cs = ls.map fun l => ⟨l, f⟩) ∨ (¬ CrcValid f ∧ cs = [])

/-- Pointwise `Shows`. -/
inductive ShowsAll (ls : List Nat) : List (Option REvent) → List (List RtcmCall) → Prop where
  | nil : ShowsAll ls [] []
  | cons {ev : Option REvent} {cs : List RtcmCall} {evs : List (Option REvent)} {css : List (List RtcmCall)} :
      Shows ls ev cs → ShowsAll ls evs css → ShowsAll ls (ev :: evs) (cs :: css)

theorem ShowsAll.append_inv {ls : List Nat} {e1 e2 : List (Option REvent)} {cs : List (List RtcmCall)}
    (h : ShowsAll ls (e1 ++ e2) cs) : ∃ c1 c2, cs = c1 ++ c2 ∧ ShowsAll ls e1 c1 ∧ ShowsAll ls e2 c2 := by
  induction e1 generalizing cs with
  | nil => exact ⟨[], cs, rfl, .nil, h⟩
  | cons a e1 ih =>
    cases h with
    | cons hs ht =>
      obtain ⟨c1, c2, rfl, h1, h2⟩ := ih ht
      exact ⟨_ :: c1, c2, rfl, .cons hs h1, h2⟩

theorem ShowsAll.replicate_none {ls : List Nat} {n : Nat} {cs : List (List RtcmCall)}
    (h : ShowsAll ls (List.replicate n none) cs) : cs = List.replicate n [] := by
  induction n generalizing cs with
  | zero => cases h; rfl
  | succ n ih =>
    rw [List.replicate_succ] at h
    cases h with
    | cons hs ht => rw [ih ht, hs.1 (by simp), List.replicate_succ]

theorem readCb_nil (r : Rtcm) : readCb r [] = .ok (r, []) := rfl
theorem readCb_cons (r : Rtcm) (b : Byte) (bs : List Byte) :
    readCb r (b :: bs) = (readByte r b >>= fun x => readCb x.1 bs >>= fun y => .ok (y.1, x.2 :: y.2)) := rfl

theorem readCb_append (r : Rtcm) (a b : List Byte) :
    readCb r (a ++ b) = (readCb r a >>= fun x => readCb x.1 b >>= fun y => .ok (y.1, x.2 ++ y.2)) := by
  induction a generalizing r with
  | nil =>
    simp only [List.nil_append, readCb_nil, ok_bind]
    cases readCb r b <;> rfl
  | cons x a ih =>
    simp only [List.cons_append, readCb_cons]
    cases readByte r x with
    | error e => rfl
    | ok v =>
      simp only [ok_bind, ih]
      cases readCb v.1 a with
      | error e => rfl
      | ok w =>
        simp only [ok_bind]
        cases readCb w.1 b <;> rfl

/-- One step from the outside: either the buffer is full and the write is out of bounds, or the step is as specified. -/
theorem readByte_cases {r : Rtcm} {t : RTail} (b : Byte) (hl : r.inBuf.length = 1024) (ha : Abs r t) :
    (∃ bs, t = .opened bs ∧ bs.length = 1024 ∧ readByte r b = .error .oobWrite) ∨
    ∃ r' cs, readByte r b = .ok (r', cs) ∧ Abs r' (rtStep t b).1 ∧ StepOk r r' (rtStep t b).2 cs ∧ r'.prev = b := by
  by_cases h : ∀ bs, t = .opened bs → bs.length < 1024
  · exact .inr (readByte_sim b hl ha h)
  · left
    simp only [Classical.not_forall] at h
    obtain ⟨bs, rfl, h⟩ := h
    have := ha.2.2.2.2.1
    exact ⟨bs, rfl, by omega, readByte_oob b hl ha (by omega)⟩

/-- Effect of a stream. -/
structure RunOk (r r' : Rtcm) (t : RTail) (s : List Byte) (css : List (List RtcmCall)) : Prop where
  len : r'.inBuf.length = 1024
  abs : Abs r' (rtRun t s).1
  listeners : r'.listeners = r.listeners
  shows : ShowsAll r.listeners (rtRun t s).2 css
  newData : r'.newData = true ↔ r.newData = true ∨ ∃ f, some (.frame f) ∈ (rtRun t s).2

theorem readCb_sim {r r' : Rtcm} {t : RTail} {s : List Byte} {css : List (List RtcmCall)}
    (hl : r.inBuf.length = 1024) (ha : Abs r t) (h : readCb r s = .ok (r', css)) : RunOk r r' t s css := by
  induction s generalizing r t css with
  | nil =>
    cases h
    exact ⟨hl, ha, rfl, .nil, by simp [rtRun]⟩
  | cons b s ih =>
    rw [readCb_cons] at h
    obtain ⟨⟨r1, cs⟩, h1, h⟩ := bind_ok.1 h
    obtain ⟨⟨r2, cs2⟩, h2, h⟩ := bind_ok.1 h
    cases h
    rcases readByte_cases b hl ha with ⟨_, _, _, he⟩ | ⟨r1', cs', he, a1, s1, -⟩
    · rw [he] at h1; cases h1
    · rw [he] at h1
      simp only [Except.ok.injEq, Prod.mk.injEq] at h1
      obtain ⟨rfl, rfl⟩ := h1
      have k := ih s1.len a1 h2
      refine ⟨k.len, k.abs, k.listeners.trans s1.listeners, ?_, ?_⟩
      · refine .cons ⟨fun hn => (s1.none hn).1, fun f hf => (s1.frame f hf).2⟩ ?_
        rw [← s1.listeners]; exact k.shows
      · rw [k.newData]
        simp only [rtRun, List.mem_cons]
        by_cases hf : ∃ f, (rtStep t b).2 = some (.frame f)
        · obtain ⟨f, hf⟩ := hf
          have := (s1.frame f hf).1
          simp only [this, true_or, true_iff]
          exact .inr ⟨f, .inl hf.symm⟩
        · have hn : ∀ f, (rtStep t b).2 ≠ some (.frame f) := fun f hc => hf ⟨f, hc⟩
          rw [(s1.none hn).2]
          constructor
          · rintro (h | ⟨f, h⟩)
            · exact .inl h
            · exact .inr ⟨f, .inr h⟩
          · rintro (h | ⟨f, h | h⟩)
            · exact .inl h
            · exact absurd h.symm (hn f)
            · exact .inr ⟨f, h⟩

/-- The open frame is a suffix of the stream. -/
def TailHist : RTail → List Byte → Prop
  | .idle, _ => True
  | .opened bs, hist => ∃ pre, hist = pre ++ bs

theorem rtStep_hist {t : RTail} {hist : List Byte} (b : Byte) (h : TailHist t hist) :
    TailHist (rtStep t b).1 (hist ++ [b]) := by
  match t with
  | .idle =>
    simp only [rtStep]
    split
    · exact ⟨hist, rfl⟩
    · trivial
  | .opened bs =>
    obtain ⟨pre, rfl⟩ := h
    have hop : TailHist (.opened (bs ++ [b])) (pre ++ bs ++ [b]) := ⟨pre, by simp⟩
    simp only [rtStep]
    split
    · split
      · trivial
      · split
        · trivial
        · exact hop
    · exact hop

/-- Invariant of reachable parsers. -/
structure Inv (r : Rtcm) (hist : List Byte) : Prop where
  len : r.inBuf.length = 1024
  tail : ∃ t, Abs r t ∧ TailHist t hist

theorem Reach.inv {r : Rtcm} {hist : List Byte} (h : Reach r hist) : Inv r hist := by
  induction h with
  | init inBuf a b c h => exact ⟨h, .idle, ⟨rfl, rfl⟩, trivial⟩
  | @byte r r' hist b cs _ hr ih =>
    obtain ⟨t, ha, ht⟩ := ih.tail
    rcases readByte_cases b ih.len ha with ⟨_, _, _, he⟩ | ⟨r1', cs', he, a1, s1, -⟩
    · rw [he] at hr; cases hr
    · rw [he] at hr
      simp only [Except.ok.injEq, Prod.mk.injEq] at hr
      obtain ⟨rfl, rfl⟩ := hr
      exact ⟨s1.len, _, a1, rtStep_hist b ht⟩
  | register l _ ih =>
    obtain ⟨t, ha, ht⟩ := ih.tail
    refine ⟨ih.len, t, ?_, ht⟩
    cases t <;> exact ha
  | restart _ ih => exact ⟨ih.len, .idle, ⟨rfl, rfl⟩, trivial⟩
  | newData _ ih =>
    obtain ⟨t, ha, ht⟩ := ih.tail
    refine ⟨ih.len, t, ?_, ht⟩
    cases t <;> exact ha

theorem Reach.feed {r r' : Rtcm} {hist s : List Byte} {css : List (List RtcmCall)} (h : Reach r hist)
    (hf : readCb r s = .ok (r', css)) : Reach r' (hist ++ s) := by
  induction s generalizing r hist css with
  | nil => cases hf; simpa using h
  | cons b s ih =>
    rw [readCb_cons] at hf
    obtain ⟨⟨r1, cs⟩, h1, hf⟩ := bind_ok.1 hf
    obtain ⟨⟨r2, cs2⟩, h2, hf⟩ := bind_ok.1 hf
    cases hf
    have := ih (h.byte h1) h2
    simpa using this

theorem abs_idle {r : Rtcm} {hist : List Byte} (h : Reach r hist) (hp : r.parsingMessage = false) : Abs r .idle := by
  obtain ⟨t, ha, -⟩ := h.inv.tail
  match t with
  | .idle => exact ha
  | .opened bs => simp [parsingMessage, ha.1, ha.2.1] at hp

theorem idle_parsing {r : Rtcm} (h : Abs r .idle) : r.parsingMessage = false := by
  simp [parsingMessage, h.2]

theorem opened_parsing {r : Rtcm} {bs : List Byte} (h : Abs r (.opened bs)) : r.parsingMessage = true := by
  simp [parsingMessage, h.1, h.2.1]

/-- A stream that never has more than 1023 bytes open when the next one arrives is processed. -/
theorem readCb_total {r : Rtcm} {t : RTail} {s : List Byte} (hl : r.inBuf.length = 1024) (ha : Abs r t)
    (hroom : ∀ k bs, k < s.length → (rtRun t (s.take k)).1 = .opened bs → bs.length < 1024) :
    ∃ r' css, readCb r s = .ok (r', css) := by
  induction s generalizing r t with
  | nil => exact ⟨r, [], rfl⟩
  | cons b s ih =>
    rcases readByte_cases b hl ha with ⟨bs, rfl, hbs, -⟩ | ⟨r1, cs, he, a1, s1, -⟩
    · have := hroom 0 bs (by simp) rfl
      omega
    · obtain ⟨r2, cs2, h2⟩ := ih s1.len a1 (fun k bs hk h => hroom (k + 1) bs (by simpa using hk) h)
      exact ⟨r2, cs :: cs2, by rw [readCb_cons, he]; simp only [ok_bind, h2]⟩

/-- A whole frame-shaped piece of at most 1024 bytes. -/
theorem readCb_shape {r : Rtcm} (hl : r.inBuf.length = 1024) (ha : Abs r .idle) (b1 b2 : Byte) (q : List Byte)
    (h : q.length = rtcmLen b1 b2 + 3) (hle : rtcmLen b1 b2 ≤ 1018) :
    ∃ r' css, readCb r (0xD3 :: b1 :: b2 :: q) = .ok (r', css) := by
  apply readCb_total hl ha
  intro k bs hk hbs
  -- the open part is a prefix of the frame
  have hth : ∀ (s : List Byte) (t : RTail) (hist : List Byte), TailHist t hist → TailHist (rtRun t s).1 (hist ++ s) := by
    intro s
    induction s with
    | nil => intro t hist h; simpa [rtRun] using h
    | cons b s ih =>
      intro t hist h
      have := ih _ _ (rtStep_hist b h)
      simpa [rtRun] using this
  have := hth ((0xD3 :: b1 :: b2 :: q).take k) .idle [] trivial
  rw [hbs] at this
  obtain ⟨pre, hpre⟩ := this
  have hlen := congrArg List.length hpre
  simp only [List.nil_append, List.length_take, List.length_append, List.length_cons] at hlen hk
  omega

/-- Link between the step scanner and the specification scanner. -/
def evFrames (evs : List (Option REvent)) : List (List Byte) :=
  evs.filterMap fun e => match e with
    | some (.frame f) => some f
    | _ => none

theorem evFrames_append (a b : List (Option REvent)) : evFrames (a ++ b) = evFrames a ++ evFrames b := by
  simp [evFrames]

theorem evFrames_none (n : Nat) : evFrames (List.replicate n none) = [] := by
  induction n with
  | zero => rfl
  | succ n ih => rw [List.replicate_succ]; exact ih

theorem mem_evFrames {f : List Byte} {evs : List (Option REvent)} : f ∈ evFrames evs ↔ some (.frame f) ∈ evs := by
  unfold evFrames
  rw [List.mem_filterMap]
  constructor
  · rintro ⟨e, he, h⟩
    match e with
    | some (.frame g) => simp only [Option.some.injEq] at h; subst h; exact he
    | some .zeroLen => cases h
    | none => cases h
  · intro h; exact ⟨_, h, rfl⟩

/-- The scanner's open part as an option. -/
def tailOpt : RTail → Option (List Byte)
  | .idle => none
  | .opened bs => some bs

theorem scan_eq_rtRun (n : Nat) : ∀ s : List Byte, s.length ≤ n →
    rtcmScan s = (evFrames (rtRun .idle s).2, tailOpt (rtRun .idle s).1) := by
  induction n with
  | zero =>
    intro s hs
    have : s = [] := List.eq_nil_of_length_eq_zero (by omega)
    subst this
    rw [rtcmScan]; rfl
  | succ n ih =>
    intro s hs
    match s with
    | [] => rw [rtcmScan]; rfl
    | b :: rest =>
      simp only [List.length_cons] at hs
      by_cases hb : b = 0xD3
      · subst hb
        match rest with
        | [] => rw [rtcmScan.eq_def]; rfl
        | [b1] => rw [rtcmScan.eq_def]; rfl
        | b1 :: b2 :: rest' =>
          simp only [List.length_cons] at hs
          rw [rtcmScan]
          simp only [ne_eq, not_true_eq_false, if_false]
          have e1 : rtStep .idle 0xD3 = (.opened [0xD3], none) := rfl
          have e2 : rtStep (.opened [0xD3]) b1 = (.opened [0xD3, b1], none) := rfl
          by_cases h0 : rtcmLen b1 b2 = 0
          · have e3 : rtStep (.opened [0xD3, b1]) b2 = (.idle, some .zeroLen) := by
              simp only [rtStep, List.cons_append, List.nil_append]
              rw [if_pos h0]
            rw [if_pos h0, ih rest' (by omega)]
            simp only [rtRun, e1, e2, e3]
            rfl
          · rw [if_neg h0]
            by_cases hl : rtcmLen b1 b2 + 3 ≤ rest'.length
            · rw [if_pos hl, ih _ (by simp; omega)]
              have hf := rtRun_frame b1 b2 (rest'.take (rtcmLen b1 b2 + 3)) h0 (by simp; omega)
              have hsplit : (0xD3 : Byte) :: b1 :: b2 :: rest' =
                  (0xD3 :: b1 :: b2 :: rest'.take (rtcmLen b1 b2 + 3)) ++ rest'.drop (rtcmLen b1 b2 + 3) := by
                simp [List.take_append_drop]
              rw [hsplit, rtRun_append, hf]
              simp only [evFrames_append, evFrames_none, List.nil_append]
              rfl
            · rw [if_neg hl]
              have e3 : rtStep (.opened [0xD3, b1]) b2 = (.opened [0xD3, b1, b2], none) := by
                simp only [rtStep, List.cons_append, List.nil_append]
                rw [if_neg h0, if_neg (by simp)]
              have e4 := rtRun_opened 0xD3 b1 b2 h0 rest' [] (by simp; omega)
              simp only [rtRun, e1, e2, e3, e4, List.nil_append, tailOpt]
              have := evFrames_none (rest'.length + 3)
              simp only [List.replicate_succ] at this
              rw [this]
      · rw [rtcmScan.eq_def]
        simp only [ne_eq, hb, not_false_eq_true, if_true]
        rw [ih rest (by omega)]
        have e1 : rtStep .idle b = (.idle, none) := by simp only [rtStep]; rw [if_neg hb]
        simp only [rtRun, e1]
        rfl

end Rtcm
end Ublox
