import Verif.Lemmas.UbxReach

/-! Feeding whole frames and whole streams. -/

namespace Ublox

/-- Scanner on one complete frame-shaped piece. -/
theorem rxRun_frame (prev c i lo hi a b : Byte) (p : List Byte) (hl : p.length = lo.toNat + 256 * hi.toNat)
    (h1 : 1 ≤ p.length) (h2 : p.length ≤ 2048) :
    rxRun (.idle prev) (0xB5 :: 0x62 :: c :: i :: lo :: hi :: (p ++ [a, b])) =
      (.idle b, List.replicate (p.length + 7) none ++
        [some (if a = fletcherA (c :: i :: lo :: hi :: p) ∧ b = fletcherB (c :: i :: lo :: hi :: p)
          then .good c i p else .badChecksum)]) := by
  have e0 : rxStep (.idle prev) 0xB5 = (.idle 0xB5, none) := by
    simp only [rxStep]; rw [if_neg (by rintro ⟨_, h⟩; exact absurd h (by decide))]
  have e1 : rxStep (.idle 0xB5) 0x62 = (.opened [], none) := rfl
  have e2 : rxStep (.opened [c, i, lo]) hi = (.opened [c, i, lo, hi], none) := by
    simp only [rxStep, List.cons_append, List.nil_append]
    rw [if_neg (by omega), if_neg (by omega), if_neg (by simp)]
  have e3 : rxStep (.opened (c :: i :: lo :: hi :: (p ++ [a]))) b = (.idle b,
        some (if a = fletcherA (c :: i :: lo :: hi :: p) ∧ b = fletcherB (c :: i :: lo :: hi :: p)
          then .good c i p else .badChecksum)) := by
    simp only [rxStep, List.cons_append]
    rw [if_neg (by omega), if_neg (by omega), if_pos (by simp; omega), ← hl]
    rw [List.append_assoc, List.take_left, List.drop_left]
    simp
  have e4 := rxRun_opened c i lo hi (by omega) (by omega) (p ++ [a]) [] (by simp; omega)
  have e5 : p ++ [a, b] = (p ++ [a]) ++ [b] := by simp
  rw [e5]
  simp only [rxRun, e0, e1]
  have e6 : rxStep (.opened []) c = (.opened [c], none) := rfl
  have e7 : rxStep (.opened [c]) i = (.opened [c, i], none) := rfl
  have e8 : rxStep (.opened [c, i]) lo = (.opened [c, i, lo], none) := rfl
  simp only [e6, e7, e8, e2, rxRun_append, e4, List.nil_append, rxRun, e3]
  simp [List.replicate_succ, List.length_append]

namespace Ubx

/-- What a `read_cb` call shows, against what the scanner completed. -/
def Shows (u : Ubx) (it : Option Item) (o : Out) : Prop :=
  (o.1 = true ↔ ∃ c i p, it = some (.good c i p)) ∧ (o.1 = false → o.2 = []) ∧
  (∀ c i p, it = some (.good c i p) → Calls u c i p o.2)

/-- Pointwise relation between two lists of equal length. -/
inductive All2 {α β : Type} (R : α → β → Prop) : List α → List β → Prop where
  | nil : All2 R [] []
  | cons {a : α} {b : β} {as : List α} {bs : List β} : R a b → All2 R as bs → All2 R (a :: as) (b :: bs)

theorem All2.get {α β : Type} {R : α → β → Prop} {as : List α} {bs : List β} (h : All2 R as bs) :
    as.length = bs.length ∧ ∀ (k : Nat) (a : α) (b : β), as[k]? = some a → bs[k]? = some b → R a b := by
  induction h with
  | nil => simp
  | cons hr _ ih =>
    refine ⟨by simp [ih.1], ?_⟩
    intro k a b h1 h2
    match k with
    | 0 => simp at h1 h2; subst h1; subst h2; exact hr
    | k + 1 => simp at h1 h2; exact ih.2 k a b h1 h2

theorem All2.replicate_none {u : Ubx} {n : Nat} {outs : List Out}
    (h : All2 (Shows u) (List.replicate n none) outs) : outs = List.replicate n (false, []) := by
  induction n generalizing outs with
  | zero => cases h; rfl
  | succ n ih =>
    rw [List.replicate_succ] at h
    cases h with
    | @cons _ b _ bs hr ht =>
      rw [ih ht, List.replicate_succ]
      obtain ⟨r, ds⟩ := b
      have h1 : r = false := by
        have := hr.1; simp at this; exact this
      have := hr.2.1 h1
      simp only at this
      rw [h1, this]

theorem All2.append_inv {α β : Type} {R : α → β → Prop} {a1 a2 : List α} {bs : List β}
    (h : All2 R (a1 ++ a2) bs) : ∃ b1 b2, bs = b1 ++ b2 ∧ All2 R a1 b1 ∧ All2 R a2 b2 := by
  induction a1 generalizing bs with
  | nil => exact ⟨[], bs, rfl, .nil, h⟩
  | cons a a1 ih =>
    cases h with
    | @cons _ b _ bs hr ht =>
      obtain ⟨b1, b2, rfl, h1, h2⟩ := ih ht
      exact ⟨b :: b1, b2, rfl, .cons hr h1, h2⟩

theorem Calls_congr {u v : Ubx} (h1 : v.listeners = u.listeners) (h2 : v.subs = u.subs) {c i : Byte} {p : List Byte}
    {ds : List Delivery} : Calls v c i p ds ↔ Calls u c i p ds := by
  unfold Calls subscribed; rw [h1, h2]

/-- Effect of a whole stream. -/
structure FeedOk (u u' : Ubx) (t : Tail) (s : List Byte) (outs : List Out) : Prop where
  wf : WF u'
  abs : Abs u' (rxRun t s).1
  listeners : u'.listeners = u.listeners
  subs : u'.subs = u.subs
  out : u'.outMsg = u.outMsg
  shows : All2 (Shows u) (rxRun t s).2 outs
  ack : u'.gotAck = true ↔ u.gotAck = true ∨ ∃ p, some (.good 0x05 0x01 p) ∈ (rxRun t s).2
  nack : u'.gotNack = true ↔ u.gotNack = true ∨ ∃ p, some (.good 0x05 0x00 p) ∈ (rxRun t s).2
  ver : u'.gotVer = true ↔ u.gotVer = true ∨ ∃ p, some (.good 0x0A 0x04 p) ∈ (rxRun t s).2
  verKeep : (∀ p, some (.good 0x0A 0x04 p) ∉ (rxRun t s).2) →
    u'.major = u.major ∧ u'.minor = u.minor ∧ u'.modName = u.modName

theorem feed_sim {u u' : Ubx} {t : Tail} {s : List Byte} {outs : List Out} (hwf : WF u) (ha : Abs u t)
    (h : feed u s = .ok (u', outs)) : FeedOk u u' t s outs := by
  induction s generalizing u t outs with
  | nil =>
    simp only [feed_nil, Except.ok.injEq, Prod.mk.injEq] at h
    obtain ⟨rfl, rfl⟩ := h
    exact ⟨hwf, ha, rfl, rfl, rfl, .nil, by simp [rxRun], by simp [rxRun], by simp [rxRun],
      fun _ => ⟨rfl, rfl, rfl⟩⟩
  | cons b s ih =>
    rw [feed_cons] at h
    obtain ⟨⟨u1, r, ds⟩, h1, h⟩ := bind_ok.1 h
    obtain ⟨⟨u2, o2⟩, h2, h⟩ := bind_ok.1 h
    cases h
    obtain ⟨a1, s1⟩ := readCb_sim hwf ha h1
    have f := ih s1.wf a1 h2
    have hsh : All2 (Shows u) (rxRun (rxStep t b).1 s).2 o2 := by
      have := f.shows
      have e : Shows u1 = Shows u := by
        funext it o
        unfold Shows Calls subscribed
        rw [s1.listeners, s1.subs]
      rwa [e] at this
    constructor
    · exact f.wf
    · exact f.abs
    · rw [f.listeners, s1.listeners]
    · rw [f.subs, s1.subs]
    · rw [f.out, s1.out]
    · exact .cons ⟨s1.ret, s1.quiet, s1.calls⟩ hsh
    · rw [f.ack, s1.ack]; simp only [rxRun, List.mem_cons, exists_or, or_assoc, eq_comm]
    · rw [f.nack, s1.nack]; simp only [rxRun, List.mem_cons, exists_or, or_assoc, eq_comm]
    · rw [f.ver, s1.ver]; simp only [rxRun, List.mem_cons, exists_or, or_assoc, eq_comm]
    · intro hn
      simp only [rxRun, List.mem_cons, not_or] at hn
      have k1 := f.verKeep (fun p => (hn p).2)
      have k2 := s1.verKeep (fun p hp => (hn p).1 hp.symm)
      exact ⟨k1.1.trans k2.1, k1.2.1.trans k2.2.1, k1.2.2.trans k2.2.2⟩

theorem feed_total {u : Ubx} {t : Tail} {s : List Byte} (hwf : WF u) (ha : Abs u t)
    (hn : ∀ p, some (.good 0x0A 0x04 p) ∉ (rxRun t s).2) : ∃ u' outs, feed u s = .ok (u', outs) := by
  induction s generalizing u t with
  | nil => exact ⟨u, [], rfl⟩
  | cons b s ih =>
    simp only [rxRun, List.mem_cons, not_or] at hn
    cases h1 : readCb u b with
    | error e =>
      obtain ⟨-, p, hp⟩ := readCb_err hwf ha h1
      exact absurd hp.symm (hn p).1
    | ok v =>
      obtain ⟨u1, r, ds⟩ := v
      obtain ⟨a1, s1⟩ := readCb_sim hwf ha h1
      obtain ⟨u2, o2, h2⟩ := ih s1.wf a1 (fun p => (hn p).2)
      exact ⟨u2, (r, ds) :: o2, by rw [feed_cons, h1]; simp only [ok_bind]; rw [h2]; rfl⟩

/-- State after one payload byte. -/
def payStep (u : Ubx) (b : Byte) : Ubx :=
  { u with inMsg := u.inMsg.set u.head b, prev := b, head := u.head + 1,
           state := if u.head = u.length - 1 then .gotPayload else .gotLength2 }

/-- Feeding payload bytes. -/
theorem feed_payload (u : Ubx) (q : List Byte) (hs : u.state = .gotLength2) (hl : u.inMsg.length = 2048)
    (hle : u.length ≤ 2048) (hq : 0 < q.length) (hlen : u.head + q.length = u.length) :
    feed u q = .ok ({ u with inMsg := u.inMsg.take u.head ++ q ++ u.inMsg.drop u.length, state := .gotPayload,
                             head := u.length, prev := q.getLast (by intro h; simp [h] at hq) },
                    List.replicate q.length (false, [])) := by
  induction q generalizing u with
  | nil => simp at hq
  | cons b q ih =>
    simp only [List.length_cons] at hlen
    have e1 : readCb u b = .ok (payStep u b, false, []) := by
      unfold payStep
      unfold readCb
      simp only [hs]
      rw [if_pos (by omega), wr_ok (by omega)]
      simp only [ok_bind]
      rw [afterSwitch_quiet _ (by simp only; split <;> simp)]
    rw [feed_cons, e1]
    simp only [ok_bind]
    have hset : (u.inMsg.set u.head b).take (u.head + 1) = u.inMsg.take u.head ++ [b] :=
      take_set_succ b (by omega)
    match q with
    | [] =>
      simp only [List.length_nil, Nat.zero_add] at hlen
      unfold payStep
      rw [feed_nil, if_pos (by omega)]
      simp only [ok_bind]
      have : u.inMsg.set u.head b = u.inMsg.take u.head ++ [b] ++ u.inMsg.drop u.length := by
        rw [← hset, ← hlen]
        have := List.take_append_drop (u.head + 1) (u.inMsg.set u.head b)
        rw [List.drop_set_of_lt (by omega)] at this
        exact this.symm
      rw [this, hlen]; rfl
    | b' :: q' =>
      have := ih (payStep u b)
        (by simp only [List.length_cons] at hlen; simp only [payStep]; rw [if_neg (by omega)])
        (by simp [payStep, hl]) (by simpa [payStep] using hle) (by simp)
        (by simp only [List.length_cons, payStep] at hlen ⊢; omega)
      rw [this]
      simp only [List.length_cons] at hlen
      simp only [payStep, ok_bind, hset, List.append_assoc, List.cons_append, List.nil_append,
        List.drop_set_of_lt (show u.head < u.length by omega)]
      simp [List.replicate_succ]

/-- Idle parser: between messages. -/
def Idle (u : Ubx) : Prop := u.state = .start ∧ u.startMsg = false

/-- State after all of a frame but its last byte. -/
def mid (u : Ubx) (c i : Byte) (p : List Byte) (a : Byte) : Ubx :=
  { u with inMsg := p ++ u.inMsg.drop p.length, prev := a, head := p.length, startMsg := true, endMsg := false,
           state := .gotCkA, cls := c, typ := i, length := p.length, ckA := a, ckB := 0 }

/-- State after the start sequence. -/
def opn (u : Ubx) : Ubx :=
  { u with prev := 0x62, head := 0, state := .gotStartFrame, cls := 0, typ := 0, length := 0, ckA := 0,
           ckB := 0, startMsg := true, endMsg := false }

theorem feed_mid (u : Ubx) (hu : Idle u) (hl : u.inMsg.length = 2048) (c i lo hi a : Byte) (p : List Byte)
    (hp : p.length = lo.toNat + 256 * hi.toNat) (h1 : 1 ≤ p.length) (h2 : p.length ≤ 2048) :
    feed u (0xB5 :: 0x62 :: c :: i :: lo :: hi :: (p ++ [a])) =
      .ok (mid u c i p a, List.replicate (p.length + 7) (false, [])) := by
  obtain ⟨hs, hst⟩ := hu
  have r1 : readCb u 0xB5 = .ok ({ u with prev := 0xB5 }, false, []) := by
    unfold readCb; simp only [hs]
    rw [if_neg (by rintro ⟨h, _⟩; exact absurd h (by decide)), afterSwitch_quiet _ (by simp [hs]), hs]
  rw [feed_cons_ok _ r1]
  have r2 : readCb { u with prev := 0xB5 } 0x62 = .ok (opn u, false, []) := by
    unfold readCb; simp only [hs]
    rw [if_pos ⟨rfl, rfl⟩, afterSwitch_quiet _ (by simp)]
    rfl
  rw [feed_cons_ok _ r2]
  have r3 : ∀ v : Ubx, v.state = .gotStartFrame → readCb v c =
      .ok ({ v with cls := c, state := .gotClass, prev := c }, false, []) := by
    intro v hv; unfold readCb; simp only [hv]; rw [afterSwitch_quiet _ (by simp)]
  rw [feed_cons_ok _ (r3 _ rfl)]
  have r4 : ∀ v : Ubx, v.state = .gotClass → readCb v i =
      .ok ({ v with typ := i, state := .gotMsgId, prev := i }, false, []) := by
    intro v hv; unfold readCb; simp only [hv]; rw [afterSwitch_quiet _ (by simp)]
  rw [feed_cons_ok _ (r4 _ rfl)]
  have r5 : ∀ v : Ubx, v.state = .gotMsgId → readCb v lo =
      .ok ({ v with length := lo.toNat, state := .gotLength1, prev := lo }, false, []) := by
    intro v hv; unfold readCb; simp only [hv]; rw [afterSwitch_quiet _ (by simp)]
  rw [feed_cons_ok _ (r5 _ rfl)]
  have r6 : ∀ v : Ubx, v.state = .gotLength1 → v.length = lo.toNat → readCb v hi =
      .ok ({ v with length := p.length, state := .gotLength2, prev := hi }, false, []) := by
    intro v hv hv2; unfold readCb BUFFER_SIZE; simp only [hv, hv2, or_shift_eq, ← hp]
    rw [if_neg (by omega), afterSwitch_quiet _ (by simp)]
  rw [feed_cons_ok _ (r6 _ rfl rfl)]
  rw [feed_append, feed_payload _ p rfl (by simpa [opn] using hl) (by simpa using h2) (by omega) (by simp [opn])]
  simp only [ok_bind]
  have r7 : ∀ v : Ubx, v.state = .gotPayload → feed v [a] =
      .ok ({ v with ckA := a, state := .gotCkA, prev := a }, [(false, [])]) := by
    intro v hv; rw [feed_cons]; unfold readCb; simp only [hv]; rw [afterSwitch_quiet _ (by simp)]; rfl
  rw [r7 _ rfl]
  simp only [ok_bind, List.take_zero, List.nil_append, mid, opn]
  have : ∀ n : Nat, List.replicate (n + 7) ((false, []) : Out) =
      (false, []) :: (false, []) :: (false, []) :: (false, []) :: (false, []) :: (false, []) ::
        (List.replicate n (false, []) ++ [(false, [])]) := by
    intro n
    rw [← List.replicate_succ']
    simp [List.replicate_succ]
  rw [this]

/-- The header bytes determined by the payload length. -/
theorem len_bytes (n : Nat) (h : n < 65536) :
    (BitVec.ofNat 8 n : Byte).toNat + 256 * (BitVec.ofNat 8 (n / 256) : Byte).toNat = n := by
  simp only [BitVec.toNat_ofNat]; omega

theorem ubxFrame_eq (c i : Byte) (p : List Byte) :
    ubxFrame c i p = (0xB5 :: 0x62 :: c :: i :: BitVec.ofNat 8 p.length :: BitVec.ofNat 8 (p.length / 256) ::
      (p ++ [fletcherA (ubxBody c i p)])) ++ [fletcherB (ubxBody c i p)] := by
  simp [ubxFrame, ubxBody]

theorem ubxFrame_eq' (c i : Byte) (p : List Byte) :
    ubxFrame c i p = 0xB5 :: 0x62 :: c :: i :: BitVec.ofNat 8 p.length :: BitVec.ofNat 8 (p.length / 256) ::
      (p ++ [fletcherA (ubxBody c i p), fletcherB (ubxBody c i p)]) := by
  simp [ubxFrame, ubxBody]

theorem rxRun_ubxFrame (prev c i : Byte) (p : List Byte) (h1 : 1 ≤ p.length) (h2 : p.length ≤ 2048) :
    rxRun (.idle prev) (ubxFrame c i p) =
      (.idle (fletcherB (ubxBody c i p)), List.replicate (p.length + 7) none ++ [some (.good c i p)]) := by
  rw [ubxFrame_eq', rxRun_frame _ _ _ _ _ _ _ _ (len_bytes p.length (by omega)).symm h1 h2]
  rw [if_pos ⟨rfl, rfl⟩]

theorem ubxFrame_length (c i : Byte) (p : List Byte) : (ubxFrame c i p).length = p.length + 8 := by
  simp [ubxFrame_eq']

theorem idle_of_reach {u : Ubx} {hist : List Byte} (h : Reach u hist) (hp : u.parsingMessage = false) :
    ∃ last, tailOf hist = .idle last ∧ Abs u (.idle last) := by
  have ha := h.inv.abs
  match ht : tailOf hist with
  | .idle last => rw [ht] at ha; exact ⟨last, rfl, ha⟩
  | .opened bs =>
    rw [ht] at ha
    simp [parsingMessage, ha.1, ha.2.1] at hp

theorem Abs.idle {u : Ubx} {last : Byte} (h : Abs u (.idle last)) : Idle u := ⟨h.1, h.2.1⟩

theorem parsing_iff {u : Ubx} {t : Tail} (h : Abs u t) : u.parsingMessage = true ↔ ∃ bs, t = .opened bs := by
  match t with
  | .idle last => simp [parsingMessage, h.2.1]
  | .opened bs => simp [parsingMessage, h.1, h.2.1]

end Ubx
end Ublox
