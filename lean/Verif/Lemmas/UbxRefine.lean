import Verif.Lemmas.Ubx

/-! The UBX parser refines the frame scanner of `Spec/Frame.lean`. -/

namespace Ublox

/-! ### An incremental version of `scan` -/

/-- One byte of the scanner. -/
def rxStep : Tail → Byte → Tail × Option Item
  | .idle p, b => if p = 0xB5 ∧ b = 0x62 then (.opened [], none) else (.idle b, none)
  | .opened bs, b =>
    match bs ++ [b] with
    | c :: i :: lo :: hi :: p =>
      if 2048 < lo.toNat + 256 * hi.toNat then (.idle b, some .tooLong)
      else if lo.toNat + 256 * hi.toNat = 0 then (.opened (bs ++ [b]), none)
      else if p.length = lo.toNat + 256 * hi.toNat + 2 then
        (.idle b, some (if p.drop (lo.toNat + 256 * hi.toNat) =
              [fletcherA (c :: i :: lo :: hi :: p.take (lo.toNat + 256 * hi.toNat)),
               fletcherB (c :: i :: lo :: hi :: p.take (lo.toNat + 256 * hi.toNat))]
            then .good c i (p.take (lo.toNat + 256 * hi.toNat)) else .badChecksum))
      else (.opened (bs ++ [b]), none)
    | _ => (.opened (bs ++ [b]), none)

/-- The scanner, byte by byte: final tail and what each byte completed. -/
def rxRun : Tail → List Byte → Tail × List (Option Item)
  | t, [] => (t, [])
  | t, b :: bs =>
    let r := rxRun (rxStep t b).1 bs
    (r.1, (rxStep t b).2 :: r.2)

theorem rxRun_append (t : Tail) (a b : List Byte) :
    rxRun t (a ++ b) = ((rxRun (rxRun t a).1 b).1, (rxRun t a).2 ++ (rxRun (rxRun t a).1 b).2) := by
  induction a generalizing t with
  | nil => simp [rxRun]
  | cons x xs ih => simp [rxRun, ih]

theorem rxRun_opened (c i lo hi : Byte) (h0 : lo.toNat + 256 * hi.toNat ≠ 0)
    (h1 : ¬ 2048 < lo.toNat + 256 * hi.toNat) (q p : List Byte)
    (h : p.length + q.length < lo.toNat + 256 * hi.toNat + 2) :
    rxRun (.opened (c :: i :: lo :: hi :: p)) q =
      (.opened (c :: i :: lo :: hi :: (p ++ q)), List.replicate q.length none) := by
  induction q generalizing p with
  | nil => simp [rxRun]
  | cons x xs ih =>
    simp only [List.length_cons] at h
    have e : rxStep (.opened (c :: i :: lo :: hi :: p)) x = (.opened (c :: i :: lo :: hi :: (p ++ [x])), none) := by
      simp only [rxStep, List.cons_append]
      rw [if_neg h1, if_neg h0, if_neg (by simp; omega)]
    simp only [rxRun, e]
    rw [ih (p ++ [x]) (by simp; omega)]
    simp [List.replicate_succ]

theorem rxRun_zero (c i lo hi : Byte) (h0 : lo.toNat + 256 * hi.toNat = 0) (q p : List Byte) :
    rxRun (.opened (c :: i :: lo :: hi :: p)) q =
      (.opened (c :: i :: lo :: hi :: (p ++ q)), List.replicate q.length none) := by
  induction q generalizing p with
  | nil => simp [rxRun]
  | cons x xs ih =>
    have e : rxStep (.opened (c :: i :: lo :: hi :: p)) x = (.opened (c :: i :: lo :: hi :: (p ++ [x])), none) := by
      simp only [rxStep, List.cons_append]
      rw [if_neg (by omega), if_pos h0]
    simp only [rxRun, e]
    rw [ih (p ++ [x])]
    simp [List.replicate_succ]

theorem filterMap_replicate_none (n : Nat) :
    (List.replicate n (none : Option Item)).filterMap id = [] := by
  induction n with
  | zero => rfl
  | succ n ih => simp [List.replicate_succ]

/-- The scanner of the specification and its incremental version agree. -/
theorem scan_eq_rxRun (prev : Byte) (s : List Byte) :
    scan prev s = ((rxRun (.idle prev) s).2.filterMap id, (rxRun (.idle prev) s).1) := by
  induction hn : s.length using Nat.strongRecOn generalizing prev s with
  | ind n ih =>
    subst hn
    unfold scan
    match s with
    | [] => simp [rxRun]
    | b :: rest =>
      simp only
      split
      case isFalse h =>
        rw [ih rest.length (by simp) b rest rfl]
        have e : rxStep (.idle prev) b = (.idle b, none) := by simp only [rxStep]; rw [if_neg h]
        simp [rxRun, e]
      case isTrue h =>
        have e0 : rxStep (.idle prev) b = (.opened [], none) := by simp [rxStep, h]
        have eb : rxRun (.idle prev) (b :: rest) =
            ((rxRun (.opened []) rest).1, none :: (rxRun (.opened []) rest).2) := by
          simp only [rxRun, e0]
        rw [eb]
        match rest with
        | [] => simp [rxRun]
        | [c] => simp [rxRun, rxStep]
        | [c, i] => simp [rxRun, rxStep]
        | [c, i, lo] => simp [rxRun, rxStep]
        | c :: i :: lo :: hi :: rest' =>
          have e1 : rxRun (.opened []) (c :: i :: lo :: hi :: rest') =
              ((rxRun (rxStep (.opened [c, i, lo]) hi).1 rest').1,
                none :: none :: none :: (rxStep (.opened [c, i, lo]) hi).2 ::
                  (rxRun (rxStep (.opened [c, i, lo]) hi).1 rest').2) := by
            simp [rxRun, rxStep]
          rw [e1]
          simp only
          split
          case isTrue h2 =>
            have e2 : rxStep (.opened [c, i, lo]) hi = (.idle hi, some .tooLong) := by
              simp [rxStep, h2]
            rw [e2, ih rest'.length (by simp; omega) hi rest' rfl]
            simp
          case isFalse h2 =>
            split
            case isTrue h3 =>
              have e2 : rxStep (.opened [c, i, lo]) hi = (.opened [c, i, lo, hi], none) := by
                simp only [rxStep, List.cons_append, List.nil_append]
                rw [if_neg h2, if_pos h3]
              rw [e2]
              simp only [rxRun_zero c i lo hi h3]
              simp
            case isFalse h3 =>
              have e2 : rxStep (.opened [c, i, lo]) hi = (.opened [c, i, lo, hi], none) := by
                simp only [rxStep, List.cons_append, List.nil_append]
                rw [if_neg h2, if_neg h3, if_neg (by simp)]
              rw [e2]
              generalize hd : rest'.drop (lo.toNat + 256 * hi.toNat) = d
              have hl := congrArg List.length hd
              simp only [List.length_drop] at hl
              match d, hd with
              | [], hd =>
                simp only
                simp only [List.length_nil] at hl
                rw [rxRun_opened c i lo hi h3 h2 rest' [] (by simp; omega)]
                simp
              | [a], hd =>
                simp only
                simp only [List.length_cons, List.length_nil] at hl
                rw [rxRun_opened c i lo hi h3 h2 rest' [] (by simp; omega)]
                simp
              | a :: c' :: rest'', hd =>
                simp only
                simp only [List.length_cons] at hl
                have htl : (rest'.take (lo.toNat + 256 * hi.toNat)).length = lo.toNat + 256 * hi.toNat := by
                  simp; omega
                have esp : rest' = (rest'.take (lo.toNat + 256 * hi.toNat) ++ [a]) ++ (c' :: rest'') := by
                  have := List.take_append_drop (lo.toNat + 256 * hi.toNat) rest'
                  rw [hd] at this
                  rw [List.append_assoc]; simpa using this.symm
                rw [ih rest''.length (by simp; omega) c' rest'' rfl]
                generalize rest'.take (lo.toNat + 256 * hi.toNat) = q at *
                rw [esp, rxRun_append, rxRun_opened c i lo hi h3 h2 (q ++ [a]) [] (by simp; omega)]
                have e4 : rxStep (.opened (c :: i :: lo :: hi :: (q ++ [a]))) c' =
                    (.idle c', some (if a = fletcherA (c :: i :: lo :: hi :: q) ∧
                        c' = fletcherB (c :: i :: lo :: hi :: q)
                      then .good c i q else .badChecksum)) := by
                  simp only [rxStep, List.cons_append]
                  rw [if_neg h2, if_neg h3, if_pos (by simp; omega)]
                  have t1 : (q ++ [a] ++ [c']).take (lo.toNat + 256 * hi.toNat) = q := by
                    rw [List.append_assoc, List.take_append_of_le_length (by omega), List.take_of_length_le (by omega)]
                  have t2 : (q ++ [a] ++ [c']).drop (lo.toNat + 256 * hi.toNat) = [a, c'] := by
                    rw [List.append_assoc, List.drop_append_of_le_length (by omega), List.drop_of_length_le (by omega)]
                    rfl
                  rw [t1, t2]
                  simp
                simp only [List.nil_append, rxRun, e4]
                split <;> simp [*]

/-! ### Histories -/

/-- What the tail says about the bytes received so far. -/
def TailHist (t : Tail) (hist : List Byte) : Prop :=
  match t with
  | .idle last => (hist = [] ∧ last = 0) ∨ ∃ pre, hist = pre ++ [last]
  | .opened bs => ∃ pre, hist = pre ++ 0xB5 :: 0x62 :: bs

theorem rxStep_hist {t : Tail} {hist : List Byte} (h : TailHist t hist) (b : Byte) :
    TailHist (rxStep t b).1 (hist ++ [b]) := by
  match t with
  | .idle p =>
    simp only [rxStep]
    split
    · rename_i hh
      obtain ⟨rfl, rfl⟩ := hh
      rcases h with ⟨-, h⟩ | ⟨pre, h⟩
      · simp at h
      · exact ⟨pre, by simp [h]⟩
    · exact .inr ⟨hist, rfl⟩
  | .opened bs =>
    obtain ⟨pre, h⟩ := h
    have key : TailHist (.opened (bs ++ [b])) (hist ++ [b]) := ⟨pre, by simp [h]⟩
    have key2 : TailHist (.idle b) (hist ++ [b]) := .inr ⟨hist, rfl⟩
    simp only [rxStep]
    split
    · split
      · exact key2
      · split
        · exact key
        · split
          · exact key2
          · exact key
    · exact key

/-- If a byte completes a good frame then the stream ends in that frame. -/
theorem rxStep_good {t : Tail} {hist : List Byte} (h : TailHist t hist) {b c i : Byte} {p : List Byte}
    (hg : (rxStep t b).2 = some (.good c i p)) :
    (∃ pre, hist ++ [b] = pre ++ ubxFrame c i p) ∧ 1 ≤ p.length ∧ p.length ≤ 2048 := by
  match t with
  | .idle q => simp only [rxStep] at hg; split at hg <;> simp at hg
  | .opened bs =>
    obtain ⟨pre, h⟩ := h
    simp only [rxStep] at hg
    split at hg
    · rename_i c' i' lo hi q heq
      split at hg
      · simp at hg
      · split at hg
        · simp at hg
        · split at hg
          · rename_i h1 h2 h3
            split at hg
            · rename_i h4
              simp only [Option.some.injEq, Item.good.injEq] at hg
              obtain ⟨rfl, rfl, rfl⟩ := hg
              have hlo : lo.toNat < 256 := lo.isLt
              have hhi : hi.toNat < 256 := hi.isLt
              have hl : (q.take (lo.toNat + 256 * hi.toNat)).length = lo.toNat + 256 * hi.toNat := by
                simp; omega
              refine ⟨⟨pre, ?_⟩, by omega, by omega⟩
              have e1 : BitVec.ofNat 8 (lo.toNat + 256 * hi.toNat) = lo := by
                apply BitVec.eq_of_toNat_eq; rw [BitVec.toNat_ofNat]; omega
              have e2 : BitVec.ofNat 8 ((lo.toNat + 256 * hi.toNat) / 256) = hi := by
                apply BitVec.eq_of_toNat_eq; rw [BitVec.toNat_ofNat]; omega
              have e3 := List.take_append_drop (lo.toNat + 256 * hi.toNat) q
              rw [h4] at e3
              unfold ubxFrame ubxBody
              rw [hl, e1, e2, h, List.append_assoc, List.cons_append, List.cons_append, heq]
              rw [List.append_cancel_left_eq]
              simp only [List.cons_append]
              exact congrArg (fun x => 0xB5 :: 0x62 :: c' :: i' :: lo :: hi :: x) e3.symm
            · simp at hg
          · simp at hg
    · simp at hg

/-! ### Simulation -/

namespace Ubx

/-- Array sizes fixed by the class declaration. -/
structure WF (u : Ubx) : Prop where
  inLen : u.inMsg.length = 2048
  outLen : u.outMsg.length = 2048
  modLen : u.modName.length = 10

/-- The parser has an open frame whose bytes after the start sequence are `bs`. -/
def Opened (u : Ubx) : List Byte → Prop
  | [] => u.state = .gotStartFrame ∧ u.head = 0
  | [c] => u.state = .gotClass ∧ u.head = 0 ∧ u.cls = c
  | [c, i] => u.state = .gotMsgId ∧ u.head = 0 ∧ u.cls = c ∧ u.typ = i
  | [c, i, lo] => u.state = .gotLength1 ∧ u.head = 0 ∧ u.cls = c ∧ u.typ = i ∧ u.length = lo.toNat
  | c :: i :: lo :: hi :: p =>
    u.cls = c ∧ u.typ = i ∧ u.length = lo.toNat + 256 * hi.toNat ∧ u.length ≤ 2048 ∧
    ((u.length = 0 ∧ u.state = .gotLength2 ∧ u.head = 0) ∨
     (p.length < u.length ∧ u.state = .gotLength2 ∧ u.head = p.length ∧ u.inMsg.take p.length = p) ∨
     (0 < u.length ∧ p.length = u.length ∧ u.state = .gotPayload ∧ u.inMsg.take p.length = p) ∨
     (0 < u.length ∧ p.length = u.length + 1 ∧ u.state = .gotCkA ∧ u.inMsg.take u.length ++ [u.ckA] = p))

/-- The parser state matches the scanner's tail. -/
def Abs (u : Ubx) : Tail → Prop
  | .idle last => u.state = .start ∧ u.startMsg = false ∧ u.prev = last
  | .opened bs => u.startMsg = true ∧ u.endMsg = false ∧ Opened u bs

/-- The listener calls that the frame `(c, i, p)` must produce. -/
def Calls (u : Ubx) (c i : Byte) (p : List Byte) (ds : List Delivery) : Prop :=
  ∃ msg : List Byte, msg.length = 2048 ∧ msg.take p.length = p ∧
    ds = (u.listeners.filter fun l => u.subscribed l c i).map fun l => ⟨l, c, i, msg⟩

/-- Effect of one `read_cb` call that completed `it` (if anything). -/
structure StepOk (u u' : Ubx) (it : Option Item) (r : Bool) (ds : List Delivery) : Prop where
  wf : WF u'
  listeners : u'.listeners = u.listeners
  subs : u'.subs = u.subs
  out : u'.outMsg = u.outMsg
  ret : r = true ↔ ∃ c i p, it = some (.good c i p)
  quiet : r = false → ds = []
  calls : ∀ c i p, it = some (.good c i p) → Calls u c i p ds
  msgs : u'.numMsgs = if r then (u.numMsgs + 1) % 2 ^ 32 else u.numMsgs
  errs : u'.numErrors = if it = some .badChecksum ∨ it = some .tooLong then (u.numErrors + 1) % 2 ^ 32
    else u.numErrors
  ack : u'.gotAck = true ↔ u.gotAck = true ∨ ∃ p, it = some (.good 0x05 0x01 p)
  nack : u'.gotNack = true ↔ u.gotNack = true ∨ ∃ p, it = some (.good 0x05 0x00 p)
  ver : u'.gotVer = true ↔ u.gotVer = true ∨ ∃ p, it = some (.good 0x0A 0x04 p)
  verKeep : (∀ p, it ≠ some (.good 0x0A 0x04 p)) →
    u'.major = u.major ∧ u'.minor = u.minor ∧ u'.modName = u.modName

theorem StepOk.of_quiet {u u' : Ubx} (hwf : WF u') (h1 : u'.listeners = u.listeners) (h2 : u'.subs = u.subs)
    (ho : u'.outMsg = u.outMsg)
    (h3 : u'.numMsgs = u.numMsgs) (h4 : u'.numErrors = u.numErrors) (h5 : u'.gotAck = u.gotAck)
    (h6 : u'.gotNack = u.gotNack) (h7 : u'.gotVer = u.gotVer) (h8 : u'.major = u.major)
    (h9 : u'.minor = u.minor) (h10 : u'.modName = u.modName) : StepOk u u' none false [] := by
  constructor <;> simp_all

theorem afterSwitch_quiet {u : Ubx} (b : Byte) (h : u.state ≠ .gotCkB) :
    afterSwitch u b = .ok ({ u with prev := b }, false, []) := by
  unfold afterSwitch; rw [if_neg h]

theorem or_shift_eq (lo hi : Byte) : lo.toNat ||| (hi.toNat <<< 8) = lo.toNat + 256 * hi.toNat := by
  have h : lo.toNat < 2 ^ 8 := lo.isLt
  rw [Nat.or_comm, Nat.shiftLeft_eq, Nat.mul_comm, ← Nat.two_pow_add_eq_or_of_lt h]
  omega

theorem take_set_succ {l : List Byte} {n : Nat} (b : Byte) (h : n < l.length) :
    (l.set n b).take (n + 1) = l.take n ++ [b] := by
  rw [List.take_add_one, List.take_set_of_le (Nat.le_refl n)]
  simp [h]

/-- Effect of the class/type switch on the flags. -/
theorem handleMessage_flags {u u' : Ubx} (h : handleMessage u = .ok u') :
    (u'.gotAck = true ↔ u.gotAck = true ∨ (u.cls = 0x05 ∧ u.typ = 0x01)) ∧
    (u'.gotNack = true ↔ u.gotNack = true ∨ (u.cls = 0x05 ∧ u.typ = 0x00)) ∧
    (u'.gotVer = true ↔ u.gotVer = true ∨ (u.cls = 0x0A ∧ u.typ = 0x04)) ∧
    (¬ (u.cls = 0x0A ∧ u.typ = 0x04) → u'.major = u.major ∧ u'.minor = u.minor ∧ u'.modName = u.modName) := by
  unfold handleMessage CLASS_ACK ACK_ACK ACK_NACK CLASS_MON MON_VER at h
  split at h
  · rename_i h1
    split at h
    · cases h; simp_all
    · split at h
      · cases h; simp_all
      · cases h; simp_all
  · split at h
    · rename_i h1 h2
      split at h
      · rename_i h3
        have hr := h
        unfold versionCb at h
        obtain ⟨v, hv, h⟩ := bind_ok.1 h
        have core := (versionRows_core hv).1
        split at h
        · cases h
          have hk : v.gotAck = u.gotAck ∧ v.gotNack = u.gotNack := by
            clear hr
            have key : ∀ n i (a c : Ubx), versionRows n i a = .ok c → c.gotAck = a.gotAck ∧ c.gotNack = a.gotNack := by
              intro n
              induction n with
              | zero => intro i a c h; cases h; exact ⟨rfl, rfl⟩
              | succ n ih =>
                intro i a c h
                unfold versionRows at h
                obtain ⟨d, hd, h⟩ := bind_ok.1 h
                have := ih _ _ _ h
                unfold versionRow at hd
                obtain ⟨e, he, hd⟩ := bind_ok.1 hd
                have h1 : e.gotAck = a.gotAck ∧ e.gotNack = a.gotNack := by
                  split at he
                  · unfold extractVersion at he
                    obtain ⟨⟨_, _⟩, _, he⟩ := bind_ok.1 he
                    obtain ⟨_, _, he⟩ := bind_ok.1 he
                    obtain ⟨_, _, he⟩ := bind_ok.1 he
                    obtain ⟨_, _, he⟩ := bind_ok.1 he
                    cases he; exact ⟨rfl, rfl⟩
                  · cases he; exact ⟨rfl, rfl⟩
                have h2 : d.gotAck = e.gotAck ∧ d.gotNack = e.gotNack := by
                  split at hd
                  · unfold extractModule at hd
                    obtain ⟨_, _, hd⟩ := bind_ok.1 hd
                    cases hd; exact ⟨rfl, rfl⟩
                  · cases hd; exact ⟨rfl, rfl⟩
                exact ⟨this.1.trans (h2.1.trans h1.1), this.2.trans (h2.2.trans h1.2)⟩
            exact key _ _ _ _ hv
          clear hr hv core
          simp [hk.1, hk.2, h2, h3]
        · cases h
      · cases h; simp_all
    · cases h; simp_all

/-- One `read_cb` call is one step of the scanner. -/
theorem readCb_sim {u u' : Ubx} {t : Tail} {b : Byte} {r : Bool} {ds : List Delivery}
    (hwf : WF u) (ha : Abs u t) (h : readCb u b = .ok (u', r, ds)) :
    Abs u' (rxStep t b).1 ∧ StepOk u u' (rxStep t b).2 r ds := by
  obtain ⟨w1, w2, w3⟩ := hwf
  match t with
  | .idle p =>
    obtain ⟨hs, hst, hp⟩ := ha
    unfold readCb START_BYTE_1 START_BYTE_2 at h
    simp only [hs] at h
    split at h
    · rename_i hh
      rw [afterSwitch_quiet _ (by simp)] at h
      cases h
      have e : rxStep (.idle p) b = (.opened [], none) := by
        simp only [rxStep]; rw [if_pos ⟨by rw [← hp]; exact hh.2, hh.1⟩]
      rw [e]
      exact ⟨⟨rfl, rfl, rfl, rfl⟩, StepOk.of_quiet ⟨w1, w2, w3⟩ rfl rfl rfl rfl rfl rfl rfl rfl rfl rfl rfl⟩
    · rename_i hh
      rw [afterSwitch_quiet _ (by simp [hs])] at h
      cases h
      have e : rxStep (.idle p) b = (.idle b, none) := by
        simp only [rxStep]; rw [if_neg (fun hc => hh ⟨hc.2, by rw [hp]; exact hc.1⟩)]
      rw [e]
      exact ⟨⟨hs, hst, rfl⟩, StepOk.of_quiet ⟨w1, w2, w3⟩ rfl rfl rfl rfl rfl rfl rfl rfl rfl rfl rfl⟩
  | .opened [] =>
    obtain ⟨hst, hen, hs, hh⟩ := ha
    unfold readCb at h
    simp only [hs] at h
    rw [afterSwitch_quiet _ (by simp)] at h
    cases h
    exact ⟨⟨hst, hen, rfl, hh, rfl⟩, StepOk.of_quiet ⟨w1, w2, w3⟩ rfl rfl rfl rfl rfl rfl rfl rfl rfl rfl rfl⟩
  | .opened [c] =>
    obtain ⟨hst, hen, hs, hh, hc⟩ := ha
    unfold readCb at h
    simp only [hs] at h
    rw [afterSwitch_quiet _ (by simp)] at h
    cases h
    exact ⟨⟨hst, hen, rfl, hh, hc, rfl⟩, StepOk.of_quiet ⟨w1, w2, w3⟩ rfl rfl rfl rfl rfl rfl rfl rfl rfl rfl rfl⟩
  | .opened [c, i] =>
    obtain ⟨hst, hen, hs, hh, hc, hi⟩ := ha
    unfold readCb at h
    simp only [hs] at h
    rw [afterSwitch_quiet _ (by simp)] at h
    cases h
    exact ⟨⟨hst, hen, rfl, hh, hc, hi, rfl⟩, StepOk.of_quiet ⟨w1, w2, w3⟩ rfl rfl rfl rfl rfl rfl rfl rfl rfl rfl rfl⟩
  | .opened [c, i, lo] =>
    obtain ⟨hst, hen, hs, hh, hc, hi, hl⟩ := ha
    unfold readCb BUFFER_SIZE at h
    simp only [hs, hl, or_shift_eq] at h
    split at h
    · rename_i h2
      cases h
      have e : rxStep (.opened [c, i, lo]) b = (.idle b, some .tooLong) := by
        simp only [rxStep, List.cons_append, List.nil_append]; rw [if_pos h2]
      rw [e]
      refine ⟨⟨rfl, rfl, rfl⟩, ?_⟩
      constructor <;> simp [restart]
      exact ⟨w1, w2, w3⟩
    · rename_i h2
      rw [afterSwitch_quiet _ (by simp)] at h
      cases h
      have e : rxStep (.opened [c, i, lo]) b = (.opened [c, i, lo, b], none) := by
        simp only [rxStep, List.cons_append, List.nil_append]; rw [if_neg h2]
        split
        · rfl
        · rw [if_neg (by simp)]
      rw [e]
      refine ⟨⟨hst, hen, hc, hi, rfl, by simp only; omega, ?_⟩,
        StepOk.of_quiet ⟨w1, w2, w3⟩ rfl rfl rfl rfl rfl rfl rfl rfl rfl rfl rfl⟩
      by_cases h0 : lo.toNat + 256 * b.toNat = 0
      · exact .inl ⟨h0, rfl, hh⟩
      · exact .inr (.inl ⟨by simp only [List.length_nil]; omega, rfl, hh, rfl⟩)
  | .opened (c :: i :: lo :: hi :: p) =>
    obtain ⟨hst, hen, hc, hi', hl, hle, hcase⟩ := ha
    rcases hcase with ⟨h0, hs, hh⟩ | ⟨hpl, hs, hh, hp⟩ | ⟨h0, hpl, hs, hp⟩ | ⟨h0, hpl, hs, hp⟩
    · unfold readCb at h
      simp only [hs] at h
      rw [if_neg (by omega), afterSwitch_quiet _ (by simp [hs])] at h
      cases h
      have e : rxStep (.opened (c :: i :: lo :: hi :: p)) b = (.opened (c :: i :: lo :: hi :: (p ++ [b])), none) := by
        simp only [rxStep, List.cons_append]; rw [if_neg (by omega), if_pos (by omega)]
      rw [e]
      exact ⟨⟨hst, hen, hc, hi', hl, hle, .inl ⟨h0, hs, hh⟩⟩,
        StepOk.of_quiet ⟨w1, w2, w3⟩ rfl rfl rfl rfl rfl rfl rfl rfl rfl rfl rfl⟩
    · unfold readCb at h
      simp only [hs] at h
      rw [if_pos (by omega), hh, wr_ok (by omega)] at h
      simp only [ok_bind] at h
      rw [afterSwitch_quiet _ (by simp only; split <;> simp)] at h
      cases h
      have e : rxStep (.opened (c :: i :: lo :: hi :: p)) b = (.opened (c :: i :: lo :: hi :: (p ++ [b])), none) := by
        simp only [rxStep, List.cons_append]
        rw [if_neg (by omega), if_neg (by omega), if_neg (by simp; omega)]
      rw [e]
      refine ⟨⟨hst, hen, hc, hi', hl, hle, ?_⟩,
        StepOk.of_quiet ⟨by simp [w1], w2, w3⟩ rfl rfl rfl rfl rfl rfl rfl rfl rfl rfl rfl⟩
      have ht : (u.inMsg.set p.length b).take (p ++ [b]).length = p ++ [b] := by
        rw [List.length_append]
        have := take_set_succ b (by omega : p.length < u.inMsg.length)
        simpa [hp] using this
      by_cases hlast : p.length = u.length - 1
      · right; right; left
        exact ⟨by simp only; omega, by simp only [List.length_append, List.length_cons, List.length_nil]; omega,
          by simp only; rw [if_pos hlast], ht⟩
      · right; left
        exact ⟨by simp only [List.length_append, List.length_cons, List.length_nil]; omega,
          by simp only; rw [if_neg hlast], by simp, ht⟩
    · unfold readCb at h
      simp only [hs] at h
      rw [afterSwitch_quiet _ (by simp)] at h
      cases h
      have e : rxStep (.opened (c :: i :: lo :: hi :: p)) b = (.opened (c :: i :: lo :: hi :: (p ++ [b])), none) := by
        simp only [rxStep, List.cons_append]
        rw [if_neg (by omega), if_neg (by omega), if_neg (by simp; omega)]
      rw [e]
      refine ⟨⟨hst, hen, hc, hi', hl, hle, ?_⟩,
        StepOk.of_quiet ⟨w1, w2, w3⟩ rfl rfl rfl rfl rfl rfl rfl rfl rfl rfl rfl⟩
      right; right; right
      exact ⟨h0, by simp; omega, rfl, by simp only [← hpl, hp]⟩
    · unfold readCb at h
      simp only [hs] at h
      unfold afterSwitch at h
      rw [if_pos rfl] at h
      have hbody : u.inMsg.take u.length = p.take u.length := by
        rw [← hp, List.take_append_of_le_length (by simp; omega), List.take_take, Nat.min_self]
      have hd : p = p.take u.length ++ [u.ckA] := by rw [← hbody]; exact hp.symm
      have hlp : (p.take u.length).length = u.length := by simp; omega
      have eD : ∀ (v : Ubx), v.inMsg = u.inMsg → v.cls = c → v.typ = i → v.length = u.length →
          calcChecksum v.cls v.typ v.length v.inMsg =
            .ok (fletcherA (c :: i :: lo :: hi :: p.take u.length),
                 fletcherB (c :: i :: lo :: hi :: p.take u.length)) := by
        intro v h1 h2 h3 h4
        rw [h1, h2, h3, h4, calcChecksum_ok c i lo hi u.length u.inMsg (by omega) hl, hbody]
      have e : rxStep (.opened (c :: i :: lo :: hi :: p)) b = (.idle b, some
          (if u.ckA = fletcherA (c :: i :: lo :: hi :: p.take u.length) ∧
              b = fletcherB (c :: i :: lo :: hi :: p.take u.length)
           then .good c i (p.take u.length) else .badChecksum)) := by
        simp only [rxStep, List.cons_append]
        rw [if_neg (by omega), if_neg (by omega), if_pos (by simp; omega), ← hl]
        have t1 : (p ++ [b]).take u.length = p.take u.length := List.take_append_of_le_length (by omega)
        have t2 : (p ++ [b]).drop u.length = [u.ckA, b] := by
          rw [hd]
          generalize p.take u.length = q at *
          rw [List.append_assoc, ← hlp, List.drop_left]; rfl
        rw [t1, t2]
        simp
      rw [e]
      clear hp
      generalize hq : p.take u.length = q at *
      obtain ⟨⟨v, ok, ds'⟩, hdec, h⟩ := bind_ok.1 h
      unfold decodeMessage at hdec
      rw [eD _ rfl hc hi' rfl] at hdec
      simp only [ok_bind] at hdec
      split at hdec
      · rename_i hbad
        cases hdec
        simp only [Bool.false_eq_true, if_false, Except.ok.injEq, Prod.mk.injEq] at h
        obtain ⟨rfl, rfl, rfl⟩ := h
        rw [if_neg (by rintro ⟨h1, h2⟩; simp [h1, h2] at hbad)]
        refine ⟨⟨rfl, rfl, rfl⟩, ?_⟩
        constructor <;> simp
        exact ⟨w1, w2, w3⟩
      · rename_i hgood
        simp only [ne_eq, not_or, Decidable.not_not] at hgood
        obtain ⟨v', hm, hdec⟩ := bind_ok.1 hdec
        cases hdec
        simp only [if_true, Except.ok.injEq, Prod.mk.injEq] at h
        obtain ⟨rfl, rfl, rfl⟩ := h
        rw [if_pos ⟨hgood.1.symm, hgood.2.symm⟩]
        have hcore := handleMessage_core hm
        have hflag := handleMessage_flags hm
        obtain ⟨f1, f2, f3, f4, f5, f6, f7, f8, f9⟩ := hcore.fields
        simp only at f1 f2 f3 f4 f5 f6 f7 f8 f9
        refine ⟨⟨rfl, rfl, rfl⟩, ?_⟩
        simp only [hc, hi'] at hflag
        constructor
        · exact ⟨by simp only [f1, w1], by simp only [f2, w2], by simp only [f9, w3]⟩
        · exact f3
        · exact f4
        · exact f2
        · simp
        · simp
        · intro c' i'' p' hcip
          simp only [Option.some.injEq, Item.good.injEq] at hcip
          obtain ⟨rfl, rfl, rfl⟩ := hcip
          refine ⟨u.inMsg, w1, ?_, ?_⟩
          · rw [hlp, hbody]
          · simp only [dispatch, subscribed, f1, f3, f4, f7, f8, hc, hi']
        · simp [f5]
        · simp [f6]
        · simp only [Option.some.injEq, Item.good.injEq]
          rw [hflag.1]; simp
        · simp only [Option.some.injEq, Item.good.injEq]
          rw [hflag.2.1]; simp
        · simp only [Option.some.injEq, Item.good.injEq]
          rw [hflag.2.2.1]; simp
        · intro hne
          exact hflag.2.2.2 (fun hc => hne q (by rw [hc.1, hc.2]))

end Ubx
end Ublox
