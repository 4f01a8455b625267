import Verif.Spec.Interleave
import Verif.Props.Ack

/-!
# C119: sending does not disturb receiving, receiving does not disturb sending
-/

namespace Ublox.Ubx

/-! ## What receiving depends on -/

/-- Forget the fields that only concern sending and waiting. -/
def rxPart (u : Ubx) : Ubx := { u with outMsg := [], gotVer := false, gotAck := false, gotNack := false }

/-- The same, in what a byte gives. -/
def rxPart3 (x : Ubx × Bool × List Delivery) : Ubx × Bool × List Delivery := (rxPart x.1, x.2)

theorem extractVersion_rx (u : Ubx) (off : Nat) : extractVersion (rxPart u) off = (extractVersion u off).map rxPart := by
  unfold extractVersion
  show (majorLoop u.inMsg 5 (off + 8) [] >>= _) = _
  cases majorLoop u.inMsg 5 (off + 8) [] with
  | error e => rfl
  | ok x =>
    obtain ⟨tmp, s⟩ := x
    rw [ok_bind, ok_bind]
    dsimp only
    cases atoi tmp with
    | error e => rfl
    | ok m =>
      rw [ok_bind, ok_bind]
      show (minorLoop u.inMsg 5 s [] >>= _) = _
      cases minorLoop u.inMsg 5 s [] with
      | error e => rfl
      | ok t =>
        rw [ok_bind, ok_bind]
        cases atoi t with
        | error e => rfl
        | ok n => rfl

theorem extractModule_rx (u : Ubx) (off : Nat) : extractModule (rxPart u) off = (extractModule u off).map rxPart := by
  unfold extractModule
  show (modLoop u.inMsg 10 0 (off + 4) u.modName >>= _) = _
  cases modLoop u.inMsg 10 0 (off + 4) u.modName with
  | error e => rfl
  | ok x => rfl

theorem versionRow_rx (u : Ubx) (i : Nat) : versionRow (rxPart u) i = (versionRow u i).map rxPart := by
  unfold versionRow
  have h1 : (if prefixAt (rxPart u).inMsg (extOff i) protver then extractVersion (rxPart u) (extOff i) else .ok (rxPart u)) =
      (if prefixAt u.inMsg (extOff i) protver then extractVersion u (extOff i) else .ok u).map rxPart := by
    show (if prefixAt u.inMsg (extOff i) protver then _ else _) = _
    split
    · exact extractVersion_rx u _
    · rfl
  rw [h1]
  cases (if prefixAt u.inMsg (extOff i) protver then extractVersion u (extOff i) else .ok u) with
  | error e => rfl
  | ok v =>
    rw [ok_bind]
    show (if prefixAt v.inMsg (extOff i) modEq then extractModule (rxPart v) (extOff i) else .ok (rxPart v)) = _
    split
    · exact extractModule_rx v _
    · rfl

theorem versionRows_rx (n i : Nat) (u : Ubx) : versionRows n i (rxPart u) = (versionRows n i u).map rxPart := by
  induction n generalizing i u with
  | zero => rfl
  | succ n ih =>
    unfold versionRows
    rw [versionRow_rx]
    cases versionRow u i with
    | error e => rfl
    | ok v => exact ih (i + 1) v

theorem versionCb_rx (u : Ubx) : (versionCb (rxPart u)).map rxPart = (versionCb u).map rxPart := by
  unfold versionCb
  rw [versionRows_rx]
  cases versionRows 20 0 u with
  | error e => rfl
  | ok v =>
    show (Except.map rxPart (if v.modName.contains 0 then _ else _)) = Except.map rxPart (if v.modName.contains 0 then _ else _)
    split <;> rfl

theorem handleMessage_rx (u : Ubx) : (handleMessage (rxPart u)).map rxPart = (handleMessage u).map rxPart := by
  unfold handleMessage
  show Except.map rxPart (if u.cls = CLASS_ACK then if u.typ = ACK_ACK then _ else if u.typ = ACK_NACK then _ else _
    else if u.cls = CLASS_MON then if u.typ = MON_VER then _ else _ else _) = _
  split
  · split
    · rfl
    · split <;> rfl
  · split
    · split
      · exact versionCb_rx u
      · rfl
    · rfl

theorem decodeMessage_rx (u : Ubx) : (decodeMessage (rxPart u)).map rxPart3 = (decodeMessage u).map rxPart3 := by
  unfold decodeMessage
  show Except.map rxPart3 (calcChecksum u.cls u.typ u.length u.inMsg >>= _) = _
  cases calcChecksum u.cls u.typ u.length u.inMsg with
  | error e => rfl
  | ok x =>
    obtain ⟨a, b⟩ := x
    rw [ok_bind, ok_bind]
    dsimp only
    show Except.map rxPart3 (if a ≠ u.ckA ∨ b ≠ u.ckB then _ else _) = _
    split
    · rfl
    · have h := handleMessage_rx { u with numMsgs := (u.numMsgs + 1) % 2 ^ 32 }
      show Except.map rxPart3 (handleMessage (rxPart { u with numMsgs := (u.numMsgs + 1) % 2 ^ 32 }) >>= _) = _
      cases h1 : handleMessage { u with numMsgs := (u.numMsgs + 1) % 2 ^ 32 } with
      | error e =>
        rw [h1] at h
        cases h2 : handleMessage (rxPart { u with numMsgs := (u.numMsgs + 1) % 2 ^ 32 }) with
        | error e' => rw [h2] at h; cases h; rfl
        | ok v => rw [h2] at h; cases h
      | ok w =>
        rw [h1] at h
        cases h2 : handleMessage (rxPart { u with numMsgs := (u.numMsgs + 1) % 2 ^ 32 }) with
        | error e' => rw [h2] at h; cases h
        | ok v =>
          rw [h2] at h
          have e : rxPart v = rxPart w := Except.ok.inj h
          have ed : dispatch v = dispatch w := by
            show dispatch (rxPart v) = dispatch (rxPart w)
            rw [e]
          show Except.ok (rxPart v, true, dispatch v) = Except.ok (rxPart w, true, dispatch w)
          rw [e, ed]

theorem afterSwitch_rx (u : Ubx) (b : Byte) : (afterSwitch (rxPart u) b).map rxPart3 = (afterSwitch u b).map rxPart3 := by
  unfold afterSwitch
  show Except.map rxPart3 (if u.state = .gotCkB then _ else _) = _
  split
  · have h := decodeMessage_rx u
    cases h1 : decodeMessage u with
    | error e =>
      rw [h1] at h
      cases h2 : decodeMessage (rxPart u) with
      | error e' => rw [h2] at h; cases h; rfl
      | ok v => rw [h2] at h; cases h
    | ok w =>
      rw [h1] at h
      cases h2 : decodeMessage (rxPart u) with
      | error e' => rw [h2] at h; cases h
      | ok v =>
        rw [h2] at h
        obtain ⟨w, ok, ds⟩ := w
        obtain ⟨v, ok', ds'⟩ := v
        have e := Except.ok.inj h
        have e1 : rxPart v = rxPart w := congrArg Prod.fst e
        have e2 : ok' = ok := congrArg (fun x => x.2.1) e
        have e3 : ds' = ds := congrArg (fun x => x.2.2) e
        subst e2 e3
        rw [ok_bind, ok_bind]
        cases ok' with
        | true =>
          have := congrArg (fun z : Ubx => { z with state := PState.start, endMsg := true, startMsg := false, prev := b }) e1
          exact congrArg (fun z => Except.ok (z, true, ds')) this
        | false =>
          have := congrArg (fun z : Ubx => { z with numErrors := (z.numErrors + 1) % 2 ^ 32, state := PState.start, startMsg := false, endMsg := false, prev := b }) e1
          exact congrArg (fun z => Except.ok (z, false, ([] : List Delivery))) this
  · rfl

theorem readCb_rx (u : Ubx) (b : Byte) : (readCb (rxPart u) b).map rxPart3 = (readCb u b).map rxPart3 := by
  have hs' : (rxPart u).state = u.state := rfl
  unfold readCb
  rw [hs']
  cases hs : u.state
  case start =>
    dsimp only
    show Except.map rxPart3 (if b = START_BYTE_2 ∧ u.prev = START_BYTE_1 then _ else _) = _
    split
    · exact afterSwitch_rx ({ u with head := 0, state := .gotStartFrame, cls := 0, typ := 0, length := 0, ckA := 0, ckB := 0, startMsg := true, endMsg := false }) b
    · exact afterSwitch_rx u b
  case gotStartFrame => exact afterSwitch_rx ({ u with cls := b, state := .gotClass }) b
  case gotClass => exact afterSwitch_rx ({ u with typ := b, state := .gotMsgId }) b
  case gotMsgId => exact afterSwitch_rx ({ u with length := b.toNat, state := .gotLength1 }) b
  case gotLength1 =>
    dsimp only
    show Except.map rxPart3 (if u.length ||| (b.toNat <<< 8) > BUFFER_SIZE then _ else _) = _
    split
    · rfl
    · exact afterSwitch_rx ({ u with length := u.length ||| (b.toNat <<< 8), state := .gotLength2 }) b
  case gotLength2 =>
    dsimp only
    show Except.map rxPart3 (if u.head < u.length then (wr u.inMsg u.head b >>= _) else _) = _
    split
    · cases wr u.inMsg u.head b with
      | error e => rfl
      | ok buf =>
        exact afterSwitch_rx ({ u with inMsg := buf, state := if u.head = u.length - 1 then .gotPayload else .gotLength2, head := u.head + 1 }) b
    · exact afterSwitch_rx u b
  case gotPayload => exact afterSwitch_rx ({ u with ckA := b, state := .gotCkA }) b
  case gotCkA => exact afterSwitch_rx ({ u with ckB := b, state := .gotCkB }) b
  all_goals
    exact afterSwitch_rx ({ u with numErrors := (u.numErrors + 1) % 2 ^ 32, state := .start, endMsg := false, startMsg := false }) b

/-! ## What sending depends on -/

/-- What matters of the result of a command: the output buffer, the protocol version and the bytes written. -/
def txPart (x : Ubx × List Byte) : List Byte × Int × List Byte := (x.1.outMsg, x.1.major, x.2)

/-- The command looks at nothing but the output buffer and the protocol version. -/
def Local (c : Cmd) : Prop := ∀ u v : Ubx, u.outMsg = v.outMsg → u.major = v.major → (c u).map txPart = (c v).map txPart

theorem map_cases {α β : Type} {f : α → β} {x y : M α} (h : x.map f = y.map f) :
    (∃ e, x = .error e ∧ y = .error e) ∨ ∃ a b, x = .ok a ∧ y = .ok b ∧ f a = f b := by
  cases x with
  | error e =>
    cases y with
    | error e' => cases h; exact .inl ⟨e, rfl, rfl⟩
    | ok b => cases h
  | ok a =>
    cases y with
    | error e' => cases h
    | ok b => exact .inr ⟨a, b, rfl, rfl, Except.ok.inj h⟩

theorem Local.andThen {c d : Cmd} (hc : Local c) (hd : Local d) : Local (andThen c d) := by
  intro u v h1 h2
  unfold Ubx.andThen
  rcases map_cases (hc u v h1 h2) with ⟨e, a, b⟩ | ⟨⟨u1, w1⟩, ⟨v1, w1'⟩, a, b, e⟩
  · rw [a, b]
  · have e1 : u1.outMsg = v1.outMsg := congrArg (·.1) e
    have e2 : u1.major = v1.major := congrArg (·.2.1) e
    have e3 : w1 = w1' := congrArg (·.2.2) e
    subst e3
    rw [a, b, ok_bind, ok_bind]
    dsimp only
    rcases map_cases (hd u1 v1 e1 e2) with ⟨e, a', b'⟩ | ⟨⟨u2, w2⟩, ⟨v2, w2'⟩, a', b', e'⟩
    · rw [a', b']
    · have f1 : u2.outMsg = v2.outMsg := congrArg (·.1) e'
      have f2 : u2.major = v2.major := congrArg (·.2.1) e'
      have f3 : w2 = w2' := congrArg (·.2.2) e'
      subst f3
      rw [a', b', ok_bind, ok_bind]
      show Except.ok (u2.outMsg, u2.major, w1 ++ w2) = Except.ok (v2.outMsg, v2.major, w1 ++ w2)
      rw [f1, f2]

theorem Local.setOut (off : Nat) (bs : List Byte) : Local (setOut off bs) := by
  intro u v h1 h2
  unfold Ubx.setOut
  rw [h1]
  cases wrs v.outMsg off bs with
  | error e => rfl
  | ok buf =>
    show Except.ok (buf, u.major, ([] : List Byte)) = Except.ok (buf, v.major, [])
    rw [h2]

theorem Local.skip : Local fun u => .ok (u, []) := by
  intro u v h1 h2
  show Except.ok (u.outMsg, u.major, ([] : List Byte)) = Except.ok (v.outMsg, v.major, [])
  rw [h1, h2]

theorem Local.send (c i : Byte) (n : Nat) : Local (sendMessage c i n) := by
  intro u v h1 h2
  unfold sendMessage
  rw [h1]
  cases calcChecksum c i n v.outMsg with
  | error e => rfl
  | ok x =>
    rw [ok_bind, ok_bind]
    cases readN v.outMsg n 0 with
    | error e => rfl
    | ok p =>
      show Except.ok (u.outMsg, u.major, _) = Except.ok (v.outMsg, v.major, _)
      rw [h1, h2]

theorem Local.version {c d : Cmd} (hc : Local c) (hd : Local d) : Local fun u => if u.major ≤ 23 then c u else d u := by
  intro u v h1 h2
  dsimp only
  rw [h2]
  split
  · exact hc u v h1 h2
  · exact hd u v h1 h2

theorem Local.option {p : Prop} [Decidable p] {c : Cmd} (hc : Local c) : Local fun u => if p then c u else .ok (u, []) := by
  intro u v h1 h2
  dsimp only
  split
  · exact hc u v h1 h2
  · exact Local.skip u v h1 h2

theorem Local.configure (v l : Byte) (d : BitVec 64) (k : BitVec 32) (s : Byte) : Local (configure v l d k s) :=
  (Local.setOut _ _).andThen <| (Local.setOut _ _).andThen <| (Local.setOut _ _).andThen <|
  (Local.option (Local.setOut _ _)).andThen <| (Local.option (Local.setOut _ _)).andThen <|
  (Local.setOut _ _).andThen (Local.send _ _ _)

theorem Local.run (c : Command) : Local c.run := by
  cases c with
  | configure v l d k s => exact Local.configure v l d k s
  | getConfiguration v l k =>
    exact (Local.setOut _ _).andThen <| (Local.setOut _ _).andThen <| (Local.setOut _ _).andThen <|
      (Local.setOut _ _).andThen (Local.send _ _ _)
  | enableMessage c i r =>
    exact (Local.setOut _ _).andThen <| (Local.setOut _ _).andThen <| (Local.setOut _ _).andThen <|
      (Local.setOut _ _).andThen (Local.send _ _ _)
  | setNavRate p =>
    exact Local.version
      ((Local.setOut _ _).andThen <| (Local.setOut _ _).andThen <| (Local.setOut _ _).andThen <|
        (Local.setOut _ _).andThen (Local.send _ _ _))
      ((Local.configure _ _ _ _ _).andThen <| (Local.configure _ _ _ _ _).andThen (Local.configure _ _ _ _ _))
  | disableNmea =>
    exact Local.version
      ((Local.setOut _ _).andThen <| (Local.setOut _ _).andThen <| (Local.setOut _ _).andThen <|
        (Local.setOut _ _).andThen <| (Local.setOut _ _).andThen <| (Local.setOut _ _).andThen (Local.send _ _ _))
      ((Local.configure _ _ _ _ _).andThen (Local.configure _ _ _ _ _))
  | setDynamicMode =>
    exact Local.version
      ((Local.setOut _ _).andThen <| (Local.setOut _ _).andThen <| (Local.setOut _ _).andThen (Local.send _ _ _))
      (Local.configure _ _ _ _ _)
  | startSurveyIn =>
    exact (Local.setOut _ _).andThen <| (Local.setOut _ _).andThen <| (Local.setOut _ _).andThen (Local.send _ _ _)
  | pollVersion =>
    intro u v h1 h2
    exact Local.send _ _ _ { u with gotVer := false } { v with gotVer := false } h1 h2

/-! ## The theorems -/

theorem work_byte (u : Ubx) (b : Byte) (as : List Act) :
    work u (.byte b :: as) = readCb u b >>= fun x => work x.1 as >>= fun y => .ok (y.1, (x.2.1, x.2.2) :: y.2.1, y.2.2) := rfl

theorem work_call (u : Ubx) (c : Command) (as : List Act) :
    work u (.call c :: as) = c.run u >>= fun x => work x.1 as >>= fun y => .ok (y.1, y.2.1, x.2 ++ y.2.2) := rfl

theorem work_forget (u : Ubx) (as : List Act) :
    work u (.forget :: as) = work { u with gotAck := false, gotNack := false } as := rfl

/-- The receiving part of the work. -/
theorem work_rx {as : List Act} : ∀ {u v : Ubx} {hist : List Byte}, Reach u hist → rxPart u = rxPart v →
    (∀ u' outs w, work u as = .ok (u', outs, w) → ∃ v', feed v (received as) = .ok (v', outs) ∧ rxPart u' = rxPart v') ∧
    (∀ e, work u as = .error e → feed v (received as) = .error e) := by
  induction as with
  | nil =>
    intro u v hist _ hr
    refine ⟨fun u' outs w h => ?_, fun e h => by cases h⟩
    cases h
    exact ⟨v, rfl, hr⟩
  | cons a as ih =>
    intro u v hist h hr
    cases a with
    | byte b =>
      have e : (readCb u b).map rxPart3 = (readCb v b).map rxPart3 := by rw [← readCb_rx u, ← readCb_rx v, hr]
      show (∀ u' outs w, work u (.byte b :: as) = _ → ∃ v', feed v (b :: received as) = _ ∧ _) ∧
        (∀ e, _ → feed v (b :: received as) = _)
      rw [work_byte, feed_cons]
      rcases map_cases e with ⟨x, a1, a2⟩ | ⟨⟨u1, r, ds⟩, ⟨v1, r', ds'⟩, a1, a2, e'⟩
      · rw [a1, a2]
        exact ⟨fun u' outs w h => (by cases h), fun e h => (by cases h; rfl)⟩
      · have e1 : rxPart u1 = rxPart v1 := congrArg (·.1) e'
        have e2 : r = r' := congrArg (·.2.1) e'
        have e3 : ds = ds' := congrArg (·.2.2) e'
        subst e2 e3
        obtain ⟨i1, i2⟩ := ih (h.byte a1) e1
        rw [a1, a2, ok_bind]
        dsimp only
        constructor
        · intro u' outs w hw
          obtain ⟨⟨u2, o2, w2⟩, hw2, hw⟩ := bind_ok.1 hw
          obtain ⟨v2, hv2, hr2⟩ := i1 _ _ _ hw2
          cases hw
          refine ⟨v2, ?_, hr2⟩
          rw [ok_bind]
          dsimp only
          rw [hv2]
          rfl
        · intro x hx
          cases hw : work u1 as with
          | error e => rw [hw] at hx; cases hx; rw [ok_bind]; dsimp only; rw [i2 _ hw]; rfl
          | ok y => rw [hw] at hx; cases hx
    | call c =>
      show (∀ u' outs w, work u (.call c :: as) = _ → ∃ v', feed v (received as) = _ ∧ _) ∧ (∀ e, _ → feed v (received as) = _)
      rw [work_call]
      obtain ⟨o, g, w, ho, hc⟩ := run_shape c u h.inv.wf.2
      rw [hc, ok_bind]
      dsimp only
      obtain ⟨i1, i2⟩ := ih (h.command c hc) (v := v) (by rw [← hr]; rfl)
      constructor
      · intro u' outs w hw
        obtain ⟨⟨u2, o2, w2⟩, hw2, hw⟩ := bind_ok.1 hw
        cases hw
        exact i1 _ _ _ hw2
      · intro x hx
        cases hw : work { u with outMsg := o, gotVer := g } as with
        | error e => rw [hw] at hx; cases hx; exact i2 _ hw
        | ok y => rw [hw] at hx; cases hx
    | forget =>
      show (∀ u' outs w, work u (.forget :: as) = _ → ∃ v', feed v (received as) = _ ∧ _) ∧ (∀ e, _ → feed v (received as) = _)
      rw [work_forget]
      exact ih h.clearAck (by rw [← hr]; rfl)

/-- **C119, receiving.** Whatever configuration calls the application makes, and whenever, even in the middle of a message:
every received byte shows exactly what it would show had no call been made, and counters, version and progress are the same
too; and where one is undefined so is the other. -/
theorem c119_receiving {u : Ubx} {hist : List Byte} (h : Reach u hist) (as : List Act) :
    (∀ u' outs w, work u as = .ok (u', outs, w) → ∃ v', feed u (received as) = .ok (v', outs) ∧
      u'.numMessagesReceived = v'.numMessagesReceived ∧ u'.numErrors = v'.numErrors ∧ u'.parsingMessage = v'.parsingMessage ∧
      u'.major = v'.major ∧ u'.minor = v'.minor ∧ u'.modName = v'.modName) ∧
    (∀ e, work u as = .error e ↔ feed u (received as) = .error e) := by
  obtain ⟨h1, h2⟩ := work_rx h (as := as) rfl
  constructor
  · intro u' outs w hw
    obtain ⟨v', hv, hr⟩ := h1 u' outs w hw
    exact ⟨v', hv, (congrArg Ubx.numMsgs hr :), (congrArg Ubx.numErrors hr :), (congrArg Ubx.parsingMessage hr :),
      (congrArg Ubx.major hr :), (congrArg Ubx.minor hr :), (congrArg Ubx.modName hr :)⟩
  · intro e
    refine ⟨h2 e, fun he => ?_⟩
    cases hw : work u as with
    | error e' => rw [h2 e' hw] at he; cases he; rfl
    | ok x =>
      obtain ⟨v', hv, -⟩ := h1 x.1 x.2.1 x.2.2 hw
      rw [hv] at he
      cases he

theorem arrived_cons (hist : List Byte) (b : Byte) (s : List Byte) : arrived hist (b :: s) = arrived hist [b] ++ arrived (hist ++ [b]) s :=
  arrived_append hist [b] s

theorem work_tx {as : List Act} : ∀ {u v : Ubx} {hist : List Byte}, Reach u hist → u.outMsg = v.outMsg → u.major = v.major →
    (∀ p, Item.good 0x0A 0x04 p ∉ arrived hist (received as)) →
    ∃ u' outs w v', work u as = .ok (u', outs, w) ∧ runCommands (called as) v = .ok (v', w) := by
  induction as with
  | nil => intro u v hist _ _ _ _; exact ⟨u, [], [], v, rfl, rfl⟩
  | cons a as ih =>
    intro u v hist h h1 h2 hn
    cases a with
    | byte b =>
      have e : received (.byte b :: as) = b :: received as := rfl
      rw [e, arrived_cons] at hn
      have hn1 : ∀ p, Item.good 0x0A 0x04 p ∉ arrived hist [b] := fun p hp => hn p (List.mem_append_left _ hp)
      have hn2 : ∀ p, some (Item.good 0x0A 0x04 p) ∉ (rxRun (tailOf hist) [b]).2 := by
        intro p hp
        apply hn1 p
        rw [arrived_eq]
        exact List.mem_filterMap.2 ⟨_, hp, rfl⟩
      obtain ⟨u1, o1, hf⟩ := feed_total h.inv.wf h.inv.abs hn2
      have ok := feed_sim h.inv.wf h.inv.abs hf
      rw [feed_cons] at hf
      obtain ⟨⟨u2, r, ds⟩, hb, hf⟩ := bind_ok.1 hf
      have hf' : u2 = u1 := by cases hf; rfl
      subst hf'
      obtain ⟨u', outs, w, v', hw, hc⟩ := ih (h.byte hb) (ok.out.trans h1) ((ok.verKeep hn2).1.trans h2)
        (fun p hp => hn p (List.mem_append_right _ hp))
      refine ⟨u', (r, ds) :: outs, w, v', ?_, hc⟩
      rw [work_byte, hb, ok_bind]
      dsimp only
      rw [hw]
      rfl
    | call c =>
      obtain ⟨o, g, w1, ho, hc⟩ := run_shape c u h.inv.wf.2
      rcases map_cases (Local.run c u v h1 h2) with ⟨e, a1, a2⟩ | ⟨⟨u1, w1'⟩, ⟨v1, w1''⟩, a1, a2, e⟩
      · rw [hc] at a1; cases a1
      · have e1 : u1.outMsg = v1.outMsg := congrArg (·.1) e
        have e2 : u1.major = v1.major := congrArg (·.2.1) e
        have e3 : w1' = w1'' := congrArg (·.2.2) e
        subst e3
        obtain ⟨u', outs, w, v', hw, hcs⟩ := ih (h.command c a1) e1 e2 hn
        refine ⟨u', outs, w1' ++ w, v', ?_, ?_⟩
        · rw [work_call, a1, ok_bind]
          dsimp only
          rw [hw]
          rfl
        · show andThen c.run (runCommands (called as)) v = _
          exact andThen_ok a2 hcs
    | forget => exact ih h.clearAck h1 h2 hn

/-- **C119, sending.** Whatever is received, and whenever, as long as no version report (MON-VER) is among it: the work is
defined and the bytes written are exactly those the calls write one after the other with nothing received. -/
theorem c119_sending {u : Ubx} {hist : List Byte} (h : Reach u hist) (as : List Act)
    (hn : ∀ p, Item.good 0x0A 0x04 p ∉ arrived hist (received as)) :
    ∃ u' outs w v', work u as = .ok (u', outs, w) ∧ runCommands (called as) u = .ok (v', w) :=
  work_tx h rfl rfl hn

/-- A message is received in two pieces; between them the application waits for an answer and calls `enable_message`. -/
def exActs : List Act :=
  ((ubxFrame 0x01 0x07 [1, 2, 3]).take 8).map .byte ++ [.forget, .call (.enableMessage 0x01 0x3C 1)] ++
    ((ubxFrame 0x01 0x07 [1, 2, 3]).drop 8).map .byte

/-- The message is delivered, the command is written, and the hypotheses of `c119_sending` are met. -/
example : received exActs = ubxFrame 0x01 0x07 [1, 2, 3] ∧
    (∀ p, Item.good 0x0A 0x04 p ∉ arrived [] (received exActs)) ∧
    (work exU exActs).toOption.map (fun x => (x.2.1.map (·.1), x.2.2)) =
      some (List.replicate 10 false ++ [true], wireBytes [(0x06, 0x01, [0x01, 0x3C, 1])]) := by
  refine ⟨by decide +kernel, fun p hp => ?_, by decide +kernel⟩
  have e : arrived [] (received exActs) = [.good 0x01 0x07 [1, 2, 3]] := by decide +kernel
  rw [e] at hp
  cases List.mem_singleton.1 hp

end Ublox.Ubx
