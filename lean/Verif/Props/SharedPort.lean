import Verif.Model.SharedPort
import Verif.Lemmas.UbxCmd

/-!
# C99: commands and corrections on one port
-/

namespace Ublox.Port

/-- A message: class, id, payload. -/
abbrev Msg := Byte × Byte × List Byte

/-- The frame of a message. -/
def frame (m : Msg) : List Byte := ubxFrame m.1 m.2.1 m.2.2

/-- The separate writes that make up the frame of a message. -/
def writes (m : Msg) : List (List Byte) :=
  [[0xB5], [0x62], [m.1], [m.2.1], [BitVec.ofNat 8 m.2.2.length], [BitVec.ofNat 8 (m.2.2.length / 256)], m.2.2,
    [fletcherA (ubxBody m.1 m.2.1 m.2.2)], [fletcherB (ubxBody m.1 m.2.1 m.2.2)]]

/-- `units` is `a` and `b` merged, each in its order. -/
inductive Merged : List (List Byte) → List (List Byte) → List (List Byte) → Prop
  | nil : Merged [] [] []
  | left {a b u : List (List Byte)} (x : List Byte) : Merged a b u → Merged (a ++ [x]) b (u ++ [x])
  | right {a b u : List (List Byte)} (x : List Byte) : Merged a b u → Merged a (b ++ [x]) (u ++ [x])

/-- The buffers of the link, in order. -/
def links : List Ev → List (List Byte)
  | [] => []
  | .link b :: t => b :: links t
  | .command :: t => links t

/-- No buffer of the link is written while a command is being sent. -/
def Polite : Port → List Ev → Prop
  | _, [] => True
  | s, .link b :: t => s.busy = false ∧ Polite (step s (.link b)) t
  | s, .command :: t => Polite (step s .command) t

/-- Where a port starts. -/
def start (ms : List Msg) : Port := ⟨ms.map writes, false, []⟩

theorem links_append (a b : List Ev) : links (a ++ b) = links a ++ links b := by
  induction a with
  | nil => rfl
  | cons x t ih => cases x <;> simp [links, ih]

theorem writes_flatten (m : Msg) : (writes m).flatten = frame m := by
  simp [writes, frame, ubxFrame, ubxBody]

/-- What `send_message` writes are these writes. -/
theorem c99_writes (cls id : Byte) (len : Nat) (u : Ubx) (h : len ≤ u.outMsg.length) (h2 : len < 65536) :
    sendWrites cls id len u = .ok (writes (cls, id, u.outMsg.take len)) := by
  have hs := Ubx.sendMessage_ok cls id len u h h2
  unfold Ubx.sendMessage at hs
  unfold sendWrites
  obtain ⟨⟨a, b⟩, e1, hs⟩ := bind_ok.1 hs
  obtain ⟨p, e2, hs⟩ := bind_ok.1 hs
  rw [e1, ok_bind]
  dsimp only
  rw [e2, ok_bind]
  have hs := (Prod.mk.inj (Except.ok.inj hs)).2
  have hl : (u.outMsg.take len).length = len := by simp; omega
  unfold writes
  simp only [ubxFrame, ubxBody, List.cons_append, List.nil_append, List.cons.injEq] at hs ⊢
  obtain ⟨g1, g2, -, -, g5, g6, g7⟩ := hs
  have hp := List.append_inj' g7 rfl
  simp only [List.cons.injEq, and_true] at hp
  obtain ⟨q1, q2, q3⟩ := hp
  rw [g1, g2, g5, g6, q1, q2, q3]

/-- The invariant: the bytes written are whole units, followed by a beginning of the command in progress. -/
structure Inv (ms : List Msg) (ls : List (List Byte)) (s : Port) : Prop where
  shape : ∃ sent rest units, ms = sent ++ rest ∧ Merged (sent.map frame) ls units ∧
    ((s.busy = false ∧ s.todo = rest.map writes ∧ s.out = units.flatten) ∨
     (∃ m t pre post, s.busy = true ∧ rest = m :: t ∧ writes m = pre ++ post ∧ pre ≠ [] ∧ post ≠ [] ∧
       s.todo = post :: t.map writes ∧ s.out = units.flatten ++ pre.flatten))

theorem inv_start (ms : List Msg) : Inv ms [] (start ms) :=
  ⟨⟨[], ms, [], rfl, .nil, .inl ⟨rfl, rfl, rfl⟩⟩⟩

theorem inv_command {ms : List Msg} {ls : List (List Byte)} {s : Port} (h : Inv ms ls s) : Inv ms ls (step s .command) := by
  obtain ⟨sent, rest, units, e, hm, h | ⟨m, t, pre, post, b, rfl, ew, hpre, hpost, et, eo⟩⟩ := h
  · obtain ⟨b, et, eo⟩ := h
    cases rest with
    | nil =>
      refine ⟨sent, [], units, e, hm, .inl ?_⟩
      unfold step
      rw [et]
      exact ⟨b, et, eo⟩
    | cons m t =>
      refine ⟨sent, m :: t, units, e, hm, .inr ⟨m, t, [[0xB5]], (writes m).tail, ?_, rfl, rfl, by simp, by simp [writes], ?_, ?_⟩⟩
      all_goals
        unfold step
        rw [et]
      · rfl
      · rfl
      · show s.out ++ [0xB5] = _
        rw [eo]; rfl
  · cases post with
    | nil => exact absurd rfl hpost
    | cons w ws =>
      cases ws with
      | nil =>
        refine ⟨sent ++ [m], t, units ++ [frame m], by simp [e], ?_, .inl ?_⟩
        · rw [List.map_append]; exact .left _ hm
        · unfold step
          rw [et]
          refine ⟨rfl, rfl, ?_⟩
          show s.out ++ w = _
          rw [eo, ← writes_flatten, ew]
          simp
      | cons w' ws =>
        refine ⟨sent, m :: t, units, e, hm, .inr ⟨m, t, pre ++ [w], w' :: ws, ?_, rfl, by simp [ew], by simp, by simp, ?_, ?_⟩⟩
        all_goals
          unfold step
          rw [et]
        show s.out ++ w = _
        rw [eo]; simp

theorem inv_link {ms : List Msg} {ls : List (List Byte)} {s : Port} (h : Inv ms ls s) (b : List Byte) (hb : s.busy = false) :
    Inv ms (ls ++ [b]) (step s (.link b)) := by
  obtain ⟨sent, rest, units, e, hm, h | ⟨m, t, pre, post, hb', -⟩⟩ := h
  · obtain ⟨h1, et, eo⟩ := h
    refine ⟨sent, rest, units ++ [b], e, .right _ hm, .inl ⟨h1, et, ?_⟩⟩
    show s.out ++ b = _
    rw [eo]; simp
  · rw [hb] at hb'; exact absurd hb' (by decide)

theorem inv_run {ms : List Msg} {ls : List (List Byte)} {s : Port} (h : Inv ms ls s) (evs : List Ev) (hp : Polite s evs) :
    Inv ms (ls ++ links evs) (run s evs) := by
  induction evs generalizing s ls with
  | nil => simpa [links, run] using h
  | cons ev evs ih =>
    cases ev with
    | command => exact ih (inv_command h) hp
    | link b =>
      have := ih (inv_link h b hp.1) hp.2
      rw [show links (.link b :: evs) = [b] ++ links evs from rfl, ← List.append_assoc]
      exact this

/-- **C99, taking turns.** If no buffer of corrections comes in while a command is being written: whenever no command is in
progress, the receiver has been sent a sequence of whole command frames and whole buffers, each kind in its order, and the
frames are those of the first commands. -/
theorem c99_whole_partial (ms : List Msg) (evs : List Ev) (hp : Polite (start ms) evs) (hb : (run (start ms) evs).busy = false) :
    ∃ sent rest units, ms = sent ++ rest ∧ Merged (sent.map frame) (links evs) units ∧
      (run (start ms) evs).out = units.flatten ∧ (run (start ms) evs).todo = rest.map writes := by
  obtain ⟨sent, rest, units, e, hm, h | ⟨m, t, pre, post, hb', -⟩⟩ := (inv_run (inv_start ms) evs hp).shape
  · exact ⟨sent, rest, units, e, by simpa using hm, h.2.2, h.2.1⟩
  · rw [hb] at hb'; exact absurd hb' (by decide)

/-- The number of writes of some messages. -/
theorem run_commands (ms : List Msg) (o : List Byte) (t : List (List (List Byte))) :
    run ⟨ms.map writes ++ t, false, o⟩ (List.replicate (9 * ms.length) .command) = ⟨t, false, o ++ (ms.map frame).flatten⟩ := by
  induction ms generalizing o with
  | nil => simp [run]
  | cons m ms ih =>
    rw [show 9 * (m :: ms).length = 9 + 9 * ms.length by simp; omega, ← List.replicate_append_replicate]
    unfold run
    rw [List.foldl_append]
    have : List.foldl step ⟨(m :: ms).map writes ++ t, false, o⟩ (List.replicate 9 .command) =
        ⟨ms.map writes ++ t, false, o ++ frame m⟩ := by
      rw [← writes_flatten]
      simp [List.replicate, writes, step]
    rw [this]
    have := ih (o ++ frame m)
    unfold run at this
    rw [this]
    simp

/-- Without corrections all commands get through whole. -/
theorem c99_alone (ms : List Msg) :
    run (start ms) (List.replicate (9 * ms.length) .command) = ⟨[], false, (ms.map frame).flatten⟩ := by
  have := run_commands ms [] []
  simpa [start] using this

theorem merged_one {a b : List Byte} {u : List (List Byte)} (h : Merged [a] [b] u) : u = [a, b] ∨ u = [b, a] := by
  have nil1 : ∀ {x y : List (List Byte)}, Merged [] x y → y = x := by
    intro x y h
    generalize hz : ([] : List (List Byte)) = z at h
    induction h with
    | nil => rfl
    | left x _ _ => simp at hz
    | right x _ ih => rw [ih hz]
  have nil2 : ∀ {x y : List (List Byte)}, Merged x [] y → y = x := by
    intro x y h
    generalize hz : ([] : List (List Byte)) = z at h
    induction h with
    | nil => rfl
    | left x _ ih => rw [ih hz]
    | right x _ _ => simp at hz
  generalize ha : [a] = as at h
  generalize hb : [b] = bs at h
  cases h with
  | nil => simp at ha
  | @left a' b' u' x h =>
    have h1 : a' = [] ∧ a = x := by
      cases a' with
      | nil => simpa using ha
      | cons p q => simp at ha
    obtain ⟨rfl, rfl⟩ := h1
    subst hb
    rw [nil1 h]
    exact .inr rfl
  | @right a' b' u' x h =>
    have h1 : b' = [] ∧ b = x := by
      cases b' with
      | nil => simpa using hb
      | cons p q => simp at hb
    obtain ⟨rfl, rfl⟩ := h1
    subst ha
    rw [nil2 h]
    exact .inl rfl

/-- **C99 is false of the code.** For every command and every buffer that begins like an RTCM frame there is a schedule that
puts the buffer inside the frame: the receiver is sent neither the frame followed by the buffer nor the buffer followed by
the frame. -/
theorem c99_refuted (m : Msg) (c : List Byte) :
    ∃ evs, links evs = [0xD3 :: c] ∧ (run (start [m]) evs).todo = [] ∧
      ¬ ∃ units, Merged [frame m] [0xD3 :: c] units ∧ (run (start [m]) evs).out = units.flatten := by
  refine ⟨.command :: .link (0xD3 :: c) :: List.replicate 8 .command, by simp [links, List.replicate], ?_, ?_⟩
  · simp [run, List.replicate, start, writes, step]
  · rintro ⟨units, hm, e⟩
    have e' : (run (start [m]) (.command :: .link (0xD3 :: c) :: List.replicate 8 .command)).out =
        0xB5 :: 0xD3 :: (c ++ (frame m).tail) := by
      rw [← writes_flatten]
      simp [run, List.replicate, start, writes, step]
    rw [e'] at e
    rcases merged_one hm with rfl | rfl
    · simp only [frame, ubxFrame, ubxBody, List.flatten_cons, List.cons_append, List.cons.injEq] at e
      exact absurd e.2.1 (by decide)
    · simp only [List.flatten_cons, List.cons_append, List.cons.injEq] at e
      exact absurd e.1 (by decide)

/-- A schedule that takes turns. -/
example : Polite (start [(0x06, 0x01, [0x01, 0x07, 0x01])]) (.link [0xD3, 0x00] :: List.replicate 9 .command ++ [.link [0xD3]]) := by
  simp [Polite, start, writes, step, List.replicate]

/-- What the receiver makes of such a stream: setting a message rate, with a (truncated) correction after the length field.
By the framing rules it sees one frame with a wrong checksum, and the command is lost. -/
theorem c99_lost_refuted :
    (scan 0 (run (start [(0x06, 0x01, [0x01, 0x07, 0x01])])
      (List.replicate 6 .command ++ [.link [0xD3, 0x00, 0x02, 0x11, 0x22, 0x33, 0x44, 0x55]] ++
        List.replicate 3 .command)).out).1 = [.badChecksum] := by
  decide +kernel

end Ublox.Port
