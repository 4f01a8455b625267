import Verif.Props.UbxWait
import Verif.Props.Ubx

/-!
# C109: which command an acknowledgement confirms
-/

namespace Ublox

open Ubx

/-- The messages a receiver of UBX recognises in `later` after having received `hist`. -/
def arrived (hist later : List Byte) : List Item := (scan 0 (hist ++ later)).1.drop (scan 0 hist).1.length

/-- u-blox interface description, ACK-ACK (0x05 0x01): the payload is the class and the id of the acknowledged message. -/
def acknowledges (cls id : Byte) (x : Item) : Prop := x = .good 0x05 0x01 [cls, id]

theorem arrived_eq (hist later : List Byte) :
    arrived hist later = (rxRun (tailOf hist) later).2.filterMap id := by
  unfold arrived
  rw [scan_append, List.drop_left]

theorem arrived_append (hist a b : List Byte) : arrived hist (a ++ b) = arrived hist a ++ arrived (hist ++ a) b := by
  have h1 := scan_append hist (a ++ b)
  have h2 := scan_append hist a
  have h3 := scan_append (hist ++ a) b
  rw [arrived_eq, arrived_eq, arrived_eq]
  rw [← List.append_assoc, h3, h2, List.append_assoc] at h1
  exact (List.append_cancel_left h1).symm

theorem wait_answer {u u' : Ubx} {hist : List Byte} {r : Bool} {s : Sched} (h : Reach u hist)
    (hg : waitForResponse u s = .ok (some (u', r))) :
    r = true ↔ ∃ p, Item.good 0x05 0x01 p ∈ arrived hist s.bytes := by
  obtain ⟨-, ⟨new, e, hr, -⟩, -⟩ := c18_answer h hg
  unfold arrived
  rw [e, List.drop_left]
  exact hr

/-- **C109, the true part.** A command (`cls`, `id`) is sent to the receiver, `gap` is received before the application calls
`wait_for_response`.  If the receiver acknowledges nothing else during that call, and not already during the gap, the answer is
right: true exactly if this command has been acknowledged since it was sent.  Missing: acknowledgements of other commands, and
early ones. -/
theorem c109_partial {u u1 u2 : Ubx} {hist gap : List Byte} {o : List Out} {s : Sched} {r : Bool}
    (cls id : Byte) (h : Reach u hist) (hgap : feed u gap = .ok (u1, o)) (hw : waitForResponse u1 s = .ok (some (u2, r)))
    (honly : ∀ p, Item.good 0x05 0x01 p ∈ arrived (hist ++ gap) s.bytes → p = [cls, id])
    (hearly : ¬ ∃ x ∈ arrived hist gap, acknowledges cls id x) :
    r = true ↔ ∃ x ∈ arrived hist (gap ++ s.bytes), acknowledges cls id x := by
  rw [wait_answer (h.feed hgap) hw, arrived_append]
  constructor
  · rintro ⟨p, hp⟩
    obtain rfl := honly p hp
    exact ⟨_, List.mem_append_right _ hp, rfl⟩
  · rintro ⟨x, hx, rfl⟩
    rcases List.mem_append.1 hx with hx | hx
    · exact absurd ⟨_, hx, rfl⟩ hearly
    · exact ⟨_, hx⟩

/-- **C109 refuted: somebody else's acknowledgement.** In every state between two messages: an acknowledgement of whatever
message confirms any command. -/
theorem c109_foreign_refuted {u : Ubx} {hist : List Byte} (h : Reach u hist) (hp : u.parsingMessage = false) (c i : Byte) :
    (∃ u', waitForResponse u ⟨ubxFrame 0x05 0x01 [c, i], [], []⟩ = .ok (some (u', true))) ∧
    ∀ cls id, (cls, id) ≠ (c, i) → ¬ ∃ x ∈ arrived hist (ubxFrame 0x05 0x01 [c, i]), acknowledges cls id x := by
  obtain ⟨last, ht, -⟩ := idle_of_reach h hp
  have her : arrived hist (ubxFrame 0x05 0x01 [c, i]) = [.good 0x05 0x01 [c, i]] := by
    rw [arrived_eq, ht, rxRun_ubxFrame last 0x05 0x01 [c, i] (by simp) (by simp)]
    rfl
  constructor
  · have hreach : Reach { u with gotAck := false, gotNack := false } hist := .clearAck h
    obtain ⟨u1, o1, e1⟩ := (c02_frame_is_delivered hreach hp 0x05 0x01 [c, i] (by simp) (by simp)).2 (by decide)
    have hack : u1.gotAck = true := by
      have f := feed_sim hreach.inv.wf hreach.inv.abs e1
      rw [f.ack]
      right
      refine ⟨[c, i], ?_⟩
      rw [← mem_filterMap_id, ← arrived_eq, her]
      exact List.mem_singleton.2 rfl
    refine ⟨u1, ?_⟩
    unfold waitForResponse
    simp only [e1, ok_bind]
    rw [spin_stop (fun hh => by rw [hack] at hh; exact absurd hh.1 (by simp))]
    simp only [ok_bind, feed, hack]
  · rintro cls id hne ⟨x, hx, hax⟩
    rw [her] at hx
    rw [List.mem_singleton.1 hx] at hax
    unfold acknowledges at hax
    injection hax with _ _ h3
    exact hne (by rw [(List.cons.inj h3).1, (List.cons.inj (List.cons.inj h3).2).1])

/-- **C109 refuted: too early.** In every state: an acknowledgement of the command itself that has been received when
`wait_for_response` begins does not count; with nothing further received for the length of the timeout the answer is false. -/
theorem c109_early_refuted {u u1 : Ubx} {hist : List Byte} {o : List Out} (cls id : Byte) (h : Reach u hist)
    (hp : u.parsingMessage = false) (_hgap : feed u (ubxFrame 0x05 0x01 [cls, id]) = .ok (u1, o)) :
    (∃ u', waitForResponse u1 ⟨[], [([], 1000)], []⟩ = .ok (some (u', false))) ∧
    ∃ x ∈ arrived hist (ubxFrame 0x05 0x01 [cls, id]), acknowledges cls id x := by
  obtain ⟨last, ht, -⟩ := idle_of_reach h hp
  refine ⟨⟨{ u1 with gotAck := false, gotNack := false }, ?_⟩, .good 0x05 0x01 [cls, id], ?_, rfl⟩
  · unfold waitForResponse
    simp only [feed, ok_bind]
    rw [spin_go (by simp)]
    simp only [feed, ok_bind]
    rw [spin_stop (by simp)]
    simp only [ok_bind, feed]
  · rw [arrived_eq, ht, rxRun_ubxFrame last 0x05 0x01 [cls, id] (by simp) (by simp)]
    exact List.mem_singleton.2 rfl

/-- The hypotheses of the refutations are met from the start: a fresh parser is between messages, and takes the acknowledgement
of, say, CFG-VALSET. -/
example (a b m : List Byte) (x y : Int) (ha : a.length = 2048) (hb : b.length = 2048) (hm : m.length = 10) :
    Reach (Ubx.init a b m x y) [] ∧ (Ubx.init a b m x y).parsingMessage = false ∧
    ∃ u1 o, feed (Ubx.init a b m x y) (ubxFrame 0x05 0x01 [0x06, 0x8A]) = .ok (u1, o) :=
  have h : Reach (Ubx.init a b m x y) [] := .init a b m x y ha hb hm
  ⟨h, rfl, (c02_frame_is_delivered h rfl 0x05 0x01 [0x06, 0x8A] (by simp) (by simp)).2 (by decide)⟩

end Ublox
