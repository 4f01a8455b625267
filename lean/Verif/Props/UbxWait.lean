import Verif.Lemmas.UbxWait
import Verif.Lemmas.UbxVersion
import Verif.Props.Ubx

/-!
# Waiting for the receiver (C17, C18)

A schedule `s : Sched` says which bytes the serial thread processes between the loop's flag tests and what the clock
shows; `getVersion u s = .ok (some …)` says that the call returned, having used exactly this schedule.
-/

namespace Ublox
open Ubx

/-- C17, the answer. `get_version` writes exactly one MON-VER poll and returns true exactly when the bytes processed
during the call complete a good MON-VER frame; whatever was received before the call does not count. -/
theorem c17_answer {u u' : Ubx} {hist w : List Byte} {r : Bool} {s : Sched} (h : Reach u hist)
    (hg : getVersion u s = .ok (some (u', w, r))) :
    w = ubxFrame 0x0A 0x04 [] ∧ Reach u' (hist ++ s.bytes) ∧
    ∃ new, (scan 0 (hist ++ s.bytes)).1 = (scan 0 hist).1 ++ new ∧
      (r = true ↔ ∃ p, Item.good 0x0A 0x04 p ∈ new) := by
  have hsend := sendMessage_ok 0x0A 0x04 0 { u with gotVer := false } (by simp) (by omega)
  have hreach : Reach { u with gotVer := false } hist := .command .pollVersion h hsend
  unfold getVersion at hg
  simp only [show CLASS_MON = 0x0A from rfl, show MON_VER = 0x04 from rfl] at hg
  rw [hsend] at hg
  simp only [ok_bind, List.take_zero] at hg
  obtain ⟨⟨u1, o1⟩, e1, hg⟩ := bind_ok.1 hg
  obtain ⟨sp, e2, hg⟩ := bind_ok.1 hg
  match sp, e2, hg with
  | some (u2, dt, []), e2, hg =>
    simp only at hg
    obtain ⟨⟨u3, o3⟩, e3, hg⟩ := bind_ok.1 hg
    cases hg
    obtain ⟨o2, ho2⟩ := (spin_spec _ e2).fed
    have etot : feed { u with gotVer := false } s.bytes = .ok (u3, o1 ++ o2 ++ o3) := by
      unfold Sched.bytes
      simp only [feed_append, e1, ok_bind, ho2, e3]
    refine ⟨rfl, hreach.feed etot, _, scan_append hist s.bytes, ?_⟩
    have f := feed_sim hreach.inv.wf hreach.inv.abs etot
    rw [f.ver]
    simp only [mem_filterMap_id, Bool.false_eq_true, false_or]
  | none, e2, hg => cases hg
  | some (u2, dt, x :: xs), e2, hg => cases hg

/-- C17, the timeout. The loop never goes on after a clock reading of 1000 ms or more; and when the call returns false
the last reading was at least 1000 ms. -/
theorem c17_timeout {u u' : Ubx} {hist w : List Byte} {r : Bool} {s : Sched} (h : Reach u hist)
    (hg : getVersion u s = .ok (some (u', w, r))) :
    (∀ it ∈ s.iters.dropLast, it.2 < 1000) ∧ (r = false → ∃ it, s.iters.getLast? = some it ∧ 1000 ≤ it.2) := by
  have hsend := sendMessage_ok 0x0A 0x04 0 { u with gotVer := false } (by simp) (by omega)
  have hreach : Reach { u with gotVer := false } hist := .command .pollVersion h hsend
  unfold getVersion at hg
  simp only [show CLASS_MON = 0x0A from rfl, show MON_VER = 0x04 from rfl] at hg
  rw [hsend] at hg
  simp only [ok_bind] at hg
  obtain ⟨⟨u1, o1⟩, e1, hg⟩ := bind_ok.1 hg
  obtain ⟨sp, e2, hg⟩ := bind_ok.1 hg
  match sp, e2, hg with
  | some (u2, dt, []), e2, hg =>
    simp only at hg
    obtain ⟨⟨u3, o3⟩, e3, hg⟩ := bind_ok.1 hg
    cases hg
    have k := spin_spec _ e2
    refine ⟨k.clock, fun hr => ?_⟩
    obtain ⟨o2, ho2⟩ := k.fed
    have r1 := hreach.feed e1
    have r2 := r1.feed ho2
    have f3 := feed_sim r2.inv.wf r2.inv.abs e3
    have hno : u2.gotVer ≠ true := fun hc => by
      have := f3.ver.2 (.inl hc)
      simp only at hr
      rw [hr] at this; cases this
    rcases k.cause with hc | hc
    · exact absurd hc hno
    · have hl := k.last
      cases hg : s.iters.getLast? with
      | none => rw [hg] at hl; simp at hl; omega
      | some it => rw [hg] at hl; exact ⟨it, rfl, by simp at hl; omega⟩
  | none, e2, hg => cases hg
  | some (u2, dt, x :: xs), e2, hg => cases hg

/-- C17, progress. If the clock eventually shows 1000 ms or more, the call ends: some initial part of the iterations is
a complete run (or runs into the undefined behaviour of C16). -/
theorem c17_terminates (u : Ubx) (before : List Byte) (its : List (List Byte × Nat)) (h : ∃ it ∈ its, 1000 ≤ it.2) :
    ∃ k, k ≤ its.length ∧ ∀ after, getVersion u ⟨before, its.take k, after⟩ ≠ .ok none := by
  have hsend := sendMessage_ok 0x0A 0x04 0 { u with gotVer := false } (by simp) (by omega)
  cases e1 : feed { u with gotVer := false } before with
  | error e =>
    refine ⟨0, by omega, fun after => ?_⟩
    unfold getVersion
    simp only [show CLASS_MON = 0x0A from rfl, show MON_VER = 0x04 from rfl, hsend, ok_bind, e1]
    intro hc; cases hc
  | ok v =>
    obtain ⟨k, hk, hk2⟩ := spin_ends (stop := fun v => v.gotVer) its (u := v.1) (dt := 0) h
    refine ⟨k, hk, fun after => ?_⟩
    unfold getVersion
    simp only [show CLASS_MON = 0x0A from rfl, show MON_VER = 0x04 from rfl, hsend, ok_bind, e1]
    rcases hk2 with ⟨e, he⟩ | ⟨v2, d, he⟩
    · rw [he]; intro hc; cases hc
    · rw [he]
      simp only [ok_bind]
      cases feed v2 after with
      | error e => intro hc; cases hc
      | ok v3 => intro hc; simp only [ok_bind] at hc; cases hc

/-- C18. `wait_for_response` returns true exactly when the bytes processed during the call complete an ACK-ACK frame;
an answer received before the call does not count; a call that returns false either saw an ACK-NAK or waited for the
whole timeout. -/
theorem c18_answer {u u' : Ubx} {hist : List Byte} {r : Bool} {s : Sched} (h : Reach u hist)
    (hg : waitForResponse u s = .ok (some (u', r))) :
    Reach u' (hist ++ s.bytes) ∧
    (∃ new, (scan 0 (hist ++ s.bytes)).1 = (scan 0 hist).1 ++ new ∧
      (r = true ↔ ∃ p, Item.good 0x05 0x01 p ∈ new) ∧
      (r = false → (∃ p, Item.good 0x05 0x00 p ∈ new) ∨ ∃ it, s.iters.getLast? = some it ∧ 1000 ≤ it.2)) ∧
    (∀ it ∈ s.iters.dropLast, it.2 < 1000) := by
  have hreach : Reach { u with gotAck := false, gotNack := false } hist := .clearAck h
  unfold waitForResponse at hg
  obtain ⟨⟨u1, o1⟩, e1, hg⟩ := bind_ok.1 hg
  obtain ⟨sp, e2, hg⟩ := bind_ok.1 hg
  match sp, e2, hg with
  | some (u2, dt, []), e2, hg =>
    simp only at hg
    obtain ⟨⟨u3, o3⟩, e3, hg⟩ := bind_ok.1 hg
    cases hg
    have k := spin_spec _ e2
    obtain ⟨o2, ho2⟩ := k.fed
    have etot : feed { u with gotAck := false, gotNack := false } s.bytes = .ok (u3, o1 ++ o2 ++ o3) := by
      unfold Sched.bytes
      simp only [feed_append, e1, ok_bind, ho2, e3]
    have f := feed_sim hreach.inv.wf hreach.inv.abs etot
    refine ⟨hreach.feed etot, ⟨_, scan_append hist s.bytes, ?_, ?_⟩, k.clock⟩
    · rw [f.ack]
      simp only [mem_filterMap_id, Bool.false_eq_true, false_or]
    · intro hr
      have r1 := hreach.feed e1
      have r2 := r1.feed ho2
      have f3 := feed_sim r2.inv.wf r2.inv.abs e3
      rcases k.cause with hc | hc
      · simp only [Bool.or_eq_true] at hc
        rcases hc with hc | hc
        · have := f3.ack.2 (.inl hc)
          simp only at hr
          rw [hr] at this; cases this
        · left
          have hn := f3.nack.2 (.inl hc)
          rw [f.nack] at hn
          simpa only [mem_filterMap_id, Bool.false_eq_true, false_or] using hn
      · right
        have hl := k.last
        cases hg : s.iters.getLast? with
        | none => rw [hg] at hl; simp at hl; omega
        | some it => rw [hg] at hl; exact ⟨it, rfl, by simp at hl; omega⟩
  | none, e2, hg => cases hg
  | some (u2, dt, x :: xs), e2, hg => cases hg

/-- C18, progress. -/
theorem c18_terminates (u : Ubx) (before : List Byte) (its : List (List Byte × Nat)) (h : ∃ it ∈ its, 1000 ≤ it.2) :
    ∃ k, k ≤ its.length ∧ ∀ after, waitForResponse u ⟨before, its.take k, after⟩ ≠ .ok none := by
  cases e1 : feed { u with gotAck := false, gotNack := false } before with
  | error e =>
    refine ⟨0, by omega, fun after => ?_⟩
    unfold waitForResponse
    simp only [e1]
    intro hc; cases hc
  | ok v =>
    obtain ⟨k, hk, hk2⟩ := spin_ends (stop := fun v => v.gotAck || v.gotNack) its (u := v.1) (dt := 0) h
    refine ⟨k, hk, fun after => ?_⟩
    unfold waitForResponse
    simp only [ok_bind, e1]
    rcases hk2 with ⟨e, he⟩ | ⟨v2, d, he⟩
    · rw [he]; intro hc; cases hc
    · rw [he]
      simp only [ok_bind]
      cases feed v2 after with
      | error e => intro hc; cases hc
      | ok v3 => intro hc; simp only [ok_bind] at hc; cases hc

/-- What a wait returned (for examples). -/
def verResult : M (Option (Ubx × List Byte × Bool)) → Option Bool
  | .ok (some (_, _, r)) => some r
  | _ => none

/-- What a wait returned (for examples). -/
def ackResult : M (Option (Ubx × Bool)) → Option Bool
  | .ok (some (_, r)) => some r
  | _ => none

-- the answer arrives in the second iteration: true; it arrives too late: false
example : verResult (getVersion exU ⟨[], [([], 3), (ubxFrame 0x0A 0x04 exVer, 5)], []⟩) = some true := by
  decide +kernel
example : verResult (getVersion exU ⟨[], [([], 3), ([], 1000)], []⟩) = some false := by decide +kernel
example : ackResult (waitForResponse exU ⟨[], [(ubxFrame 0x05 0x01 [6, 1], 5)], []⟩) = some true := by decide +kernel
example : ackResult (waitForResponse exU ⟨[], [(ubxFrame 0x05 0x00 [6, 1], 5)], []⟩) = some false := by decide +kernel

end Ublox
