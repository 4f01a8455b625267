import Verif.Model.RosNode
import Verif.Props.DeviceCalls
import Verif.Props.Ros

/-!
# C85: the ROS node and its device
-/

namespace Ublox.Ros

open Ublox.Dev (Ev Reach run)
open Nav (Mode)

/-- The messages the topics of the node are made from: PVT and ECEF messages and raw measurements always, the survey
status on a base, the relative position on a rover. -/
def Wanted (rtkType : Nat) (c i : Byte) : Prop :=
  (c = 0x01 ∧ (i = 0x07 ∨ i = 0x01 ∨ i = 0x11 ∨ (i = 0x3B ∧ rtkType = 3) ∨ (i = 0x3C ∧ rtkType = 2))) ∨ (c = 0x02 ∧ i = 0x15)

/-- **C85 (partial).** Whatever the parameter, the node subscribes to exactly the messages its topics are made from; they
are exactly the ones its dispatcher does something with (for the roles that publish them); and it configures the device as
the rover or base it was asked to be, with its UDP socket as the link.  Missing: the messages never reach it
(`c85_refuted`). -/
theorem c85_subscriptions_partial (rtkType : Nat) :
    (∀ l c i, .subscribe l c i ∈ ctorEvents rtkType ↔ l = 0 ∧ Wanted rtkType c i) ∧
    (∀ c i, ¬ Wanted 2 c i → ¬ Wanted 3 c i → ∀ s m, gotUbx s c i m = .ok (s, [])) ∧
    Dev.configured (ctorEvents rtkType) =
      if rtkType = 2 then (.rover, some 0) else if rtkType = 3 then (.base, some 0) else (.none, none) := by
  refine ⟨fun l c i => ?_, fun c i h2 h3 s m => ?_, ?_⟩
  · have hr : ∀ e ∈ rtkEvents rtkType, e ≠ .subscribe l c i := by
      intro e he
      unfold rtkEvents at he
      split at he
      · split at he
        · cases List.mem_singleton.1 he; nofun
        · split at he
          · cases List.mem_singleton.1 he; nofun
          · cases he
      · cases he
    have hr' : .subscribe l c i ∉ rtkEvents rtkType := fun h => hr _ h rfl
    unfold ctorEvents Wanted
    by_cases h3 : rtkType = 3
    · subst h3
      simp [hr']
      constructor
      · rintro (⟨rfl, rfl, rfl⟩ | ⟨rfl, rfl, rfl⟩ | ⟨rfl, rfl, rfl⟩ | ⟨rfl, rfl, rfl⟩ | ⟨rfl, rfl, rfl⟩) <;> simp
      · rintro ⟨rfl, ⟨rfl, rfl | rfl | rfl | rfl⟩ | ⟨rfl, rfl⟩⟩ <;> simp
    · by_cases h2 : rtkType = 2
      · subst h2
        simp [hr']
        constructor
        · rintro (⟨rfl, rfl, rfl⟩ | ⟨rfl, rfl, rfl⟩ | ⟨rfl, rfl, rfl⟩ | ⟨rfl, rfl, rfl⟩ | ⟨rfl, rfl, rfl⟩) <;> simp
        · rintro ⟨rfl, ⟨rfl, rfl | rfl | rfl | rfl⟩ | ⟨rfl, rfl⟩⟩ <;> simp
      · simp [hr', h2, h3]
        constructor
        · rintro (⟨rfl, rfl, rfl⟩ | ⟨rfl, rfl, rfl⟩ | ⟨rfl, rfl, rfl⟩ | ⟨rfl, rfl, rfl⟩) <;> simp
        · rintro ⟨rfl, ⟨rfl, rfl | rfl | rfl⟩ | ⟨rfl, rfl⟩⟩ <;> simp
  · unfold Wanted at h2 h3
    unfold gotUbx
    by_cases hc : c = 0x01
    · have a1 : i ≠ 0x07 := fun h => h2 (.inl ⟨hc, .inl h⟩)
      have a2 : i ≠ 0x3C := fun h => h2 (.inl ⟨hc, .inr (.inr (.inr (.inr ⟨h, rfl⟩)))⟩)
      have a3 : i ≠ 0x01 := fun h => h2 (.inl ⟨hc, .inr (.inl h)⟩)
      have a4 : i ≠ 0x11 := fun h => h2 (.inl ⟨hc, .inr (.inr (.inl h))⟩)
      have a5 : i ≠ 0x3B := fun h => h3 (.inl ⟨hc, .inr (.inr (.inr (.inl ⟨h, rfl⟩)))⟩)
      rw [if_pos hc, if_neg a1, if_neg a2, if_neg a3, if_neg a4, if_neg a5]
    · rw [if_neg hc]
      by_cases hc2 : c = 0x02
      · have a1 : i ≠ 0x15 := fun h => h2 (.inr ⟨hc2, h⟩)
        rw [if_pos hc2, if_neg a1]
      · rw [if_neg hc2]
  · by_cases h2 : rtkType = 2
    · subst h2; rfl
    · by_cases h3 : rtkType = 3
      · subst h3; rfl
      · have hr : rtkEvents rtkType = [] := by
          simp [rtkEvents, h2, h3]
        unfold ctorEvents
        rw [hr, if_neg h2, if_neg h3, if_neg h2, if_neg h3]
        rfl

/-- The events that can happen after the constructor, all of them caused by received data: the node makes no more calls. -/
def Data : Ev → Prop
  | .rx _ => True
  | .rtkRx _ _ => True
  | _ => False

/-- **C85 refuted.** Whatever the receiver sent during construction, whatever the parameter, and whatever is received
afterwards for however long: the device never calls the node, nor any ephemeris callback.  Nothing is ever published. -/
theorem c85_refuted {md : Mode} {d d' : Dev} {rtkType : Nat} {evs : List Ev} {e : Ev} {es0 es : List Eff}
    (h : Reach md d (ctorEvents rtkType ++ evs) es0) (hd : ∀ x ∈ evs, Data x)
    (hs : d.step md e = .ok (d', es)) :
    es.filterMap Eff.user? = [] ∧ es.filterMap Eff.nav? = [] := by
  have hev : ∀ x ∈ ctorEvents rtkType ++ evs, (∀ l, x ≠ .listen l) ∧ x ≠ .ephCb ∧ x ≠ .gephCb := by
    intro x hx
    rcases List.mem_append.1 hx with hx | hx
    · unfold ctorEvents rtkEvents at hx
      simp only [List.mem_append] at hx
      rcases hx with ((hx | hx) | hx) | hx
      · split at hx
        · split at hx
          · cases List.mem_singleton.1 hx; exact ⟨nofun, nofun, nofun⟩
          · split at hx
            · cases List.mem_singleton.1 hx; exact ⟨nofun, nofun, nofun⟩
            · cases hx
        · cases hx
      · simp only [List.mem_cons, List.not_mem_nil, or_false] at hx
        rcases hx with rfl | rfl | rfl | rfl <;> exact ⟨nofun, nofun, nofun⟩
      · split at hx
        · cases List.mem_singleton.1 hx; exact ⟨nofun, nofun, nofun⟩
        · cases hx
      · split at hx
        · cases List.mem_singleton.1 hx; exact ⟨nofun, nofun, nofun⟩
        · cases hx
    · have := hd x hx
      cases x <;> first | exact False.elim this | exact ⟨nofun, nofun, nofun⟩
  have hreg : Dev.registered (ctorEvents rtkType ++ evs) = [] := by
    unfold Dev.registered
    rw [List.filterMap_eq_nil_iff]
    intro x hx
    have := (hev x hx).1
    cases x <;> first | rfl | exact absurd rfl (this _)
  have he : Dev.ephCallbacks (ctorEvents rtkType ++ evs) = 0 := by
    unfold Dev.ephCallbacks
    rw [List.countP_eq_zero]
    intro x hx
    have := (hev x hx).2.1
    cases x <;> first | exact absurd rfl this | exact nofun
  have hg : Dev.gephCallbacks (ctorEvents rtkType ++ evs) = 0 := by
    unfold Dev.gephCallbacks
    rw [List.countP_eq_zero]
    intro x hx
    have := (hev x hx).2.2
    cases x <;> first | exact absurd rfl this | exact nofun
  obtain ⟨k1, k2, k3, -⟩ := Dev.c87_only_asked h hs
  rw [hreg] at k1
  rw [he] at k2
  rw [hg] at k3
  constructor
  · rw [List.filterMap_eq_nil_iff]
    intro x hx
    cases x with
    | ubx l c i m => exact absurd (k1 l c i m hx).1 (List.not_mem_nil)
    | _ => rfl
  · rw [List.filterMap_eq_nil_iff]
    intro x hx
    cases x with
    | nav c =>
      cases c with
      | eph k e => exact absurd (k2 k e hx) (Nat.not_lt_zero _)
      | geph k g => exact absurd (k3 k g hx) (Nat.not_lt_zero _)
    | _ => rfl

/-- The same stream, without and with the missing registration. -/
example : ((Dev.exRun (ctorEvents 2 ++ [.rx (ubxFrame 0x01 0x3C [1, 2])])).map fun x => x.2.filterMap Dev.brief) = some [] ∧
    ((Dev.exRun (.listen 0 :: ctorEvents 2 ++ [.rx (ubxFrame 0x01 0x3C [1, 2])])).map fun x => x.2.filterMap Dev.brief) =
      some [(0, [0x01, 0x3C, 1, 2, 0, 0, 0])] := by
  decide +kernel

end Ublox.Ros
