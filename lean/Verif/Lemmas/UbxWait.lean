import Verif.Lemmas.UbxFrame

/-! The spin loop of `get_version` / `wait_for_response`. -/

namespace Ublox
namespace Ubx

theorem spin_stop {stop : Ubx → Bool} {u : Ubx} {dt : Nat} {its : List (List Byte × Nat)}
    (h : ¬ (stop u = false ∧ dt < 1000)) : spin stop u dt its = .ok (some (u, dt, its)) := by
  rw [spin.eq_def]
  simp only
  rw [if_neg]
  simp only [Bool.and_eq_true, Bool.not_eq_true', decide_eq_true_eq]
  exact h

theorem spin_go {stop : Ubx → Bool} {u : Ubx} {dt t : Nat} {bs : List Byte} {its : List (List Byte × Nat)}
    (h : stop u = false ∧ dt < 1000) :
    spin stop u dt ((bs, t) :: its) = (feed u bs >>= fun x => spin stop x.1 t its) := by
  rw [spin, if_pos]
  simp only [Bool.and_eq_true, Bool.not_eq_true', decide_eq_true_eq]
  exact h

theorem spin_nil {stop : Ubx → Bool} {u : Ubx} {dt : Nat} (h : stop u = false ∧ dt < 1000) :
    spin stop u dt [] = .ok none := by
  rw [spin, if_pos]
  simp only [Bool.and_eq_true, Bool.not_eq_true', decide_eq_true_eq]
  exact h

/-- A finished loop that used its whole schedule: the bytes were processed in order, every clock reading but the last
was below the timeout, and the loop ended because of the flag or because the last reading reached the timeout. -/
structure SpinOk (stop : Ubx → Bool) (u u' : Ubx) (dt dt' : Nat) (its : List (List Byte × Nat)) : Prop where
  fed : ∃ outs, feed u (its.flatMap (·.1)) = .ok (u', outs)
  clock : ∀ it ∈ its.dropLast, it.2 < 1000
  last : dt' = (its.getLast?.map (·.2)).getD dt
  first : its ≠ [] → dt < 1000
  cause : stop u' = true ∨ 1000 ≤ dt'

theorem spin_spec {stop : Ubx → Bool} : ∀ (its : List (List Byte × Nat)) {u u' : Ubx} {dt dt' : Nat},
    spin stop u dt its = .ok (some (u', dt', [])) → SpinOk stop u u' dt dt' its := by
  intro its
  induction its with
  | nil =>
    intro u u' dt dt' h
    by_cases hc : stop u = false ∧ dt < 1000
    · rw [spin_nil hc] at h; cases h
    · rw [spin_stop hc] at h
      cases h
      refine ⟨⟨[], rfl⟩, by simp, rfl, by simp, ?_⟩
      cases hs : stop u with
      | true => exact .inl rfl
      | false => exact .inr (by rw [hs] at hc; simp at hc; omega)
  | cons it its ih =>
    obtain ⟨bs, t⟩ := it
    intro u u' dt dt' h
    by_cases hc : stop u = false ∧ dt < 1000
    · rw [spin_go hc] at h
      obtain ⟨⟨v, ov⟩, hv, h⟩ := bind_ok.1 h
      have k := ih h
      obtain ⟨o, ho⟩ := k.fed
      refine ⟨⟨ov ++ o, ?_⟩, ?_, ?_, fun _ => hc.2, k.cause⟩
      · rw [List.flatMap_cons, feed_append, hv]; simp only [ok_bind, ho]
      · cases its with
        | nil => simp
        | cons it2 its2 =>
          rw [List.dropLast_cons_cons]
          intro x hx
          rcases List.mem_cons.1 hx with rfl | hx
          · exact k.first (by simp)
          · exact k.clock x hx
      · rw [k.last]
        cases its with
        | nil => simp
        | cons it2 its2 =>
          rw [List.getLast?_cons_cons]
          have := List.getLast?_isSome (l := it2 :: its2)
          cases hg : (it2 :: its2).getLast? with
          | none => simp [hg] at this
          | some y => simp
    · rw [spin_stop hc] at h; cases h

/-- Once the clock of some iteration reaches the timeout, the loop ends within the schedule. -/
theorem spin_ends {stop : Ubx → Bool} : ∀ (its : List (List Byte × Nat)) {u : Ubx} {dt : Nat},
    (∃ it ∈ its, 1000 ≤ it.2) → ∃ k, k ≤ its.length ∧
      ((∃ e, spin stop u dt (its.take k) = .error e) ∨ ∃ v d, spin stop u dt (its.take k) = .ok (some (v, d, []))) := by
  intro its
  induction its with
  | nil => rintro u dt ⟨it, h, -⟩; simp at h
  | cons it its ih =>
    obtain ⟨bs, t⟩ := it
    rintro u dt ⟨x, hx, h1000⟩
    by_cases hc : stop u = false ∧ dt < 1000
    · cases hv : feed u bs with
      | error e =>
        refine ⟨1, by simp, .inl ⟨e, ?_⟩⟩
        rw [List.take_succ_cons, spin_go hc, hv]; rfl
      | ok v =>
        by_cases ht : 1000 ≤ t
        · refine ⟨1, by simp, .inr ⟨v.1, t, ?_⟩⟩
          rw [List.take_succ_cons, spin_go hc, hv]
          simp only [ok_bind]
          rw [spin_stop (by omega)]; rfl
        · rcases List.mem_cons.1 hx with rfl | hx
          · exact absurd h1000 ht
          · obtain ⟨k, hk, hk2⟩ := ih (u := v.1) (dt := t) ⟨x, hx, h1000⟩
            refine ⟨k + 1, by simpa using hk, ?_⟩
            rw [List.take_succ_cons, spin_go hc, hv]
            simpa only [ok_bind] using hk2
    · exact ⟨0, by simp, .inr ⟨u, dt, by rw [List.take_zero, spin_stop hc]⟩⟩

/-- New items of a longer stream. -/
theorem scan_append (hist bs : List Byte) :
    (scan 0 (hist ++ bs)).1 = (scan 0 hist).1 ++ (rxRun (tailOf hist) bs).2.filterMap id := by
  simp only [scan_zero, itemsOf]
  rw [rxRun_append, List.filterMap_append]
  rfl

theorem mem_filterMap_id {α : Type} {x : α} {l : List (Option α)} : x ∈ l.filterMap id ↔ some x ∈ l := by
  simp

end Ubx
end Ublox
