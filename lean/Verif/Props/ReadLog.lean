import Verif.Model.ReadLog
import Verif.Props.DeviceCtor
import Verif.Props.Logger

/-!
# C94: replaying a log through a new device
-/

namespace Ublox.Logger

open Dev

/-- Nothing arrives during the wait: a log delivers bytes only inside `play()` (logger.h:37-60), and what the driver writes
is discarded (logger.h:75-84). -/
def Silent (s : Ubx.Sched) : Prop := s.bytes = []

theorem silent_parts {s : Ubx.Sched} (h : Silent s) : s.before = [] ∧ (∀ it ∈ s.iters, it.1 = []) ∧ s.after = [] := by
  unfold Silent Ubx.Sched.bytes at h
  rw [List.append_eq_nil_iff, List.append_eq_nil_iff, List.flatMap_eq_nil_iff] at h
  exact ⟨h.1.1, h.1.2, h.2⟩

theorem readCb_nil (md : Nav.Mode) (d : Dev) : Dev.readCb md d [] = .ok (d, []) := by
  rfl

theorem spin_unfold (md : Nav.Mode) (d : Dev) (dt : Nat) (its : List (List Byte × Nat)) :
    Dev.spin md d dt its = if (!d.ubx.gotVer && dt < Ubx.TIMEOUT_MS) = true then
      match its with
      | [] => .ok none
      | (bs, t) :: rest => do
        let (d1, e1) ← Dev.readCb md d bs
        match ← Dev.spin md d1 t rest with
        | none => .ok none
        | some (d2, dt2, its2, e2) => .ok (some (d2, dt2, its2, e1 ++ e2))
      else .ok (some (d, dt, its, [])) := by
  rw [Dev.spin.eq_def]; rfl

theorem spin_stop (md : Nav.Mode) (d : Dev) {dt : Nat} (h : 1000 ≤ dt) (its : List (List Byte × Nat)) :
    Dev.spin md d dt its = .ok (some (d, dt, its, [])) := by
  rw [spin_unfold, if_neg]
  simp only [Bool.and_eq_true, decide_eq_true_eq, not_and]
  intro _
  show ¬ dt < 1000
  omega

theorem spin_end (md : Nav.Mode) (d : Dev) (hv : d.ubx.gotVer = false) {dt : Nat} (h : dt < 1000) :
    Dev.spin md d dt [] = .ok none := by
  rw [spin_unfold, if_pos]
  simp only [hv, Bool.not_false, Bool.true_and, decide_eq_true_eq]
  exact h

theorem spin_quiet (md : Nav.Mode) (d : Dev) (hv : d.ubx.gotVer = false) {dt : Nat} (h : dt < 1000) (t : Nat)
    (its : List (List Byte × Nat)) {x : Option (Dev × Nat × List (List Byte × Nat) × List Eff)}
    (hx : Dev.spin md d t its = .ok x) : Dev.spin md d dt (([], t) :: its) = .ok x := by
  rw [spin_unfold, if_pos]
  · dsimp only
    rw [readCb_nil, ok_bind]
    dsimp only
    rw [hx, ok_bind]
    rcases x with _ | ⟨_, _, _, _⟩ <;> rfl
  · simp only [hv, Bool.not_false, Bool.true_and, decide_eq_true_eq]
    exact h

/-- The version poll when nothing arrives: it goes on until the clock shows a second, and then ends without an answer. -/
theorem spin_silent (md : Nav.Mode) (d : Dev) (hv : d.ubx.gotVer = false) (its : List (List Byte × Nat)) :
    ∀ dt, (∀ it ∈ its, it.1 = []) →
      (Dev.spin md d dt its = .ok none ∨ ∃ t rest, Dev.spin md d dt its = .ok (some (d, t, rest, []))) := by
  induction its with
  | nil =>
    intro dt _
    by_cases h : dt < 1000
    · exact .inl (spin_end md d hv h)
    · exact .inr ⟨_, _, spin_stop md d (by omega) _⟩
  | cons it its ih =>
    intro dt hs
    obtain ⟨bs, t0⟩ := it
    have hb : bs = [] := hs (bs, t0) (by simp)
    subst hb
    by_cases h : dt < 1000
    · rcases ih t0 (fun it h => hs it (by simp [h])) with e | ⟨t, rest, e⟩
      · exact .inl (spin_quiet md d hv h t0 its e)
      · exact .inr ⟨t, rest, spin_quiet md d hv h t0 its e⟩
    · exact .inr ⟨_, _, spin_stop md d (by omega) _⟩

theorem spin_timeout (md : Nav.Mode) (d : Dev) (hv : d.ubx.gotVer = false) {t : Nat} (ht : 1000 ≤ t)
    (its : List (List Byte × Nat)) : ∀ dt, dt < 1000 → (∀ it ∈ its, it.1 = [] ∧ it.2 < 1000) →
      Dev.spin md d dt (its ++ [([], t)]) = .ok (some (d, t, [], [])) := by
  induction its with
  | nil => intro dt hdt _; exact spin_quiet md d hv hdt t [] (spin_stop md d ht [])
  | cons it its ih =>
    intro dt hdt hs
    obtain ⟨bs, t0⟩ := it
    obtain ⟨hb, h0⟩ := hs (bs, t0) (by simp)
    have hb : bs = [] := hb
    subst hb
    exact spin_quiet md d hv hdt t0 _ (ih t0 h0 (fun it h => hs it (by simp [h])))

theorem getVersion_silent (md : Nav.Mode) (d : Dev) {s : Ubx.Sched} (hs : Silent s) :
    Dev.getVersion md d s = .ok none ∨ ∃ d' e, Dev.getVersion md d s = .ok (some (d', e, false)) := by
  obtain ⟨h1, h2, h3⟩ := silent_parts hs
  have hsend : Ubx.sendMessage CLASS_MON MON_VER 0 { d.ubx with gotVer := false } = _ := Ubx.pollVersion_ok d.ubx
  unfold Dev.getVersion
  rw [hsend, ok_bind, h1, h3]
  dsimp only
  rw [readCb_nil, ok_bind]
  dsimp only
  rcases spin_silent md { d with ubx := { d.ubx with gotVer := false } } rfl s.iters 0 h2 with e | ⟨t, rest, e⟩
  · rw [e]; exact .inl rfl
  · rw [e, ok_bind]
    cases rest with
    | nil => exact .inr ⟨_, _, rfl⟩
    | cons _ _ => exact .inl rfl

theorem getVersion_timeout (md : Nav.Mode) (d : Dev) {its : List (List Byte × Nat)} {t : Nat} (ht : 1000 ≤ t)
    (hs : ∀ it ∈ its, it.1 = [] ∧ it.2 < 1000) :
    ∃ d' e, Dev.getVersion md d ⟨[], its ++ [([], t)], []⟩ = .ok (some (d', e, false)) := by
  have hsend : Ubx.sendMessage CLASS_MON MON_VER 0 { d.ubx with gotVer := false } = _ := Ubx.pollVersion_ok d.ubx
  unfold Dev.getVersion
  rw [hsend, ok_bind]
  dsimp only
  rw [readCb_nil, ok_bind]
  dsimp only
  rw [spin_timeout md { d with ubx := { d.ubx with gotVer := false } } rfl ht its 0 (by omega) hs, ok_bind]
  exact ⟨_, _, rfl⟩

theorem tryConnect_unfold (md : Nav.Mode) (tries : Nat) (d : Dev) (ss : List Ubx.Sched) :
    Dev.tryConnect md tries d ss = if tries + 1 < MAX_NUM_TRIES then
      match ss with
      | [] => .ok none
      | s :: rest => do
        match ← Dev.getVersion md d s with
        | none => .ok none
        | some (d1, e1, true) => .ok (some (d1, e1, tries + 1, rest))
        | some (d1, e1, false) =>
          match ← Dev.tryConnect md (tries + 1) d1 rest with
          | none => .ok none
          | some (d2, e2, t, ss2) => .ok (some (d2, e1 ++ e2, t, ss2))
    else .ok (some (d, [], tries + 1, ss)) := by
  rw [Dev.tryConnect.eq_def]; rfl

/-- Nothing arrives: the polls never end or end with the last permitted try. -/
theorem tryConnect_silent (md : Nav.Mode) (ss : List Ubx.Sched) : ∀ (tries : Nat) (d : Dev), tries < MAX_NUM_TRIES →
    (∀ s ∈ ss, Silent s) →
    Dev.tryConnect md tries d ss = .ok none ∨ ∃ d' e rest, Dev.tryConnect md tries d ss = .ok (some (d', e, MAX_NUM_TRIES, rest)) := by
  induction ss with
  | nil =>
    intro tries d ht _
    rw [tryConnect_unfold]
    split
    · exact .inl rfl
    · refine .inr ⟨d, [], [], ?_⟩
      rw [show tries + 1 = MAX_NUM_TRIES by omega]
  | cons s ss ih =>
    intro tries d ht hs
    rw [tryConnect_unfold]
    split
    · rename_i hlt
      dsimp only
      rcases getVersion_silent md d (hs s (by simp)) with e | ⟨d1, e1, e⟩
      · rw [e]; exact .inl rfl
      · rw [e, ok_bind]
        dsimp only
        rcases ih (tries + 1) d1 hlt (fun s h => hs s (by simp [h])) with e | ⟨d', e', rest, e⟩
        · rw [e]; exact .inl rfl
        · rw [e]; exact .inr ⟨_, _, _, rfl⟩
    · refine .inr ⟨d, [], s :: ss, ?_⟩
      rw [show tries + 1 = MAX_NUM_TRIES by omega]

theorem construct_silent (md : Nav.Mode) (d : Dev) {ss : List Ubx.Sched} (hs : ∀ s ∈ ss, Silent s) :
    Dev.construct md d ss = .ok none ∨ ∃ es, Dev.construct md d ss = .ok (some (none, es)) := by
  unfold Dev.construct
  rcases tryConnect_silent md ss 0 d (by decide) hs with e | ⟨d', es, rest, e⟩
  · rw [e]; exact .inl rfl
  · rw [e, ok_bind]
    cases rest with
    | nil =>
      refine .inr ⟨es, ?_⟩
      dsimp only
      rw [if_pos rfl]
    | cons _ _ => exact .inl rfl

/-- **C94 refuted.** Whatever is in the log and however long one waits: the program never replays anything (and nothing
undefined happens either).  It keeps polling or throws. -/
theorem c94_refuted (md : Nav.Mode) (u : Ubx) (r g : Rtcm) (contents : Option (List Byte)) (ss : List Ubx.Sched)
    (hs : ∀ s ∈ ss, Silent s) :
    readLog md u r g contents ss = .ok none ∨ readLog md u r g contents ss = .throw := by
  unfold readLog
  cases contents with
  | none => exact .inr rfl
  | some c =>
    rcases construct_silent md (Dev.start u r g) hs with e | ⟨es, e⟩
    · left
      show (match Dev.construct md (Dev.start u r g) ss with | _ => _) = _
      rw [e]
    · right
      show (match Dev.construct md (Dev.start u r g) ss with | _ => _) = _
      rw [e]

/-- ... and as soon as the clock has shown a second in each of the two polls, it throws. -/
theorem c94_throws (md : Nav.Mode) (u : Ubx) (r g : Rtcm) (log : List Byte) (i1 i2 : List (List Byte × Nat)) (t1 t2 : Nat)
    (h1 : ∀ it ∈ i1, it.1 = [] ∧ it.2 < 1000) (h2 : ∀ it ∈ i2, it.1 = [] ∧ it.2 < 1000) (ht1 : 1000 ≤ t1) (ht2 : 1000 ≤ t2) :
    readLog md u r g (some log) [⟨[], i1 ++ [([], t1)], []⟩, ⟨[], i2 ++ [([], t2)], []⟩] = .throw := by
  obtain ⟨d1, e1, g1⟩ := getVersion_timeout md (Dev.start u r g) ht1 h1
  obtain ⟨d2, e2, g2⟩ := getVersion_timeout md d1 ht2 h2
  have : Dev.construct md (Dev.start u r g) [⟨[], i1 ++ [([], t1)], []⟩, ⟨[], i2 ++ [([], t2)], []⟩] =
      .ok (some (none, e1 ++ (e2 ++ []))) := by
    unfold Dev.construct
    rw [tryConnect_unfold, if_pos (by decide)]
    dsimp only
    rw [g1, ok_bind]
    dsimp only
    rw [tryConnect_unfold, if_pos (by decide)]
    dsimp only
    rw [g2, ok_bind]
    dsimp only
    rw [tryConnect_unfold, if_neg (by decide), ok_bind]
    rfl
  unfold readLog
  rw [this]
  rfl

/-- The hypotheses are met: a log of one position message, two polls of a second each. -/
example (md : Nav.Mode) (u : Ubx) (r g : Rtcm) :
    (∀ s ∈ [(⟨[], [([], 400), ([], 1001)], []⟩ : Ubx.Sched), ⟨[], [([], 1000)], []⟩], Silent s) ∧
    readLog md u r g (some [0xB5, 0x62, 0x01, 0x07]) [⟨[], [([], 400), ([], 1001)], []⟩, ⟨[], [([], 1000)], []⟩] = .throw := by
  refine ⟨by intro s hs; simp only [List.mem_cons, List.not_mem_nil, or_false] at hs; rcases hs with rfl | rfl <;> rfl, ?_⟩
  exact c94_throws md u r g _ [([], 400)] [] 1001 1000 (by simp) (by simp) (by omega) (by omega)

end Ublox.Logger
