import Verif.Lemmas.DeviceCtor
import Verif.Props.Device

/-!
# Construction and role configuration of the driver (C19, C75)

`construct md (start u r g) ss = .ok (some (res, es))` says: the constructor returned or threw, having made one version
poll for each schedule in `ss`, and `es` is everything it did; `res` is the device, or `none` if it threw.
-/

namespace Ublox
namespace Dev

open Nav (Nav NavCall Mode Sfrbx NavOp)

theorem tryConnect_one {md : Mode} {tries : Nat} {d : Dev} {s : Ubx.Sched} {rest : List Ubx.Sched}
    {x : Dev × List Eff × Nat × List Ubx.Sched} (ht : tries + 1 < 3)
    (h : tryConnect md tries d (s :: rest) = .ok (some x)) :
    ∃ d1 e1 r, getVersion md d s = .ok (some (d1, e1, r)) ∧
      ((r = true ∧ x = (d1, e1, tries + 1, rest)) ∨
       (r = false ∧ ∃ d2 e2 t ss2, tryConnect md (tries + 1) d1 rest = .ok (some (d2, e2, t, ss2)) ∧
          x = (d2, e1 ++ e2, t, ss2))) := by
  unfold tryConnect at h
  rw [if_pos (show tries + 1 < MAX_NUM_TRIES from ht)] at h
  dsimp only at h
  rw [bind_ok] at h
  obtain ⟨o, h1, h⟩ := h
  match o, h1, h with
  | none, _, h => cases h
  | some (d1, e1, true), h1, h =>
    cases h
    exact ⟨d1, e1, true, h1, .inl ⟨rfl, rfl⟩⟩
  | some (d1, e1, false), h1, h =>
    dsimp only at h
    rw [bind_ok] at h
    obtain ⟨o2, h2, h⟩ := h
    cases o2 with
    | none => cases h
    | some q =>
      obtain ⟨d2, e2, t, ss2⟩ := q
      cases h
      exact ⟨d1, e1, false, h1, .inr ⟨rfl, d2, e2, t, ss2, h2, rfl⟩⟩

/-- All that the polling loop can do: succeed at the first poll, at the second, or fail at both. -/
theorem tryConnect_cases {md : Mode} {d d' : Dev} {ss : List Ubx.Sched} {es : List Eff} {t : Nat}
    (h : tryConnect md 0 d ss = .ok (some (d', es, t, []))) :
    (∃ s, ss = [s] ∧ t = 1 ∧ getVersion md d s = .ok (some (d', es, true))) ∨
    (∃ s1 s2 d1 e1 e2 r, ss = [s1, s2] ∧ es = e1 ++ e2 ∧ getVersion md d s1 = .ok (some (d1, e1, false)) ∧
      getVersion md d1 s2 = .ok (some (d', e2, r)) ∧ t = if r = true then 2 else 3) := by
  match ss, h with
  | [], h => unfold tryConnect at h; rw [if_pos (by decide)] at h; cases h
  | s1 :: rest, h =>
    obtain ⟨d1, e1, r, h1, hx⟩ := tryConnect_one (by omega) h
    rcases hx with ⟨rfl, hx⟩ | ⟨rfl, d2, e2, t2, ss2, h2, hx⟩
    · obtain ⟨rfl, rfl, rfl, rfl⟩ := by simpa only [Prod.mk.injEq] using hx
      exact .inl ⟨s1, rfl, rfl, h1⟩
    · obtain ⟨rfl, rfl, rfl, rfl⟩ := by simpa only [Prod.mk.injEq] using hx
      match rest, h2 with
      | [], h2 => unfold tryConnect at h2; rw [if_pos (by decide)] at h2; cases h2
      | s2 :: rest, h2 =>
        obtain ⟨d3, e3, r, h3, hx⟩ := tryConnect_one (by omega) h2
        rcases hx with ⟨rfl, hx⟩ | ⟨rfl, d4, e4, t4, ss4, h4, hx⟩
        · obtain ⟨rfl, rfl, rfl, rfl⟩ := by simpa only [Prod.mk.injEq] using hx
          exact .inr ⟨s1, s2, d1, e1, _, true, rfl, rfl, h1, h3, rfl⟩
        · obtain ⟨rfl, rfl, rfl, rfl⟩ := by simpa only [Prod.mk.injEq] using hx
          unfold tryConnect at h4
          rw [if_neg (by decide)] at h4
          have h5 := Option.some.inj (Except.ok.inj h4)
          simp only [Prod.mk.injEq] at h5
          obtain ⟨rfl, rfl, rfl, rfl⟩ := h5
          exact .inr ⟨s1, s2, d1, e1, e3, false, rfl, by simp, h1, h3, rfl⟩

theorem runCommands_expected (cs : List Ubx.Command) (u : Ubx) (h : u.outMsg.length = 2048)
    (hc : ∀ c ∈ cs, c ≠ .startSurveyIn) :
    ∃ o g, o.length = 2048 ∧ Ubx.runCommands cs u =
      .ok ({ u with outMsg := o, gotVer := g }, wireBytes (cs.flatMap (expectedMessages u.major))) := by
  induction cs generalizing u with
  | nil => exact ⟨u.outMsg, u.gotVer, h, rfl⟩
  | cons c cs ih =>
    obtain ⟨o, g, h1, e⟩ := Ubx.run_expected c (hc c (by simp)) u h
    obtain ⟨o2, g2, h2, e2⟩ := ih { u with outMsg := o, gotVer := g } h1 (fun c hm => hc c (by simp [hm]))
    refine ⟨o2, g2, h2, ?_⟩
    have := Ubx.andThen_ok e e2
    refine this.trans ?_
    simp only [List.flatMap_cons, wireBytes, List.flatMap_append]

theorem setup_expected (major : Int) : setupCommands.flatMap (expectedMessages major) = setupMessages major := by
  unfold setupCommands setupMessages
  simp only [List.flatMap_cons, List.flatMap_nil, expectedMessages]
  split <;> rfl

theorem setup_noSurvey : ∀ c ∈ setupCommands, c ≠ .startSurveyIn := by
  intro c hc
  simp only [setupCommands, List.mem_cons, List.not_mem_nil, or_false] at hc
  rcases hc with rfl | rfl | rfl | rfl | rfl | rfl | rfl <;> intro h <;> cases h

theorem virgin_start {md : Mode} {u : Ubx} {r g : Rtcm} (hu : FreshUbx u) (hr : FreshRtcm r) (hg : FreshRtcm g) :
    Virgin md (start u r g) ∧ Ubx.Reach (start u r g).ubx [] := by
  refine ⟨⟨Inv.start hu hr hg, rfl, rfl⟩, ?_⟩
  obtain ⟨inMsg, outMsg, modName, major, minor, h1, h2, h3, rfl⟩ := hu
  exact ((Ubx.Reach.init _ _ _ _ _ h1 h2 h3).subscribe _ _ _).register _

/-- C19. The constructor polls the receiver's version once or twice, a second time only if the first poll was not
answered; it throws exactly when no version message was received at all (and then two polls timed out, after a second
each); it does nothing but send these polls and, if it does not throw, the documented configuration messages. -/
theorem c19_constructor {md : Mode} {u : Ubx} {r g : Rtcm} {ss : List Ubx.Sched} {res : Option Dev} {es : List Eff}
    (hu : FreshUbx u) (hr : FreshRtcm r) (hg : FreshRtcm g)
    (h : construct md (start u r g) ss = .ok (some (res, es))) :
    (res = none ↔ ∀ p, Item.good 0x0A 0x04 p ∉ (scan 0 (ss.flatMap Ubx.Sched.bytes)).1) ∧
    (res = none → ∀ s ∈ ss, ∃ it, s.iters.getLast? = some it ∧ 1000 ≤ it.2) ∧
    ((ss.length = 1 ∧ res ≠ none) ∨
      (ss.length = 2 ∧ ∀ p, Item.good 0x0A 0x04 p ∉ (scan 0 (ss.take 1 |>.flatMap Ubx.Sched.bytes)).1)) ∧
    es = List.replicate ss.length (.toReceiver (ubxFrame 0x0A 0x04 [])) ++
      res.toList.map (fun d => .toReceiver (wireBytes (setupMessages d.ubx.major))) := by
  obtain ⟨v0, r0⟩ := virgin_start (md := md) hu hr hg
  generalize start u r g = d0 at *
  unfold construct at h
  rw [bind_ok] at h
  obtain ⟨o, h1, h⟩ := h
  match o, h1, h with
  | none, _, h => cases h
  | some (d1, e1, t, x :: xs), _, h => cases h
  | some (d1, e1, t, []), h1, h =>
    dsimp only at h
    have fin : ∀ {d1 : Dev} {t : Nat} {e1 : List Eff}, Virgin md d1 → t ≠ 3 →
        (if t = MAX_NUM_TRIES then (.ok (some (none, e1)) : M (Option (Option Dev × List Eff)))
         else do
          let (d2, e2) ← command d1 setupCommands
          .ok (some (some d2, e1 ++ e2))) = .ok (some (res, es)) →
        ∃ d2, res = some d2 ∧ es = e1 ++ [.toReceiver (wireBytes (setupMessages d2.ubx.major))] := by
      intro d1 t e1 v ht h
      rw [if_neg (show ¬ t = MAX_NUM_TRIES from ht)] at h
      obtain ⟨hh, r1⟩ := v.inv.ubx
      obtain ⟨o, g, -, e⟩ := runCommands_expected setupCommands d1.ubx r1.inv.wf.outLen setup_noSurvey
      unfold command at h
      rw [e] at h
      simp only [ok_bind] at h
      have h5 := Option.some.inj (Except.ok.inj h)
      obtain ⟨rfl, rfl⟩ := Prod.mk.inj h5
      exact ⟨_, rfl, by rw [setup_expected]⟩
    rcases tryConnect_cases h1 with ⟨s, rfl, rfl, g1⟩ | ⟨s1, s2, dm, ea, eb, rr, rfl, rfl, g1, g2, rfl⟩
    · obtain ⟨rfl, v1⟩ := v0.getVersion g1
      obtain ⟨-, w, gu⟩ := getVersion_ubx v0.role g1
      obtain ⟨-, -, new, hnew, hiff⟩ := c17_answer r0 gu
      obtain ⟨d2, rfl, rfl⟩ := fin v1 (by decide) h
      have hs0 : (scan 0 ([] : List Byte)).1 = [] := by rw [scan]
      rw [hs0, List.nil_append, List.nil_append] at hnew
      obtain ⟨p, hp⟩ := hiff.1 rfl
      refine ⟨⟨fun hh => (by cases hh), fun hh => absurd ?_ (hh p)⟩, fun hh => (by cases hh), .inl ⟨rfl, fun hh => (by cases hh)⟩, rfl⟩
      simp only [List.flatMap_cons, List.flatMap_nil, List.append_nil]
      rw [hnew]; exact hp
    · obtain ⟨rfl, v1⟩ := v0.getVersion g1
      obtain ⟨rfl, v2⟩ := v1.getVersion g2
      obtain ⟨-, w1, gu1⟩ := getVersion_ubx v0.role g1
      obtain ⟨-, w2, gu2⟩ := getVersion_ubx v1.role g2
      obtain ⟨-, r1, new1, hnew1, hiff1⟩ := c17_answer r0 gu1
      obtain ⟨-, r2, new2, hnew2, hiff2⟩ := c17_answer r1 gu2
      have t1 := (c17_timeout r0 gu1).2 rfl
      have t2 := (c17_timeout r1 gu2).2
      have hs0 : (scan 0 ([] : List Byte)).1 = [] := by rw [scan]
      rw [hs0] at hnew1
      simp only [List.nil_append] at hnew1 hnew2
      rw [hnew1] at hnew2
      have hno1 : ∀ p, Item.good 0x0A 0x04 p ∉ new1 := fun p hp => by
        have := hiff1.2 ⟨p, hp⟩; cases this
      have hall : ([s1, s2] : List Ubx.Sched).flatMap Ubx.Sched.bytes = s1.bytes ++ s2.bytes := by simp
      have hfirst : (([s1, s2] : List Ubx.Sched).take 1).flatMap Ubx.Sched.bytes = s1.bytes := by simp
      rw [hall, hfirst, hnew2, hnew1]
      cases rr with
      | true =>
        obtain ⟨d2, rfl, rfl⟩ := fin v2 (by decide) h
        obtain ⟨p, hp⟩ := hiff2.1 rfl
        exact ⟨⟨fun hh => (by cases hh), fun hh => absurd (List.mem_append_right _ hp) (hh p)⟩, fun hh => (by cases hh),
          .inr ⟨rfl, hno1⟩, rfl⟩
      | false =>
        rw [if_pos (show (if false = true then 2 else 3) = MAX_NUM_TRIES from rfl)] at h
        have h5 := Option.some.inj (Except.ok.inj h)
        obtain ⟨rfl, rfl⟩ := Prod.mk.inj h5
        refine ⟨⟨fun _ p hp => ?_, fun _ => rfl⟩, fun _ s hs => ?_, .inr ⟨rfl, hno1⟩, rfl⟩
        · rcases List.mem_append.1 hp with hp | hp
          · exact hno1 p hp
          · have := hiff2.2 ⟨p, hp⟩; cases this
        · simp only [List.mem_cons, List.not_mem_nil, or_false] at hs
          rcases hs with rfl | rfl
          · exact t1
          · exact t2 rfl

/-- What construction shows (for examples). -/
def ctorResult (ss : List Ubx.Sched) : Option (Bool × List Nat) :=
  match construct .strict exStart ss with
  | .ok (some (r, es)) => some (r.isSome, es.map fun | .toReceiver b => b.length | _ => 0)
  | _ => none

-- answered at once; answered at the second poll; never answered
example : ctorResult [exSched] = some (true, [8, 28 + 14 + 55]) := by decide +kernel
example : ctorResult [⟨[], [([1, 2], 1000)], []⟩, exSched] = some (true, [8, 8, 97]) := by decide +kernel
example : ctorResult [⟨[], [([1, 2], 1000)], []⟩, ⟨[], [([], 5), ([3], 2000)], []⟩] = some (false, [8, 8]) := by decide +kernel

/-! ## Progress -/

theorem spin_ends {md : Mode} : ∀ (its : List (List Byte × Nat)) {d : Dev} {dt : Nat},
    (∃ it ∈ its, 1000 ≤ it.2) → ∃ k, k ≤ its.length ∧
      ((∃ e, Dev.spin md d dt (its.take k) = .error e) ∨
        ∃ d' t es, Dev.spin md d dt (its.take k) = .ok (some (d', t, [], es))) := by
  intro its
  induction its with
  | nil => rintro d dt ⟨it, h, -⟩; simp at h
  | cons it its ih =>
    obtain ⟨bs, t⟩ := it
    rintro d dt ⟨x, hx, h1000⟩
    by_cases hc : (!d.ubx.gotVer && decide (dt < Ubx.TIMEOUT_MS)) = true
    · have hgo : ∀ rest, Dev.spin md d dt ((bs, t) :: rest) = (do
          let (d1, e1) ← Dev.readCb md d bs
          match ← Dev.spin md d1 t rest with
          | none => .ok none
          | some (d2, dt2, its2, e2) => .ok (some (d2, dt2, its2, e1 ++ e2))) := by
        intro rest; rw [Dev.spin, if_pos hc]; rfl
      cases hv : Dev.readCb md d bs with
      | error e =>
        refine ⟨1, by simp, .inl ⟨e, ?_⟩⟩
        rw [List.take_succ_cons, hgo, hv]; rfl
      | ok v =>
        obtain ⟨d1, e1⟩ := v
        by_cases ht : 1000 ≤ t
        · refine ⟨1, by simp, .inr ⟨d1, t, e1 ++ [], ?_⟩⟩
          rw [List.take_succ_cons, List.take_zero, hgo, hv]
          simp only [ok_bind]
          rw [Dev.spin, if_neg]
          · rfl
          · simp only [Bool.and_eq_true, decide_eq_true_eq, not_and]; intro _; show ¬ t < 1000; omega
        · rcases List.mem_cons.1 hx with rfl | hx
          · exact absurd h1000 ht
          · obtain ⟨k, hk, hk2⟩ := ih (d := d1) (dt := t) ⟨x, hx, h1000⟩
            refine ⟨k + 1, by simpa using hk, ?_⟩
            rw [List.take_succ_cons, hgo, hv]
            simp only [ok_bind]
            rcases hk2 with ⟨e, he⟩ | ⟨d2, t2, es, he⟩
            · exact .inl ⟨e, by rw [he]; rfl⟩
            · exact .inr ⟨d2, t2, e1 ++ es, by rw [he]; rfl⟩
    · exact ⟨0, by simp, .inr ⟨d, dt, [], by rw [List.take_zero, Dev.spin, if_neg hc]⟩⟩

theorem getVersion_ends {md : Mode} (d : Dev) (before : List Byte) (its : List (List Byte × Nat)) (h : ∃ it ∈ its, 1000 ≤ it.2) :
    ∃ k, k ≤ its.length ∧ ∀ after, Dev.getVersion md d ⟨before, its.take k, after⟩ ≠ .ok none := by
  have hsend := Ubx.pollVersion_ok d.ubx
  have hsend : Ubx.sendMessage CLASS_MON MON_VER 0 { d.ubx with gotVer := false } = _ := hsend
  cases e1 : Dev.readCb md { d with ubx := { d.ubx with gotVer := false } } before with
  | error e =>
    refine ⟨0, by omega, fun after => ?_⟩
    unfold Dev.getVersion
    rw [hsend]
    simp only [ok_bind, e1]
    intro hc; cases hc
  | ok v =>
    obtain ⟨d1, f1⟩ := v
    obtain ⟨k, hk, hk2⟩ := spin_ends (md := md) its (d := d1) (dt := 0) h
    refine ⟨k, hk, fun after => ?_⟩
    unfold Dev.getVersion
    rw [hsend]
    simp only [ok_bind, e1]
    rcases hk2 with ⟨e, he⟩ | ⟨d2, t, es, he⟩
    · rw [he]; intro hc; cases hc
    · rw [he]
      simp only [ok_bind]
      cases Dev.readCb md d2 after with
      | error e => intro hc; cases hc
      | ok v3 => intro hc; simp only [ok_bind] at hc; cases hc

/-- C19, progress. Whatever the receiver sends, if in each poll the clock eventually shows 1000 ms, the constructor ends
after one or two polls: it returns, throws, or has run into the undefined behaviour of C70. -/
theorem c19_terminates (md : Mode) (d : Dev) (b1 a1 b2 a2 : List Byte) (its1 its2 : List (List Byte × Nat))
    (h1 : ∃ it ∈ its1, 1000 ≤ it.2) (h2 : ∃ it ∈ its2, 1000 ≤ it.2) :
    ∃ k1 k2 n, construct md d (([⟨b1, its1.take k1, a1⟩, ⟨b2, its2.take k2, a2⟩] : List Ubx.Sched).take n) ≠ .ok none := by
  obtain ⟨k1, -, e1⟩ := getVersion_ends (md := md) d b1 its1 h1
  have e1 := e1 a1
  refine ⟨k1, ?_⟩
  generalize (⟨b1, its1.take k1, a1⟩ : Ubx.Sched) = s1 at e1 ⊢
  have step1 : ∀ rest, Dev.tryConnect md 0 d (s1 :: rest) = (do
      match ← getVersion md d s1 with
      | none => .ok none
      | some (d1, e1, true) => .ok (some (d1, e1, 1, rest))
      | some (d1, e1, false) =>
        match ← Dev.tryConnect md 1 d1 rest with
        | none => .ok none
        | some (d2, e2, t, ss2) => .ok (some (d2, e1 ++ e2, t, ss2))) := by
    intro rest; rw [Dev.tryConnect, if_pos (by decide)]; rfl
  have fin : ∀ (d1 : Dev) (e1 : List Eff) (t : Nat),
        (if t = MAX_NUM_TRIES then (.ok (some (none, e1)) : M (Option (Option Dev × List Eff)))
         else do
          let (d2, e2) ← command d1 setupCommands
          .ok (some (some d2, e1 ++ e2))) ≠ .ok none := by
    intro d1 e1 t hh
    split at hh
    · cases hh
    · rw [bind_ok] at hh
      obtain ⟨⟨a, b⟩, -, hh⟩ := hh
      cases hh
  match hg : getVersion md d s1, e1 with
  | .error e, _ =>
    refine ⟨0, 1, ?_⟩
    unfold construct
    rw [List.take_succ_cons, step1, hg]
    intro hc; cases hc
  | .ok (some (d1, e1, true)), _ =>
    refine ⟨0, 1, ?_⟩
    unfold construct
    rw [List.take_succ_cons, List.take_zero, step1, hg]
    simp only [ok_bind]
    exact fin _ _ _
  | .ok (some (d1, f1, false)), _ =>
    obtain ⟨k2, -, e2⟩ := getVersion_ends (md := md) d1 b2 its2 h2
    have e2 := e2 a2
    refine ⟨k2, 2, ?_⟩
    generalize (⟨b2, its2.take k2, a2⟩ : Ubx.Sched) = s2 at e2 ⊢
    unfold construct
    rw [List.take_succ_cons, List.take_succ_cons, List.take_zero, step1, hg]
    simp only [ok_bind]
    rw [Dev.tryConnect, if_pos (by decide)]
    match hg2 : getVersion md d1 s2, e2 with
    | .error e, _ => intro hc; cases hc
    | .ok (some (d2, e2, true)), _ =>
      simp only [ok_bind]
      exact fin _ _ _
    | .ok (some (d2, e2, false)), _ =>
      simp only [ok_bind]
      rw [Dev.tryConnect, if_neg (by decide)]
      simp only [ok_bind]
      exact fin _ _ _

/-! ## C75: what the role configuration sends -/

theorem rover_expected (major : Int) : roverCommands.flatMap (expectedMessages major) = rtcmRates 0 := rfl
theorem base_expected (major : Int) : (baseCommands false).flatMap (expectedMessages major) = rtcmRates 1 := rfl

theorem noSurvey_rates (d : BitVec 64) : ∀ c ∈ rtcmKeys.map (fun k => Ubx.Command.configure 0 1 d k 1), c ≠ .startSurveyIn := by
  intro c hc
  obtain ⟨k, -, rfl⟩ := List.mem_map.1 hc
  intro h; cases h

theorem command_eq {d : Dev} {cs : List Ubx.Command} {u : Ubx} {w : List Byte} (e : Ubx.runCommands cs d.ubx = .ok (u, w)) :
    d.command cs = .ok ({ d with ubx := u }, [.toReceiver w]) := by
  unfold command; rw [e]; rfl

theorem runCommands_append {a b : List Ubx.Command} {u u1 u2 : Ubx} {w1 w2 : List Byte}
    (h1 : Ubx.runCommands a u = .ok (u1, w1)) (h2 : Ubx.runCommands b u1 = .ok (u2, w2)) :
    Ubx.runCommands (a ++ b) u = .ok (u2, w1 ++ w2) := by
  induction a generalizing u w1 with
  | nil => cases h1; exact h2
  | cons c cs ih =>
    unfold Ubx.runCommands Ubx.andThen at h1
    rw [bind_ok] at h1
    obtain ⟨⟨u3, w3⟩, h3, h1⟩ := h1
    dsimp only at h1
    rw [bind_ok] at h1
    obtain ⟨⟨u4, w4⟩, h4, h1⟩ := h1
    cases h1
    have := Ubx.andThen_ok h3 (ih h4)
    rw [List.append_assoc]
    exact this

/-- C75, rover: `config_rover` switches off the seven RTCM messages and sends nothing else. -/
theorem c75_rover {md : Mode} {d : Dev} {evs : List Ev} {es0 : List Eff} (h : Reach md d evs es0) (i : Nat) :
    ∃ d', d.step md (.configRover i) = .ok (d', [.toReceiver (wireBytes (rtcmRates 0))]) := by
  obtain ⟨hh, r1⟩ := h.inv.ubx
  obtain ⟨o, g, -, e⟩ := runCommands_expected roverCommands d.ubx r1.inv.wf.outLen (noSurvey_rates 0)
  rw [rover_expected] at e
  have k := command_eq (d := { d with role := .rover }) e
  have : ∃ x, d.step md (.configRover i) = .ok (x, [.toReceiver (wireBytes (rtcmRates 0))]) := by
    show ∃ x, configRover d i = _
    unfold configRover
    rw [k]
    exact ⟨_, rfl⟩
  exact this

/-- C75, moving base: `config_base` switches on the seven RTCM messages and sends nothing else. -/
theorem c75_moving_base {md : Mode} {d : Dev} {evs : List Ev} {es0 : List Eff} (h : Reach md d evs es0) (i : Nat) :
    ∃ d', d.step md (.configBase i false) = .ok (d', [.toReceiver (wireBytes (rtcmRates 1))]) := by
  obtain ⟨hh, r1⟩ := h.inv.ubx
  obtain ⟨o, g, -, e⟩ := runCommands_expected (baseCommands false) d.ubx r1.inv.wf.outLen (by
    unfold baseCommands; rw [if_neg (by decide), List.append_nil]; exact noSurvey_rates 1)
  rw [base_expected] at e
  have k := command_eq (d := { d with role := .base, rtk := some i, rtcm := d.rtcm.registerListener 0 }) e
  exact ⟨_, k⟩

/-- C75, stationary base, what holds: `config_base` switches on the seven RTCM messages, sets up the survey, and starts
it with a CFG-TMODE3 message asking for survey-in, 60 s, accuracy limit 3.  Missing: the other bytes of that message are
whatever the output buffer held (C21), not zero. -/
theorem c75_stationary_base_partial {md : Mode} {d : Dev} {evs : List Ev} {es0 : List Eff} (h : Reach md d evs es0) (i : Nat) :
    ∃ d' a b c, a.length = 2 ∧ b.length = 20 ∧ c.length = 8 ∧ d.step md (.configBase i true) =
      .ok (d', [.toReceiver (wireBytes (rtcmRates 1 ++ surveyMessages ++
        [(0x06, 0x71, a ++ leBytes 2 1 ++ b ++ leBytes 4 60 ++ leBytes 4 3 ++ c)]))]) := by
  obtain ⟨hh, r1⟩ := h.inv.ubx
  have hsplit : baseCommands true = ((rtcmKeys.map fun k => Ubx.Command.configure 0 1 1 k 1) ++
    [.configure 0 1 1 0x2091008b 1, .configure 0 1 1 0x20030001 1, .configure 0 1 500000 0x40030011 2,
     .configure 0 1 119 0x40030010 2]) ++ [.startSurveyIn] := rfl
  obtain ⟨o, g, ho, e⟩ := runCommands_expected ((rtcmKeys.map fun k => Ubx.Command.configure 0 1 1 k 1) ++
    [.configure 0 1 1 0x2091008b 1, .configure 0 1 1 0x20030001 1, .configure 0 1 500000 0x40030011 2,
     .configure 0 1 119 0x40030010 2]) d.ubx r1.inv.wf.outLen (by
    intro c hc
    rcases List.mem_append.1 hc with hc | hc
    · exact noSurvey_rates 1 c hc
    · simp only [List.mem_cons, List.not_mem_nil, or_false] at hc
      rcases hc with rfl | rfl | rfl | rfl <;> intro h <;> cases h)
  obtain ⟨o2, -, e2⟩ := Ubx.startSurveyIn_ok { d.ubx with outMsg := o, gotVer := g } ho
  have e3 := runCommands_append (b := [.startSurveyIn]) e (Ubx.andThen_ok e2 rfl)
  rw [← hsplit] at e3
  have hw : ∀ (x y : List (Byte × Byte × List Byte)), wireBytes (x ++ y) = wireBytes x ++ wireBytes y := by
    intro x y; simp only [wireBytes, List.flatMap_append]
  have hone : ∀ p : List Byte, ubxFrame 0x06 0x71 p ++ [] = wireBytes [(0x06, 0x71, p)] := by
    intro p; simp only [wireBytes, List.flatMap_cons, List.flatMap_nil]
  rw [hone, ← hw] at e3
  obtain ⟨u3, hu3⟩ : ∃ u3, Ubx.runCommands (baseCommands true) d.ubx = .ok (u3, wireBytes (rtcmRates 1 ++ surveyMessages ++
        [(0x06, 0x71, o.take 2 ++ leBytes 2 1 ++ (o.drop 4).take 20 ++ leBytes 4 60 ++ leBytes 4 3 ++ (o.drop 32).take 8)])) :=
    ⟨_, e3⟩
  exact ⟨_, o.take 2, (o.drop 4).take 20, (o.drop 32).take 8, by simp [ho], by simp [ho], by simp [ho],
    command_eq (d := { d with role := .base, rtk := some i, rtcm := d.rtcm.registerListener 0 }) hu3⟩

/-- C75 is false for a stationary base: in the survey-in message the (unused) position fields carry the bytes of the
preceding configuration message, not zero. -/
theorem c75_refuted : (exRun [.configBase 9 true]).map (fun x => x.2.map fun | .toReceiver b => (b.drop 220).take 14 | _ => []) =
    some [[0xB5, 0x62, 0x06, 0x71, 40, 0, 0, 1, 1, 0, 0x10, 0, 3, 0x40]] := by decide +kernel

end Dev
end Ublox
