import Verif.Lemmas.Process
import Verif.Props.Device
import Verif.Props.NavData
import Verif.Props.Rtcm

/-!
# C114: the devices of a process are independent

Refuted: the pages of the Galileo satellites and the debug parser of the rovers are shared by all devices.  Otherwise independent.
-/

namespace Ublox.Proc

open Nav (Mode NavCall)
open Ublox.Nav.Data

theorem heard_cons (j k : Nat) (e : PEv) (evs : List (Nat × PEv)) :
    heard j ((k, e) :: evs) = if j = k then bytesIn e ++ heard j evs else heard j evs := by
  unfold heard
  by_cases h : j = k
  · subst h
    rw [if_pos rfl, List.filter_cons_of_pos (by simp), List.flatMap_cons]
  · rw [if_neg h, List.filter_cons_of_neg (by simpa using fun x => h x.symm)]

theorem more_heard (H : Nat → List Byte) (j k : Nat) (e : PEv) (evs : List (Nat × PEv)) :
    more H k e j ++ heard j evs = H j ++ heard j ((k, e) :: evs) := by
  rw [heard_cons]
  unfold more
  split
  · rw [List.append_assoc]
  · rfl

theorem effectsOf_append (k : Nat) (a b : List (Nat × Eff)) : effectsOf k (a ++ b) = effectsOf k a ++ effectsOf k b :=
  List.filterMap_append

theorem effectsOf_own (k : Nat) (es : List Eff) : effectsOf k (es.map (k, ·)) = es := by
  unfold effectsOf
  induction es with
  | nil => rfl
  | cons e es ih => rw [List.map_cons, List.filterMap_cons]; simp only [if_pos]; rw [ih]

theorem effectsOf_other {k j : Nat} (h : j ≠ k) (es : List Eff) : effectsOf k (es.map (j, ·)) = [] := by
  unfold effectsOf
  induction es with
  | nil => rfl
  | cons e es ih => rw [List.map_cons, List.filterMap_cons]; simp only [if_neg h]; exact ih

theorem run_indep {md : Mode} {k k0 : Nat} {D : Prop} : ∀ {evs : List (Nat × PEv)} {p q p' : Proc} {H : Nat → List Byte}
    {es : List (Nat × Eff)}, Rel k k0 D p q → Known p H → (∀ x ∈ evs, Made x.2) → (∀ j, j ≠ k0 → NoGalileo (H j ++ heard j evs)) →
    (D → ∀ x ∈ evs, x.1 ≠ k → pRtk x.2 = false) → run md p evs = .ok (p', es) →
    (∀ q' es', run md q (only k evs) = .ok (q', es') → effectsOf k es = effectsOf k es') ∧
    (D → ∃ q' es', run md q (only k evs) = .ok (q', es')) := by
  intro evs
  induction evs with
  | nil =>
    intro p q p' H es _ _ _ _ _ hr
    cases hr
    refine ⟨fun q' es' h => ?_, fun _ => ⟨_, _, rfl⟩⟩
    cases h; rfl
  | cons x xs ih =>
    intro p q p' H es hR hK hM hN hD hr
    obtain ⟨j, e⟩ := x
    unfold run at hr
    rw [bind_ok] at hr
    obtain ⟨⟨p1, e1⟩, h1, hr⟩ := hr
    dsimp only at hr h1
    rw [bind_ok] at hr
    obtain ⟨⟨p2, e2⟩, h2, hr⟩ := hr
    cases hr
    have hm : Made e := hM (j, e) List.mem_cons_self
    have hM' : ∀ x ∈ xs, Made x.2 := fun x hx => hM x (List.mem_cons_of_mem _ hx)
    have hK' := known_step hK hm h1
    have hN' : ∀ i, i ≠ k0 → NoGalileo (more H j e i ++ heard i xs) := fun i hi => by rw [more_heard]; exact hN i hi
    have hD' : D → ∀ x ∈ xs, x.1 ≠ k → pRtk x.2 = false := fun hd x hx => hD hd x (List.mem_cons_of_mem _ hx)
    have hn : j ≠ k0 → NoGalileo (H j ++ bytesIn e) := by
      intro hj q hq hi
      refine hN j hj q hq (hi.trans ?_)
      rw [heard_cons, if_pos rfl, ← List.append_assoc]
      exact (List.prefix_append _ _).isInfix
    by_cases hj : j = k
    · subst hj
      obtain ⟨o1, o2⟩ := hR.own hK hm hn h1
      have eo : only j ((j, e) :: xs) = (j, e) :: only j xs := by
        unfold only; rw [List.filter_cons_of_pos (by simp)]
      rw [eo]
      constructor
      · intro q' es' hq
        unfold run at hq
        rw [bind_ok] at hq
        obtain ⟨⟨q1, f1⟩, g1, hq⟩ := hq
        dsimp only at hq g1
        rw [bind_ok] at hq
        obtain ⟨⟨q2, f2⟩, g2, hq⟩ := hq
        cases hq
        obtain ⟨rfl, hR'⟩ := o1 _ _ g1
        have := (ih hR' hK' hM' hN' hD' h2).1 _ _ g2
        rw [effectsOf_append, effectsOf_append, this]
      · intro hd
        obtain ⟨q1, f1, g1⟩ := o2 (.inl hd)
        obtain ⟨-, hR'⟩ := o1 _ _ g1
        obtain ⟨q2, f2, g2⟩ := (ih hR' hK' hM' hN' hD' h2).2 hd
        refine ⟨q2, f1.map (j, ·) ++ f2, ?_⟩
        unfold run
        dsimp only
        rw [g1]
        simp only [ok_bind]
        rw [g2]; rfl
    · have hR' := hR.other hK hm hj hn (fun hd => hD hd (j, e) List.mem_cons_self hj) h1
      have eo : only k ((j, e) :: xs) = only k xs := by
        unfold only; rw [List.filter_cons_of_neg (by simpa using hj)]
      rw [eo]
      have := ih hR' hK' hM' hN' hD' h2
      refine ⟨fun q' es' hq => ?_, this.2⟩
      rw [effectsOf_append, effectsOf_other hj, List.nil_append]
      exact this.1 _ _ hq

theorem rel_fresh (k k0 : Nat) (D : Prop) : Rel k k0 D fresh fresh := ⟨.inl ⟨rfl, rfl⟩, fun _ => rfl, fun _ => rfl⟩

theorem known_fresh : Known fresh fun _ => [] := fun _ _ h => by cases h

theorem made_of {evs : List (Nat × PEv)} (h : Proper evs) : ∀ x ∈ evs, Made x.2 := by
  rintro ⟨k, e⟩ hx
  cases e with
  | create u r ss => exact h k u r ss hx
  | destroy => trivial
  | on e => trivial

/-- **C114 (partial).** When at most one device of the process hears of Galileo, whatever else happens to the devices, in whatever
order they are created, used, configured and destroyed: each device has exactly the effects it would have in a process of its own.
(The full property, without the restriction, is refuted by `c114_refuted`.) -/
theorem c114_partial {md : Mode} {evs : List (Nat × PEv)} {p p1 : Proc} {es es1 : List (Nat × Eff)} {k : Nat} (hm : Proper evs)
    (hg : ∃ k0, ∀ j, j ≠ k0 → NoGalileo (heard j evs)) (h : run md fresh evs = .ok (p, es))
    (h1 : run md fresh (only k evs) = .ok (p1, es1)) : effectsOf k es = effectsOf k es1 := by
  obtain ⟨k0, hg⟩ := hg
  exact (run_indep (D := False) (rel_fresh k k0 _) known_fresh (made_of hm) hg (fun h => h.elim) h).1 _ _ h1

/-- **C114, definedness (partial).** If moreover no other device gets data on an RTK link, a device whose process runs without undefined
behaviour also does so alone. -/
theorem c114_defined_partial {md : Mode} {evs : List (Nat × PEv)} {p : Proc} {es : List (Nat × Eff)} {k : Nat} (hm : Proper evs)
    (hg : ∃ k0, ∀ j, j ≠ k0 → NoGalileo (heard j evs)) (hr : ∀ j i b, (j, PEv.on (.rtkRx i b)) ∈ evs → j = k)
    (h : run md fresh evs = .ok (p, es)) :
    ∃ p1 es1, run md fresh (only k evs) = .ok (p1, es1) ∧ effectsOf k es = effectsOf k es1 := by
  obtain ⟨k0, hg⟩ := hg
  have key := run_indep (D := True) (rel_fresh k k0 _) known_fresh (made_of hm) hg (fun _ x hx hk => by
    obtain ⟨j, e⟩ := x
    cases e with
    | create u r ss => rfl
    | destroy => rfl
    | on e =>
      cases e with
      | rtkRx i b => exact absurd (hr j i b hx) hk
      | _ => rfl) h
  obtain ⟨p1, es1, h1⟩ := key.2 trivial
  exact ⟨p1, es1, h1, key.1 _ _ h1⟩

/-! ### Witnesses -/

/-- A construction with one answered poll. -/
def make : PEv :=
  .create (Ubx.init (List.replicate 2048 0) (List.replicate 2048 0) (List.replicate 10 0) 0 0) (Rtcm.init (List.replicate 1024 0) 0 0 0)
    [Dev.exSched]

theorem make_fresh : ∀ u r ss, make = PEv.create u r ss → Dev.FreshUbx u ∧ Dev.FreshRtcm r := by
  intro u r ss h
  cases h
  exact ⟨⟨_, _, _, _, _, List.length_replicate, List.length_replicate, List.length_replicate, rfl⟩, ⟨_, _, _, _, List.length_replicate, rfl⟩⟩

theorem proper_of {evs : List (Nat × PEv)} (h : ∀ x ∈ evs, x.2 = make ∨ ∀ u r ss, x.2 ≠ PEv.create u r ss) : Proper evs := by
  intro k u r ss hx
  rcases h _ hx with h | h
  · exact make_fresh u r ss h.symm
  · exact absurd rfl (h u r ss)

/-- The SFRBX message with a page of Galileo satellite 7. -/
def page (d : List Byte) : List Byte := ubxFrame 0x02 0x13 ([2, 7, 0, 0, 10, 0, 2, 0] ++ d)

/-- Two receivers, one listener; device 1 gets pages 2-6 of a satellite, device 2 pages 0 and 1. -/
def exSplit : List (Nat × PEv) :=
  [(1, make), (2, make), (2, .on .ephCb), (1, .on (.rx ([gal2, gal3, gal4, gal5, gal6].flatMap page))),
   (2, .on (.rx ([gal0, gal1].flatMap page)))]

/-- The first device is gone before the second one exists. -/
def exHeir : List (Nat × PEv) :=
  [(1, make), (1, .on (.rx ([gal2, gal3, gal4, gal5, gal6].flatMap page))), (1, .destroy), (2, make), (2, .on .ephCb),
   (2, .on (.rx ([gal0, gal1].flatMap page)))]

/-- How many ephemerides device `k` reports in a history. -/
def reports (md : Mode) (k : Nat) (evs : List (Nat × PEv)) : Option Nat :=
  match run md fresh evs with
  | .ok x => some ((effectsOf k x.2).filterMap Eff.nav?).length
  | .error _ => none

theorem reports_some {md : Mode} {k n : Nat} {evs : List (Nat × PEv)} (h : reports md k evs = some n) :
    ∃ p es, run md fresh evs = .ok (p, es) ∧ ((effectsOf k es).filterMap Eff.nav?).length = n := by
  unfold reports at h
  split at h
  · rename_i x hx
    exact ⟨x.1, x.2, hx, Option.some.inj h⟩
  · cases h

/-- **C114 (refuted).** A device reports an ephemeris that alone it does not report, composed of pages that came from another device's
receiver, even from one that no longer exists. -/
theorem c114_refuted : ∀ evs ∈ [exSplit, exHeir], Proper evs ∧ ∃ p es p1 es1, run .lenient fresh evs = .ok (p, es) ∧
    run .lenient fresh (only 2 evs) = .ok (p1, es1) ∧ ((effectsOf 2 es).filterMap Eff.nav?).length = 1 ∧
    (effectsOf 2 es1).filterMap Eff.nav? = [] := by
  have hp : ∀ evs ∈ [exSplit, exHeir], Proper evs := by
    intro evs he
    rcases List.mem_cons.1 he with rfl | he
    · exact proper_of (by
        intro x hx
        simp only [exSplit, List.mem_cons, List.not_mem_nil, or_false] at hx
        rcases hx with rfl | rfl | rfl | rfl | rfl <;> first | exact .inl rfl | exact .inr fun _ _ _ h => by cases h)
    · rw [List.mem_singleton.1 he]
      exact proper_of (by
        intro x hx
        simp only [exHeir, List.mem_cons, List.not_mem_nil, or_false] at hx
        rcases hx with rfl | rfl | rfl | rfl | rfl | rfl <;> first | exact .inl rfl | exact .inr fun _ _ _ h => by cases h)
  have h1 : reports .lenient 2 exSplit = some 1 := by decide +kernel
  have h2 : reports .lenient 2 (only 2 exSplit) = some 0 := by decide +kernel
  have h3 : reports .lenient 2 exHeir = some 1 := by decide +kernel
  have h4 : only 2 exHeir = only 2 exSplit := rfl
  intro evs he
  refine ⟨hp evs he, ?_⟩
  obtain ⟨p1, es1, g1, g2⟩ := reports_some h2
  have g2 := List.length_eq_zero_iff.mp g2
  rcases List.mem_cons.1 he with rfl | he
  · obtain ⟨p, es, k1, k2⟩ := reports_some h1
    exact ⟨p, es, p1, es1, k1, g1, k2, g2⟩
  · rw [List.mem_singleton.1 he]
    obtain ⟨p, es, k1, k2⟩ := reports_some h3
    exact ⟨p, es, p1, es1, k1, by rw [h4]; exact g1, k2, g2⟩

/-- The forwarding devices of a history's end. -/
def links (md : Mode) (k : Nat) (evs : List (Nat × PEv)) : Option (List Nat) :=
  match run md fresh evs with
  | .ok x => (x.1.dev k).map (·.fwd)
  | .error _ => none

theorem links_some {md : Mode} {k : Nat} {l : List Nat} {evs : List (Nat × PEv)} (h : links md k evs = some l) :
    ∃ p es d, run md fresh evs = .ok (p, es) ∧ p.dev k = some d ∧ d.fwd = l := by
  unfold links at h
  split at h
  · rename_i x hx
    cases hd : x.1.dev k with
    | none => rw [hd] at h; cases h
    | some d => rw [hd] at h; exact ⟨x.1, x.2, d, hx, hd, Option.some.inj h⟩
  · cases h

theorem run_append (md : Mode) (p : Proc) (a b : List (Nat × PEv)) :
    run md p (a ++ b) = (run md p a >>= fun x => run md x.1 b >>= fun y => .ok (y.1, x.2 ++ y.2)) := by
  induction a generalizing p with
  | nil => show run md p b = (run md p b >>= fun y => .ok (y.1, [] ++ y.2)); cases run md p b <;> rfl
  | cons x xs ih =>
    rw [List.cons_append, run, run]
    cases p.step md x.1 x.2 with
    | error e => rfl
    | ok r =>
      simp only [ok_bind]
      rw [ih]
      cases run md r.1 xs with
      | error e => rfl
      | ok r2 =>
        simp only [ok_bind]
        cases run md r2.1 b with
        | error e => rfl
        | ok r3 => simp only [ok_bind, List.append_assoc]

theorem run_dbg {md : Mode} : ∀ {evs : List (Nat × PEv)} {p p' : Proc} {H : Nat → List Byte} {es : List (Nat × Eff)}, Known p H →
    (∀ x ∈ evs, Made x.2) → (∀ x ∈ evs, pRtk x.2 = false) → run md p evs = .ok (p', es) → p'.dbg = p.dbg := by
  intro evs
  induction evs with
  | nil => intro p p' H es _ _ _ hr; cases hr; rfl
  | cons x xs ih =>
    intro p p' H es hK hM hD hr
    unfold run at hr
    rw [bind_ok] at hr
    obtain ⟨⟨p1, e1⟩, h1, hr⟩ := hr
    dsimp only at hr h1
    rw [bind_ok] at hr
    obtain ⟨⟨p2, e2⟩, h2, hr⟩ := hr
    cases hr
    have hm := hM x List.mem_cons_self
    rw [ih (known_step hK hm h1) (fun y hy => hM y (List.mem_cons_of_mem _ hy)) (fun y hy => hD y (List.mem_cons_of_mem _ hy)) h2]
    exact (step_static hK hm h1).2.2 (hD x List.mem_cons_self)

/-- **C114, definedness (refuted).** Whenever a process has two rovers whose links were silent so far: if the link of the first delivers
the first three bytes of a long frame and the link of the second as many arbitrary bytes, the shared debug parser stores outside its
buffer. -/
theorem c114_defined_refuted {md : Mode} {evs : List (Nat × PEv)} {p : Proc} {es : List (Nat × Eff)} (hm : Proper evs)
    (hs : ∀ j i b, (j, PEv.on (.rtkRx i b)) ∉ evs) (h : run md fresh evs = .ok (p, es)) {k1 k2 i1 i2 : Nat} {d1 d2 : Dev} (hk : k1 ≠ k2)
    (h1 : p.dev k1 = some d1) (f1 : i1 ∈ d1.fwd) (h2 : p.dev k2 = some d2) (f2 : i2 ∈ d2.fwd) (b1 b2 : Byte)
    (hn : 1019 ≤ rtcmLen b1 b2) (q : List Byte) (hq : q.length = rtcmLen b1 b2 + 3) :
    run md fresh (evs ++ [(k1, .on (.rtkRx i1 [0xD3, b1, b2])), (k2, .on (.rtkRx i2 q))]) = .error .oobWrite := by
  have hdbg : p.dbg = fresh.dbg := run_dbg known_fresh (made_of hm) (fun x hx => by
    obtain ⟨j, e⟩ := x
    cases e with
    | create u r ss => rfl
    | destroy => rfl
    | on e =>
      cases e with
      | rtkRx i b => exact absurd hx (hs j i b)
      | _ => rfl) h
  have hb : Rtcm.readCb p.dbg ([0xD3, b1, b2] ++ q) = .error .oobWrite := by
    rw [hdbg]
    exact Rtcm.c24_refuted (hist := []) (.init _ _ _ _ List.length_replicate) rfl b1 b2 hn q hq
  rw [Rtcm.readCb_append] at hb
  rw [run_append, h, ok_bind, run]
  dsimp only
  have s1 : p.step md k1 (.on (.rtkRx i1 [0xD3, b1, b2])) =
      (Rtcm.readCb p.dbg [0xD3, b1, b2] >>= fun x =>
        .ok (p.save k1 { p.load d1 with dbg := x.1 }, [Eff.toReceiver [0xD3, b1, b2]])) := by
    unfold step
    dsimp only
    rw [h1]
    dsimp only
    unfold Dev.step Dev.rtkRx
    dsimp only
    rw [if_pos (show i1 ∈ (p.load d1).fwd from f1)]
    show (Rtcm.readCb p.dbg _ >>= _) >>= _ = _
    cases Rtcm.readCb p.dbg [0xD3, b1, b2] <;> rfl
  rw [s1]
  cases hx : Rtcm.readCb p.dbg [0xD3, b1, b2] with
  | error e =>
    rw [hx] at hb
    have he : e = .oobWrite := Except.error.inj hb
    rw [he]; rfl
  | ok x =>
    rw [hx] at hb
    simp only [ok_bind] at hb ⊢
    have hy : Rtcm.readCb x.1 q = .error .oobWrite := by
      cases hy : Rtcm.readCb x.1 q with
      | error e => rw [hy] at hb; exact congrArg _ (Except.error.inj hb)
      | ok y => rw [hy] at hb; cases hb
    have s2 : (p.save k1 { p.load d1 with dbg := x.1 }).step md k2 (.on (.rtkRx i2 q)) = .error .oobWrite := by
      unfold step
      dsimp only
      have e2 : (p.save k1 { p.load d1 with dbg := x.1 }).dev k2 = some d2 := (if_neg hk.symm).trans h2
      rw [e2]
      dsimp only
      unfold Dev.step Dev.rtkRx
      dsimp only
      rw [if_pos (show i2 ∈ (load _ d2).fwd from f2)]
      show (Rtcm.readCb x.1 q >>= _) >>= _ = _
      rw [hy]; rfl
    rw [run]
    dsimp only
    rw [s2]
    rfl

/-- Two rovers. -/
def exRovers : List (Nat × PEv) := [(1, make), (2, make), (1, .on (.configRover 4)), (2, .on (.configRover 5))]

/-- Such a process exists; and alone, each of the two devices has no undefined behaviour. -/
example : Proper exRovers ∧ (∀ j i b, (j, PEv.on (.rtkRx i b)) ∉ exRovers) ∧
    (∃ p es d1 d2, run .strict fresh exRovers = .ok (p, es) ∧ p.dev 1 = some d1 ∧ 4 ∈ d1.fwd ∧ p.dev 2 = some d2 ∧ 5 ∈ d2.fwd) ∧
    (∃ p es, run .strict fresh (only 1 exRovers ++ [(1, .on (.rtkRx 4 [0xD3, 0x03, 0xFB]))]) = .ok (p, es)) ∧
    ∃ p es, run .strict fresh (only 2 exRovers ++ [(2, .on (.rtkRx 5 (List.replicate 1022 0)))]) = .ok (p, es) := by
  refine ⟨proper_of (by
    intro x hx
    simp only [exRovers, List.mem_cons, List.not_mem_nil, or_false] at hx
    rcases hx with rfl | rfl | rfl | rfl <;> first | exact .inl rfl | exact .inr fun _ _ _ h => by cases h), (by
    intro j i b hx
    simp only [exRovers, List.mem_cons, List.not_mem_nil, or_false, Prod.mk.injEq] at hx
    rcases hx with ⟨-, hx⟩ | ⟨-, hx⟩ | ⟨-, hx⟩ | ⟨-, hx⟩ <;> cases hx), ?_, ?_, ?_⟩
  · obtain ⟨p, es, d1, h, h1, f1⟩ := links_some (md := .strict) (k := 1) (l := [4]) (evs := exRovers) (by decide +kernel)
    obtain ⟨p', es', d2, h', h2, f2⟩ := links_some (md := .strict) (k := 2) (l := [5]) (evs := exRovers) (by decide +kernel)
    rw [h] at h'
    cases h'
    exact ⟨p, es, d1, d2, h, h1, by rw [f1]; decide, h2, by rw [f2]; decide⟩
  · obtain ⟨p, es, d, h, -⟩ := links_some (md := .strict) (k := 1) (l := [4])
      (evs := only 1 exRovers ++ [(1, .on (.rtkRx 4 [0xD3, 0x03, 0xFB]))]) (by decide +kernel)
    exact ⟨p, es, h⟩
  · obtain ⟨p, es, d, h, -⟩ := links_some (md := .strict) (k := 2) (l := [5])
      (evs := only 2 exRovers ++ [(2, .on (.rtkRx 5 (List.replicate 1022 0)))]) (by decide +kernel)
    exact ⟨p, es, h⟩

theorem noGalileo_of {s : List Byte} (h : ¬ [0x02, 0x13] <:+: s) : NoGalileo s := by
  intro p _ hi
  refine h (.trans ?_ hi)
  exact ⟨[], _, rfl⟩

/-- Device 1 gets all pages, device 2 another message in between; all hypotheses of `c114_partial` are met and both have effects. -/
def exFine : List (Nat × PEv) :=
  [(1, make), (1, .on .ephCb), (2, make), (2, .on (.listen 3)), (2, .on (.subscribe 3 0x01 0x07)),
   (1, .on (.rx ([gal2, gal3, gal4, gal5].flatMap page))), (2, .on (.rx (ubxFrame 0x01 0x07 [1, 2, 3]))),
   (1, .on (.rx ([gal6, gal0, gal1].flatMap page)))]

example : Proper exFine ∧ (∀ j, j ≠ 1 → NoGalileo (heard j exFine)) ∧ (∀ j i b, (j, PEv.on (.rtkRx i b)) ∉ exFine) ∧
    reports .lenient 1 exFine = some 1 := by
  refine ⟨proper_of (by
    intro x hx
    simp only [exFine, List.mem_cons, List.not_mem_nil, or_false] at hx
    rcases hx with rfl | rfl | rfl | rfl | rfl | rfl | rfl | rfl <;> first | exact .inl rfl | exact .inr fun _ _ _ h => by cases h), fun j hj => ?_, (by
    intro j i b hx
    simp only [exFine, List.mem_cons, List.not_mem_nil, or_false, Prod.mk.injEq] at hx
    rcases hx with ⟨-, hx⟩ | ⟨-, hx⟩ | ⟨-, hx⟩ | ⟨-, hx⟩ | ⟨-, hx⟩ | ⟨-, hx⟩ | ⟨-, hx⟩ | ⟨-, hx⟩ <;> cases hx), by decide +kernel⟩
  by_cases h2 : j = 2
  · subst h2
    refine noGalileo_of ?_
    decide +kernel
  · have : heard j exFine = [] := by
      unfold heard
      rw [List.filter_eq_nil_iff.mpr (by simp [exFine]; omega)]
      rfl
    rw [this]
    exact noGalileo_of (by decide)

end Ublox.Proc
