import Verif.Model.RoleRace
import Verif.Props.Device

/-!
# C132: configuring the role while data are arriving

Safe, and never a message made up, in every schedule; and the first `config_base` behaves as documented.  But a device that
is reconfigured while a message is delivered sends it to a link it does not belong to (refuted).
-/

namespace Ublox
namespace Dev

open Nav (Nav Mode)
open Rtcm (RTail REvent rtStep)

/-! ## Specification -/

/-- The bytes sent by the receiver during a schedule. -/
def arrivals (as : List Act) : List Byte :=
  as.flatMap fun
    | .arrive bs => bs
    | _ => []

/-- The RTK interfaces named by configuration calls: in events, and in a schedule. -/
def namedEv (evs : List Ev) : List Nat :=
  evs.filterMap fun
    | .configBase i _ => some i
    | .configRover i => some i
    | _ => none

def namedAct (as : List Act) : List Nat :=
  as.filterMap fun
    | .callBase i _ => some i
    | .callRover i => some i
    | _ => none

/-- Only the serial thread works. -/
def SerialOnly (as : List Act) : Prop := ∀ a ∈ as, a = .rx ∨ ∃ bs, a = .arrive bs

/-- No further configuration call is made. -/
def NoCall (as : List Act) : Prop := namedAct as = []

/-! ## Lemmas -/

theorem race_cons {md : Mode} {s s' : Sys} {a : Act} {as : List Act} {es : List Eff} (h : race md s (a :: as) = .ok (s', es)) :
    ∃ s1 e1 e2, raceStep md s a = .ok (s1, e1) ∧ race md s1 as = .ok (s', e2) ∧ es = e1 ++ e2 := by
  unfold race at h
  obtain ⟨⟨s1, e1⟩, h1, h⟩ := bind_ok.1 h
  obtain ⟨⟨s2, e2⟩, h2, h⟩ := bind_ok.1 h
  cases h
  exact ⟨s1, e1, e2, h1, h2, rfl⟩

theorem race_append (md : Mode) (s : Sys) (a b : List Act) :
    race md s (a ++ b) = (do
      let (s1, e1) ← race md s a
      let (s2, e2) ← race md s1 b
      .ok (s2, e1 ++ e2)) := by
  induction a generalizing s with
  | nil =>
    simp only [List.nil_append, race, ok_bind]
    cases race md s b with
    | error e => rfl
    | ok x => rfl
  | cons x xs ih =>
    simp only [List.cons_append, race]
    cases raceStep md s x with
    | error e => rfl
    | ok y =>
      simp only [ok_bind, ih]
      cases race md y.1 xs with
      | error e => rfl
      | ok z =>
        simp only [ok_bind]
        cases race md z.1 b with
        | error e => rfl
        | ok w => simp only [ok_bind, List.append_assoc]

theorem race_append_ok {md : Mode} {s s' : Sys} {a b : List Act} {es : List Eff} (h : race md s (a ++ b) = .ok (s', es)) :
    ∃ s1 e1 e2, race md s a = .ok (s1, e1) ∧ race md s1 b = .ok (s', e2) ∧ es = e1 ++ e2 := by
  rw [race_append] at h
  obtain ⟨⟨s1, e1⟩, h1, h⟩ := bind_ok.1 h
  obtain ⟨⟨s2, e2⟩, h2, h⟩ := bind_ok.1 h
  cases h
  exact ⟨s1, e1, e2, h1, h2, rfl⟩

/-- The listeners of UBX messages change the navigation parser only. -/
theorem deliver_nav {md : Mode} {d d' : Dev} {ds : List Delivery} {es : List Eff} (h : deliver md d ds = .ok (d', es)) :
    ∃ n, d' = { d with nav := n } := by
  induction ds generalizing d es with
  | nil => cases h; exact ⟨_, rfl⟩
  | cons x xs ih =>
    unfold deliver at h
    obtain ⟨⟨d1, e1⟩, h1, h⟩ := bind_ok.1 h
    obtain ⟨⟨d2, e2⟩, h2, h⟩ := bind_ok.1 h
    cases h
    obtain ⟨n, rfl⟩ := ih h2
    have : ∃ n, d1 = { d with nav := n } := by
      unfold deliverOne at h1
      split at h1
      · split at h1
        · obtain ⟨⟨n, cs⟩, -, h1⟩ := bind_ok.1 h1
          cases h1
          exact ⟨n, rfl⟩
        · cases h1
      · cases h1; exact ⟨d.nav, rfl⟩
    obtain ⟨m, rfl⟩ := this
    exact ⟨n, rfl⟩

theorem rxUbx_parts {md : Mode} {d d' : Dev} {b : Byte} {es : List Eff} (h : rxUbx md d b = .ok (d', es)) :
    ∃ u r ds n, Ubx.readCb d.ubx b = .ok (u, r, ds) ∧ d' = { d with ubx := u, nav := n } ∧ es.filterMap Eff.rtk? = [] := by
  unfold rxUbx at h
  obtain ⟨⟨u, r, ds⟩, h1, h⟩ := bind_ok.1 h
  obtain ⟨n, rfl⟩ := deliver_nav h
  exact ⟨u, r, ds, n, h1, rfl, (deliver_frame h).2.2.1⟩

/-- What the serial thread does with a byte, up to the listener calls of the RTCM parser. -/
theorem parseByte_parts {md : Mode} {d d' : Dev} {b : Byte} {es : List Eff} {cs : List RtcmCall}
    (h : parseByte md d b = .ok (d', es, cs)) :
    d'.role = d.role ∧ d'.rtk = d.rtk ∧ es.filterMap Eff.rtk? = [] ∧
    ((d'.ubx = d.ubx ∧ (d.ubx.parsingMessage = false ∧ d.rtcm.parsingMessage = true ∧ d.role = .base)) ∨
      ((∃ r ds, Ubx.readCb d.ubx b = .ok (d'.ubx, r, ds)) ∧
        (d.ubx.parsingMessage = true ∨ ¬ (d.rtcm.parsingMessage = true ∧ d.role = .base)))) ∧
    ((d'.rtcm = d.rtcm ∧ cs = [] ∧ d.ubx.parsingMessage = true) ∨
      (Rtcm.readByte d.rtcm b = .ok (d'.rtcm, cs) ∧ d.ubx.parsingMessage = false)) := by
  unfold parseByte at h
  split at h
  · rename_i hu
    obtain ⟨⟨d1, e1⟩, h1, h⟩ := bind_ok.1 h
    cases h
    obtain ⟨u, r, ds, n, k, rfl, ke⟩ := rxUbx_parts h1
    exact ⟨rfl, rfl, ke, .inr ⟨⟨r, ds, k⟩, .inl hu⟩, .inl ⟨rfl, rfl, hu⟩⟩
  · rename_i hu
    have hu : d.ubx.parsingMessage = false := by simpa using hu
    split at h
    · rename_i hr
      have hr := Bool.and_eq_true_iff.mp hr
      obtain ⟨⟨r, cs'⟩, h1, h⟩ := bind_ok.1 h
      cases h
      exact ⟨rfl, rfl, rfl, .inl ⟨rfl, hu, hr.1, by simpa [beq_base] using hr.2⟩, .inr ⟨h1, hu⟩⟩
    · rename_i hr
      obtain ⟨⟨d1, e1⟩, h1, h⟩ := bind_ok.1 h
      obtain ⟨⟨r, cs'⟩, h2, h⟩ := bind_ok.1 h
      cases h
      obtain ⟨u, q, ds, n, k, rfl, ke⟩ := rxUbx_parts h1
      refine ⟨rfl, rfl, ke, .inr ⟨⟨q, ds, k⟩, .inr fun ⟨a, b⟩ => hr ?_⟩, .inr ⟨h2, hu⟩⟩
      rw [a, b]; rfl

/-! ## Every schedule: invariant -/

/-- The rest of the user's program never registers the forwarding listener before an interface is set. -/
def ProgOk : Bool → List Stmt → Prop
  | _, [] => True
  | _, .setRtk _ :: xs => ProgOk true xs
  | b, .register :: xs => b = true ∧ ProgOk b xs
  | b, .setRole _ :: xs => ProgOk b xs
  | b, .cmd _ :: xs => ProgOk b xs
  | b, .addCb _ :: xs => ProgOk b xs

theorem ProgOk.cmds (b : Bool) (cs : List Ubx.Command) (xs : List Stmt) (h : ProgOk b xs) : ProgOk b (cs.map .cmd ++ xs) := by
  induction cs with
  | nil => exact h
  | cons c cs ih => exact ih

theorem ProgOk.append (b : Bool) (xs ys : List Stmt) (h : ProgOk b xs) (hy : ∀ b, ProgOk b ys) : ProgOk b (xs ++ ys) := by
  induction xs generalizing b with
  | nil => exact hy b
  | cons x xs ih =>
    cases x with
    | setRtk i => exact ih true h
    | register => exact ⟨h.1, ih b h.2⟩
    | setRole r => exact ih b h
    | cmd c => exact ih b h
    | addCb i => exact ih b h

theorem baseStmts_ok (i : Nat) (st b : Bool) : ProgOk b (baseStmts i st) := by
  refine ⟨rfl, ?_⟩
  have := ProgOk.cmds true (baseCommands st) [] trivial
  rwa [List.append_nil] at this

theorem roverStmts_ok (i : Nat) (b : Bool) : ProgOk b (roverStmts i) :=
  ProgOk.cmds b roverCommands [.setRtk i, .addCb i] trivial

/-- What holds in every schedule. `names`: the interfaces named so far. -/
structure SI (names : List Nat) (s : Sys) : Prop where
  ubx : ∃ h, Ubx.Reach s.dev.ubx h
  rtcm : ∃ h, Rtcm.Reach s.dev.rtcm h
  listeners : s.dev.rtcm.listeners ≠ [] → s.dev.rtk.isSome = true
  pending : s.pend ≠ [] → s.dev.rtk.isSome = true
  intact : ∀ c ∈ s.pend, ∃ p, RtcmFrame p c.bytes ∧ 1 ≤ p.length ∧ p.length ≤ 1018
  prog : ProgOk s.dev.rtk.isSome s.prog
  here : ∀ i, s.dev.rtk = some i → i ∈ names
  later : ∀ i, Stmt.setRtk i ∈ s.prog → i ∈ names

theorem SI.mono {names more : List Nat} {s : Sys} (h : SI names s) : SI (names ++ more) s :=
  ⟨h.ubx, h.rtcm, h.listeners, h.pending, h.intact, h.prog, fun i hi => List.mem_append_left _ (h.here i hi),
    fun i hi => List.mem_append_left _ (h.later i hi)⟩

theorem configured_mem {evs : List Ev} {r : Role} {i : Nat} (h : configured evs = (r, some i)) : i ∈ namedEv evs := by
  induction evs using List.reverseRecOn generalizing r i with
  | nil => cases h
  | append_singleton evs e ih =>
    unfold namedEv
    rw [List.filterMap_append, List.mem_append]
    unfold configured at h
    rw [List.foldl_append] at h
    cases e with
    | configBase j st => right; cases h; exact List.mem_singleton.2 rfl
    | configRover j => right; cases h; exact List.mem_singleton.2 rfl
    | rx _ => exact .inl (ih h)
    | rtkRx _ _ => exact .inl (ih h)
    | listen _ => exact .inl (ih h)
    | subscribe _ _ _ => exact .inl (ih h)
    | ephCb => exact .inl (ih h)
    | gephCb => exact .inl (ih h)

theorem configured_none {evs : List Ev} {r : Role} (h : configured evs = (r, none)) : baseCalls evs = 0 := by
  induction evs using List.reverseRecOn generalizing r with
  | nil => rfl
  | append_singleton evs e ih =>
    unfold baseCalls
    rw [List.countP_append]
    unfold configured at h
    rw [List.foldl_append] at h
    cases e with
    | configBase j st => cases h
    | configRover j => cases h
    | rx _ => exact ih h
    | rtkRx _ _ => exact ih h
    | listen _ => exact ih h
    | subscribe _ _ _ => exact ih h
    | ephCb => exact ih h
    | gephCb => exact ih h

theorem SI.start {md : Mode} {d : Dev} {evs : List Ev} {es0 : List Eff} (h : Reach md d evs es0) :
    SI (namedEv evs) (Sys.rest d) := by
  have hi := h.inv
  refine ⟨hi.ubx, hi.rtcm, fun hl => ?_, fun h => absurd rfl h, fun c hc => (by cases hc), trivial, fun i hr => ?_,
    fun i hi => (by cases hi)⟩
  · cases hr : d.rtk with
    | some i => show d.rtk.isSome = true; rw [hr]; rfl
    | none =>
      exfalso
      apply hl
      show d.rtcm.listeners = []
      have := hi.role
      rw [hr] at this
      rw [hi.rlisteners, configured_none this.symm]; rfl
  · have := hi.role
    rw [show d.rtk = some i from hr] at this
    exact configured_mem this.symm

theorem exec_ok {names : List Nat} {s : Sys} {x : Stmt} {xs : List Stmt} (h : SI names s) (hp : s.prog = x :: xs) :
    ∃ d es, exec s.dev x = .ok (d, es) ∧ es.filterMap Eff.rtk? = [] ∧ SI names { s with dev := d, prog := xs } := by
  have hprog := h.prog
  rw [hp] at hprog
  have hlater : ∀ i, Stmt.setRtk i ∈ xs → i ∈ names := fun i hi => h.later i (by rw [hp]; exact List.mem_cons_of_mem _ hi)
  cases x with
  | setRole r => exact ⟨_, _, rfl, rfl, h.ubx, h.rtcm, h.listeners, h.pending, h.intact, hprog, h.here, hlater⟩
  | setRtk i =>
    refine ⟨_, _, rfl, rfl, h.ubx, h.rtcm, fun _ => rfl, fun _ => rfl, h.intact, hprog, fun j hj => ?_, hlater⟩
    cases hj
    exact h.later i (by rw [hp]; exact List.mem_cons_self ..)
  | register =>
    obtain ⟨hist, hR⟩ := h.rtcm
    exact ⟨_, _, rfl, rfl, h.ubx, ⟨hist, hR.register 0⟩, fun _ => hprog.1, h.pending, h.intact, hprog.2, h.here, hlater⟩
  | cmd c =>
    obtain ⟨hist, hU⟩ := h.ubx
    obtain ⟨o, g, w, ho, e, e2⟩ := command_ok [c] hU.inv.wf.outLen
    exact ⟨_, _, e2, rfl, ⟨hist, runCommands_reach hU e⟩, h.rtcm, h.listeners, h.pending, h.intact, hprog, h.here, hlater⟩
  | addCb i => exact ⟨_, _, rfl, rfl, h.ubx, h.rtcm, h.listeners, h.pending, h.intact, hprog, h.here, hlater⟩

theorem main_ok {names : List Nat} {s : Sys} (h : SI names s) :
    ∃ s' es, mainStep s = .ok (s', es) ∧ es.filterMap Eff.rtk? = [] ∧ SI names s' := by
  cases hp : s.prog with
  | nil => exact ⟨s, [], by unfold mainStep; rw [hp], rfl, h⟩
  | cons x xs =>
    obtain ⟨d, es, he, hk, hs⟩ := exec_ok h hp
    exact ⟨_, es, by unfold mainStep; rw [hp]; dsimp only; rw [he]; rfl, hk, hs⟩

theorem pend_ok {md : Mode} {names : List Nat} {s : Sys} {c : RtcmCall} {cs : List RtcmCall} (h : SI names s)
    (hp : s.pend = c :: cs) :
    ∃ s' es, rxStepRace md s = .ok (s', es) ∧ SI names s' ∧ s'.inbox = s.inbox ∧
      ∀ j f, (j, f) ∈ es.filterMap Eff.rtk? → f = c.bytes ∧ j ∈ names := by
  have hsub : ∀ x ∈ cs, ∃ p, RtcmFrame p x.bytes ∧ 1 ≤ p.length ∧ p.length ≤ 1018 := fun x hx =>
    h.intact x (by rw [hp]; exact List.mem_cons_of_mem _ hx)
  have hne : s.dev.rtk.isSome = true := h.pending (by rw [hp]; exact List.cons_ne_nil _ _)
  unfold rxStepRace
  rw [hp]
  dsimp only
  by_cases ht : s.tested = true
  · rw [if_pos ht]
    obtain ⟨i, hi⟩ := Option.isSome_iff_exists.1 hne
    rw [hi]
    refine ⟨_, _, rfl, ⟨h.ubx, h.rtcm, h.listeners, fun _ => hne, hsub, h.prog, h.here, h.later⟩, rfl, fun j f hj => ?_⟩
    simp only [List.filterMap_cons, Eff.rtk?, List.filterMap_nil, List.mem_singleton, Prod.mk.injEq] at hj
    exact ⟨hj.2, hj.1 ▸ h.here i hi⟩
  · rw [if_neg ht]
    by_cases hb : s.dev.role = .base
    · rw [if_pos hb]
      exact ⟨_, _, rfl, ⟨h.ubx, h.rtcm, h.listeners, fun _ => hne, fun x hx => h.intact x (by rw [hp]; exact hx), h.prog, h.here, h.later⟩, rfl,
        fun j f hj => (by cases hj)⟩
    · rw [if_neg hb]
      exact ⟨_, _, rfl, ⟨h.ubx, h.rtcm, h.listeners, fun _ => hne, hsub, h.prog, h.here, h.later⟩, rfl,
        fun j f hj => (by cases hj)⟩

theorem SI.parse {md : Mode} {names : List Nat} {s : Sys} {b : Byte} {bs : List Byte} {d' : Dev} {es : List Eff}
    {cs : List RtcmCall} (h : SI names s) (hb : parseByte md s.dev b = .ok (d', es, cs)) :
    SI names { s with dev := d', inbox := bs, pend := cs, tested := false } := by
  obtain ⟨k1, k2, k3, k4, k5⟩ := parseByte_parts hb
  have hubx : ∃ h, Ubx.Reach d'.ubx h := by
    obtain ⟨hist, hU⟩ := h.ubx
    rcases k4 with ⟨e, -⟩ | ⟨⟨r, ds, e⟩, -⟩
    · rw [e]; exact ⟨hist, hU⟩
    · exact ⟨_, hU.byte e⟩
  obtain ⟨hist, hR⟩ := h.rtcm
  rcases k5 with ⟨e, rfl, -⟩ | ⟨e, -⟩
  · exact ⟨hubx, ⟨hist, by show Rtcm.Reach d'.rtcm hist; rw [e]; exact hR⟩, by show d'.rtcm.listeners ≠ [] → d'.rtk.isSome = true; rw [e, k2]; exact h.listeners,
      fun hn => absurd rfl hn, fun c hc => (by cases hc), by show ProgOk d'.rtk.isSome s.prog; rw [k2]; exact h.prog,
      fun i hi => h.here i (by rw [← k2]; exact hi), h.later⟩
  · obtain ⟨t, ha, -⟩ := hR.inv.tail
    have hl : d'.rtcm.listeners = s.dev.rtcm.listeners := by
      rcases Rtcm.readByte_cases b hR.inv.len ha with ⟨_, _, _, he⟩ | ⟨r1, cs1, he, a1, s1, -⟩
      · rw [he] at e; cases e
      · rw [he] at e; cases e; exact s1.listeners
    refine ⟨hubx, ⟨_, hR.byte e⟩, by show d'.rtcm.listeners ≠ [] → d'.rtk.isSome = true; rw [hl, k2]; exact h.listeners, fun hn => ?_,
      fun c hc => ?_, by show ProgOk d'.rtk.isSome s.prog; rw [k2]; exact h.prog,
      fun i hi => h.here i (by rw [← k2]; exact hi), h.later⟩
    · show d'.rtk.isSome = true
      rw [k2]
      apply h.listeners
      obtain ⟨c, hc⟩ := List.exists_mem_of_ne_nil _ hn
      exact List.ne_nil_of_mem (Rtcm.c22_forwarded_was_received hR e c hc).1
    · obtain ⟨-, pre, p, -, hp⟩ := Rtcm.c22_forwarded_was_received hR e c hc
      exact ⟨p, hp⟩

theorem SI.step {md : Mode} {names : List Nat} {s s' : Sys} {a : Act} {es : List Eff} (h : SI names s)
    (hs : raceStep md s a = .ok (s', es)) :
    SI (names ++ namedAct [a]) s' ∧ ∀ j f, (j, f) ∈ es.filterMap Eff.rtk? → j ∈ names ∧
      ∃ p, RtcmFrame p f ∧ 1 ≤ p.length ∧ p.length ≤ 1018 := by
  cases a with
  | arrive bs =>
    cases hs
    refine ⟨?_, fun j f hj => (by cases hj)⟩
    exact SI.mono ⟨h.ubx, h.rtcm, h.listeners, h.pending, h.intact, h.prog, h.here, h.later⟩
  | callBase i st =>
    cases hs
    refine ⟨?_, fun j f hj => (by cases hj)⟩
    refine ⟨h.ubx, h.rtcm, h.listeners, h.pending, h.intact, h.prog.append _ _ _ (baseStmts_ok i st),
      fun j hj => List.mem_append_left _ (h.here j hj), fun j hj => ?_⟩
    rcases List.mem_append.1 hj with hj | hj
    · exact List.mem_append_left _ (h.later j hj)
    · apply List.mem_append_right
      simp only [baseStmts, List.mem_append, List.mem_cons, List.mem_map] at hj
      rcases hj with (hj | hj | hj | hj) | ⟨c, -, hj⟩
      all_goals first | cases hj; exact List.mem_singleton.2 rfl | cases hj
  | callRover i =>
    cases hs
    refine ⟨?_, fun j f hj => (by cases hj)⟩
    refine ⟨h.ubx, h.rtcm, h.listeners, h.pending, h.intact, h.prog.append _ _ _ (roverStmts_ok i),
      fun j hj => List.mem_append_left _ (h.here j hj), fun j hj => ?_⟩
    rcases List.mem_append.1 hj with hj | hj
    · exact List.mem_append_left _ (h.later j hj)
    · apply List.mem_append_right
      simp only [roverStmts, List.mem_append, List.mem_cons, List.mem_map] at hj
      rcases hj with ((hj | hj) | ⟨c, -, hj⟩) | (hj | hj | hj)
      all_goals first | cases hj; exact List.mem_singleton.2 rfl | cases hj
  | main =>
    obtain ⟨s1, e1, he, hk, hS⟩ := main_ok h
    rw [show raceStep md s .main = mainStep s from rfl, he] at hs
    cases hs
    exact ⟨hS.mono, fun j f hj => by rw [hk] at hj; cases hj⟩
  | rx =>
    change rxStepRace md s = _ at hs
    cases hp : s.pend with
    | cons c cs =>
      obtain ⟨s1, e1, he, hS, -, hj⟩ := pend_ok (md := md) h hp
      rw [he] at hs
      cases hs
      refine ⟨hS.mono, fun j f hm => ?_⟩
      obtain ⟨rfl, hn⟩ := hj j f hm
      exact ⟨hn, h.intact c (by rw [hp]; exact List.mem_cons_self ..)⟩
    | nil =>
      unfold rxStepRace at hs
      rw [hp] at hs
      dsimp only at hs
      cases hi : s.inbox with
      | nil => rw [hi] at hs; cases hs; exact ⟨h.mono, fun j f hj => (by cases hj)⟩
      | cons b bs =>
        rw [hi] at hs
        dsimp only at hs
        obtain ⟨⟨d', e1, cs⟩, hb, hs⟩ := bind_ok.1 hs
        cases hs
        exact ⟨(h.parse hb).mono, fun j f hj => by rw [(parseByte_parts hb).2.2.1] at hj; cases hj⟩

theorem namedAct_cons (a : Act) (as : List Act) : namedAct (a :: as) = namedAct [a] ++ namedAct as := by
  unfold namedAct
  rw [← List.filterMap_append]; rfl

theorem SI.run {md : Mode} {names : List Nat} {s s' : Sys} {as : List Act} {es : List Eff} (h : SI names s)
    (hs : race md s as = .ok (s', es)) :
    SI (names ++ namedAct as) s' ∧ ∀ j f, (j, f) ∈ es.filterMap Eff.rtk? → j ∈ names ++ namedAct as ∧
      ∃ p, RtcmFrame p f ∧ 1 ≤ p.length ∧ p.length ≤ 1018 := by
  induction as generalizing s names es with
  | nil => cases hs; exact ⟨h.mono, fun j f hj => (by cases hj)⟩
  | cons a as ih =>
    obtain ⟨s1, e1, e2, h1, h2, rfl⟩ := race_cons hs
    obtain ⟨i1, j1⟩ := h.step h1
    obtain ⟨i2, j2⟩ := ih i1 h2
    rw [List.append_assoc, ← namedAct_cons] at i2 j2
    refine ⟨i2, fun j f hj => ?_⟩
    rw [List.filterMap_append, List.mem_append] at hj
    rcases hj with hj | hj
    · exact ⟨List.mem_append_left _ (j1 j f hj).1, (j1 j f hj).2⟩
    · exact j2 j f hj

/-! ## Theorems for every schedule -/

/-- C132, safety. Whatever the schedule of a constructed device's two threads, with any number of configuration calls: no
statement of a configuration call and no step of forwarding a message is undefined; in particular `rtk_interface_` is
never used before it is set. -/
theorem c132_safe {md : Mode} {d : Dev} {evs : List Ev} {es0 es : List Eff} {as : List Act} {s : Sys}
    (h : Reach md d evs es0) (hs : race md (Sys.rest d) as = .ok (s, es)) :
    (∃ s' es', raceStep md s .main = .ok (s', es')) ∧
    (s.pend ≠ [] → ∃ s' es', raceStep md s .rx = .ok (s', es')) := by
  have hS := ((SI.start h).run hs).1
  refine ⟨?_, fun hp => ?_⟩
  · obtain ⟨s', es', he, -⟩ := main_ok hS
    exact ⟨s', es', he⟩
  · cases hp' : s.pend with
    | nil => exact absurd hp' hp
    | cons c cs =>
      obtain ⟨s', es', he, -⟩ := pend_ok (md := md) hS hp'
      exact ⟨s', es', he⟩

/-- C132, nothing made up. Whatever the schedule, everything written to an RTK interface is an RTCM3 frame with a correct
checksum, and the interface was named in a configuration call. -/
theorem c132_intact {md : Mode} {d : Dev} {evs : List Ev} {es0 es : List Eff} {as : List Act} {s : Sys}
    (h : Reach md d evs es0) (hs : race md (Sys.rest d) as = .ok (s, es)) (j : Nat) (f : List Byte)
    (hj : (j, f) ∈ es.filterMap Eff.rtk?) :
    j ∈ namedEv evs ++ namedAct as ∧ ∃ p, RtcmFrame p f ∧ 1 ≤ p.length ∧ p.length ≤ 1018 :=
  ((SI.start h).run hs).2 j f hj

/-- C132, one link. If every configuration call names the same interface, everything forwarded goes there. -/
theorem c132_one_link {md : Mode} {d : Dev} {evs : List Ev} {es0 es : List Eff} {as : List Act} {s : Sys} {i : Nat}
    (h : Reach md d evs es0) (h1 : ∀ j ∈ namedEv evs, j = i) (h2 : ∀ j ∈ namedAct as, j = i)
    (hs : race md (Sys.rest d) as = .ok (s, es)) (j : Nat) (f : List Byte) (hj : (j, f) ∈ es.filterMap Eff.rtk?) : j = i := by
  rcases List.mem_append.1 (c132_intact h hs j f hj).1 with hm | hm
  · exact h1 j hm
  · exact h2 j hm

/-! ## The first `config_base` -/

theorem arrivals_append (a b : List Act) : arrivals (a ++ b) = arrivals a ++ arrivals b := by
  unfold arrivals; rw [List.flatMap_append]

/-- Parser states described by the scanners. -/
structure PA (d : Dev) (t : Tail) (r : RTail) : Prop where
  wf : Ubx.WF d.ubx
  ubx : Ubx.Abs d.ubx t
  len : d.rtcm.inBuf.length = 1024
  rtcm : Rtcm.Abs d.rtcm r

open Classical in
/-- The calls made when a frame is completed. -/
noncomputable def callsOf (ls : List Nat) : Option REvent → List RtcmCall
  | some (.frame f) => if CrcValid f then ls.map fun l => ⟨l, f⟩ else []
  | _ => []

theorem stepOk_calls {r r' : Rtcm} {ev : Option REvent} {cs : List RtcmCall} (h : Rtcm.StepOk r r' ev cs) :
    cs = callsOf r.listeners ev := by
  unfold callsOf
  split
  · rename_i f
    rcases (h.frame f rfl).2 with ⟨hv, e⟩ | ⟨hv, e⟩
    · rw [if_pos hv]; exact e
    · rw [if_neg hv]; exact e
  · rename_i hn
    exact (h.none fun f hf => hn f hf).1

theorem PA.parse {md : Mode} {d d' : Dev} {t : Tail} {r : RTail} {b : Byte} {es : List Eff} {cs : List RtcmCall} (h : PA d t r)
    (hb : parseByte md d b = .ok (d', es, cs)) :
    PA d' (dStep (d.role == .base) t r b).1 (dStep (d.role == .base) t r b).2.1 ∧
    cs = callsOf d.rtcm.listeners (dStep (d.role == .base) t r b).2.2.2 ∧ d'.rtcm.listeners = d.rtcm.listeners := by
  obtain ⟨-, -, -, k4, k5⟩ := parseByte_parts hb
  have hR : ∀ {r' : Rtcm} {cs : List RtcmCall}, Rtcm.readByte d.rtcm b = .ok (r', cs) →
      Rtcm.Abs r' (rtStep r b).1 ∧ Rtcm.StepOk d.rtcm r' (rtStep r b).2 cs := by
    intro r' cs e
    rcases Rtcm.readByte_cases b h.len h.rtcm with ⟨_, _, _, he⟩ | ⟨r1, cs1, he, a1, s1, -⟩
    · rw [he] at e; cases e
    · rw [he] at e; cases e; exact ⟨a1, s1⟩
  have hrole : (d.role == .base) = true ↔ d.role = .base := by simp [beq_base]
  unfold dStep
  rw [← uOpen_iff h.ubx, ← rOpen_iff h.rtcm]
  rcases k5 with ⟨er, rfl, hu⟩ | ⟨er, hu⟩
  · rw [if_pos hu]
    rcases k4 with ⟨-, hu', -⟩ | ⟨⟨q, ds, eu⟩, -⟩
    · rw [hu] at hu'; cases hu'
    · obtain ⟨ua, us⟩ := Ubx.readCb_sim h.wf h.ubx eu
      exact ⟨⟨us.wf, ua, er ▸ h.len, er ▸ h.rtcm⟩, rfl, by rw [er]⟩
  · obtain ⟨ra, rs⟩ := hR er
    rw [hu]
    rcases k4 with ⟨eu, -, h1, h2⟩ | ⟨⟨q, ds, eu⟩, hc⟩
    · rw [if_neg (by simp), if_pos (by rw [h1, hrole.2 h2]; rfl)]
      exact ⟨⟨eu ▸ h.wf, eu ▸ h.ubx, rs.len, ra⟩, stepOk_calls rs, rs.listeners⟩
    · rw [if_neg (by simp), if_neg (fun hx => by
        have hx := Bool.and_eq_true_iff.mp hx
        rcases hc with hc | hc
        · rw [hu] at hc; cases hc
        · exact hc ⟨hx.1, hrole.1 hx.2⟩)]
      obtain ⟨ua, us⟩ := Ubx.readCb_sim h.wf h.ubx eu
      exact ⟨⟨us.wf, ua, rs.len, ra⟩, stepOk_calls rs, rs.listeners⟩

/-- The frames among what the mixed scanner completed. -/
noncomputable def framesOf (evs : List (Option Item × Option REvent)) : List (List Byte) := (msgs evs).filterMap Msg.rtcm?

theorem framesOf_append (a b : List (Option Item × Option REvent)) : framesOf (a ++ b) = framesOf a ++ framesOf b := by
  unfold framesOf; rw [msgs_append, List.filterMap_append]

theorem framesOf_one (it : Option Item) (ev : Option REvent) : framesOf [(it, ev)] = (callsOf [0] ev).map (·.bytes) := by
  unfold framesOf
  have h2 : (msgs [(it, ev)]).filterMap Msg.rtcm? = (msgs [(none, ev)]).filterMap Msg.rtcm? := by
    cases it with
    | none => rfl
    | some it => cases it <;> rfl
  rw [h2]
  cases ev with
  | none => rfl
  | some e =>
    cases e with
    | frame f =>
      by_cases hv : CrcValid f
      · simp [msgs, callsOf, hv, Msg.rtcm?]
      · simp [msgs, callsOf, hv]
    | _ => rfl

/-- A device in the base role that has read `C` since it was between messages, `p` being the last byte before. -/
structure Reading (p : Byte) (C : List Byte) (s : Sys) : Prop where
  role : s.dev.role = .base
  abs : PA s.dev (dRun true (.idle p) .idle C).1 (dRun true (.idle p) .idle C).2.1

/-- Before the listener is registered. -/
theorem quiet_run {md : Mode} {p : Byte} {as : List Act} (hq : SerialOnly as) : ∀ {s s' : Sys} {C : List Byte} {es : List Eff},
    Reading p C s → s.pend = [] → s.dev.rtcm.listeners = [] → race md s as = .ok (s', es) →
    ∃ B, s.inbox ++ arrivals as = B ++ s'.inbox ∧ Reading p (C ++ B) s' ∧ s'.pend = [] ∧ s'.dev.rtcm.listeners = [] ∧
      s'.prog = s.prog ∧ s'.dev.rtk = s.dev.rtk ∧ es.filterMap Eff.rtk? = [] := by
  induction as with
  | nil =>
    intro s s' C es hr hp hl h
    cases h
    exact ⟨[], by simp [arrivals], by rw [List.append_nil]; exact hr, hp, hl, rfl, rfl, rfl⟩
  | cons a as ih =>
    intro s s' C es hr hp hl h
    obtain ⟨s1, e1, e2, h1, h2, rfl⟩ := race_cons h
    have hq' : SerialOnly as := fun x hx => hq x (List.mem_cons_of_mem _ hx)
    rcases hq a (List.mem_cons_self ..) with rfl | ⟨bs, rfl⟩
    · change rxStepRace md s = _ at h1
      unfold rxStepRace at h1
      rw [hp] at h1
      dsimp only at h1
      cases hi : s.inbox with
      | nil =>
        rw [hi] at h1
        cases h1
        obtain ⟨B, b1, b2, b3, b4, b5, b6, b7⟩ := ih hq' hr hp hl h2
        rw [hi] at b1
        exact ⟨B, b1, b2, b3, b4, b5, b6, b7⟩
      | cons b bs =>
        rw [hi] at h1
        dsimp only at h1
        obtain ⟨⟨d', e, cs⟩, hb, h1⟩ := bind_ok.1 h1
        cases h1
        obtain ⟨k1, k2, k3, -, -⟩ := parseByte_parts hb
        obtain ⟨a1, a2, a3⟩ := hr.abs.parse hb
        rw [hr.role] at a1 a2
        have hcs : cs = [] := by
          rw [a2, hl]
          unfold callsOf
          split
          · split <;> rfl
          · rfl
        have hr' : Reading p (C ++ [b]) ⟨d', bs, cs, false, s.prog⟩ := by
          refine ⟨k1.trans hr.role, ?_⟩
          rw [dRun_append]
          exact a1
        obtain ⟨B, b1, b2, b3, b4, b5, b6, b7⟩ := ih hq' hr' hcs (a3.trans hl) h2
        refine ⟨b :: B, ?_, ?_, b3, b4, b5, b6.trans k2, ?_⟩
        · show (b :: bs) ++ arrivals as = _
          rw [List.cons_append, b1]; rfl
        · rw [List.append_assoc] at b2; exact b2
        · rw [List.filterMap_append, k3, b7]; rfl
    · cases h1
      have hr' : Reading p C { s with inbox := s.inbox ++ bs } := ⟨hr.role, hr.abs⟩
      obtain ⟨B, b1, b2, b3, b4, b5, b6, b7⟩ := ih hq' hr' hp hl h2
      refine ⟨B, ?_, b2, b3, b4, b5, b6, b7⟩
      rw [← b1, show arrivals (.arrive bs :: as) = bs ++ arrivals as from rfl, List.append_assoc]

/-- After the listener is registered: the device and what it owes to the link. -/
theorem busy_run {md : Mode} {p : Byte} {i : Nat} {as : List Act} (hq : NoCall as) :
    ∀ {s s' : Sys} {C : List Byte} {es : List Eff}, Reading p C s → s.dev.rtcm.listeners = [0] → s.dev.rtk = some i →
    s.dev.ubx.outMsg.length = 2048 → (∀ x ∈ s.prog, ∃ c, x = .cmd c) → race md s as = .ok (s', es) →
    ∃ B F, s.inbox ++ arrivals as = B ++ s'.inbox ∧
      framesOf (dRun true (.idle p) .idle (C ++ B)).2.2 = framesOf (dRun true (.idle p) .idle C).2.2 ++ F ∧
      es.filterMap Eff.rtk? ++ s'.pend.map (fun c => (i, c.bytes)) = (s.pend.map fun c => (i, c.bytes)) ++ F.map fun f => (i, f) := by
  induction as with
  | nil =>
    intro s s' C es hr hl hk ho hp h
    cases h
    exact ⟨[], [], by simp [arrivals], by simp, by simp⟩
  | cons a as ih =>
    intro s s' C es hr hl hk ho hp h
    obtain ⟨s1, e1, e2, h1, h2, rfl⟩ := race_cons h
    have hq0 := hq
    unfold NoCall at hq0
    rw [namedAct_cons, List.append_eq_nil_iff] at hq0
    have hq' : NoCall as := hq0.2
    cases a with
    | callBase j st => exact absurd hq0.1 (List.cons_ne_nil _ _)
    | callRover j => exact absurd hq0.1 (List.cons_ne_nil _ _)
    | arrive bs =>
      cases h1
      have hr' : Reading p C { s with inbox := s.inbox ++ bs } := ⟨hr.role, hr.abs⟩
      obtain ⟨B, F, b1, b2, b3⟩ := ih hq' hr' hl hk ho hp h2
      refine ⟨B, F, ?_, b2, b3⟩
      rw [← b1, show arrivals (.arrive bs :: as) = bs ++ arrivals as from rfl, List.append_assoc]
    | main =>
      change mainStep s = _ at h1
      unfold mainStep at h1
      cases hx : s.prog with
      | nil =>
        rw [hx] at h1
        cases h1
        exact ih hq' hr hl hk ho hp h2
      | cons x xs =>
        rw [hx] at h1
        obtain ⟨c, rfl⟩ := hp x (by rw [hx]; exact List.mem_cons_self ..)
        dsimp only at h1
        obtain ⟨o, g, w, ho', e, e2⟩ := command_ok [c] ho
        rw [show exec s.dev (.cmd c) = command s.dev [c] from rfl, e2] at h1
        cases h1
        have hr' : Reading p C { s with dev := { s.dev with ubx := { s.dev.ubx with outMsg := o, gotVer := g } }, prog := xs } :=
          ⟨hr.role, ⟨⟨hr.abs.wf.inLen, ho', hr.abs.wf.modLen⟩, hr.abs.ubx, hr.abs.len, hr.abs.rtcm⟩⟩
        have := ih hq' hr' hl hk ho' (fun y hy => hp y (by rw [hx]; exact List.mem_cons_of_mem _ hy)) h2
        exact this
    | rx =>
      change rxStepRace md s = _ at h1
      unfold rxStepRace at h1
      cases hpd : s.pend with
      | cons c cs =>
        rw [hpd] at h1
        dsimp only at h1
        split at h1
        · rw [hk] at h1
          cases h1
          have hr' : Reading p C { s with pend := cs, tested := false } := ⟨hr.role, hr.abs⟩
          obtain ⟨B, F, b1, b2, b3⟩ := ih hq' hr' hl hk ho hp h2
          refine ⟨B, F, b1, b2, ?_⟩
          rw [List.filterMap_append, List.append_assoc, b3]
          rfl
        · rw [if_pos hr.role] at h1
          cases h1
          have hr' : Reading p C { s with tested := true } := ⟨hr.role, hr.abs⟩
          have := ih hq' (s := { s with tested := true }) hr' hl hk ho hp (by rw [← hpd] at h2; exact h2)
          rw [← hpd]
          exact this
      | nil =>
        rw [hpd] at h1
        dsimp only at h1
        cases hi : s.inbox with
        | nil =>
          rw [hi] at h1
          cases h1
          obtain ⟨B, F, b1, b2, b3⟩ := ih hq' hr hl hk ho hp h2
          rw [hi] at b1
          rw [hpd] at b3
          exact ⟨B, F, b1, b2, b3⟩
        | cons b bs =>
          rw [hi] at h1
          dsimp only at h1
          obtain ⟨⟨d', e, cs⟩, hb, h1⟩ := bind_ok.1 h1
          cases h1
          obtain ⟨k1, k2, k3, k4, -⟩ := parseByte_parts hb
          obtain ⟨a1, a2, a3⟩ := hr.abs.parse hb
          rw [hr.role] at a1 a2
          have hr' : Reading p (C ++ [b]) ⟨d', bs, cs, false, s.prog⟩ := by
            refine ⟨k1.trans hr.role, ?_⟩
            rw [dRun_append]
            exact a1
          have hof : d'.ubx.outMsg.length = 2048 := a1.wf.outLen
          obtain ⟨B, F, b1, b2, b3⟩ := ih hq' hr' (a3.trans hl) (k2.trans hk) hof hp h2
          have hfr : framesOf (dRun true (.idle p) .idle (C ++ [b])).2.2 =
              framesOf (dRun true (.idle p) .idle C).2.2 ++ cs.map (·.bytes) := by
            rw [dRun_append, framesOf_append]
            have : cs = callsOf [0] (dStep true (dRun true (.idle p) .idle C).1 (dRun true (.idle p) .idle C).2.1 b).2.2.2 := by
              rw [← hl]; exact a2
            rw [this, ← framesOf_one (dStep true (dRun true (.idle p) .idle C).1 (dRun true (.idle p) .idle C).2.1 b).2.2.1]
            rfl
          refine ⟨b :: B, cs.map (·.bytes) ++ F, ?_, ?_, ?_⟩
          · show (b :: bs) ++ arrivals as = _
            rw [List.cons_append, b1]; rfl
          · rw [hfr, List.append_assoc, List.append_assoc] at b2; exact b2
          · rw [List.filterMap_append, k3, List.nil_append, b3, List.map_append, List.map_map]
            rfl

/-- C132, the first `config_base`. A constructed device that has not been configured and is between messages is configured as
a base on link `i` while data keep arriving: the call begins, then its first three statements (role, interface,
registration) and its remaining ones are executed, interleaved in any way with the work of the serial thread.  Then nothing is
written to a link before the registration, and after it exactly the good RTCM messages of the stream that are completed
later, each once, in order and to `i` - apart from those whose delivery is still under way (`pend`).
`A` is what has been read up to the registration, `B` what has been read after it. -/
theorem c132_first_base_partial {md : Mode} {d : Dev} {evs : List Ev} {es0 e1 e2 : List Eff} {i : Nat} {st : Bool}
    {x1 x2 after : List Act} {s1 s2 : Sys} (h : Reach md d evs es0) (hc : configured evs = (.none, none))
    (hu : d.ubx.parsingMessage = false) (hr : d.rtcm.parsingMessage = false)
    (hx1 : SerialOnly x1) (hx2 : SerialOnly x2) (ha : NoCall after)
    (h1 : race md (Sys.rest d) ([.callBase i st, .main] ++ x1 ++ [.main] ++ x2 ++ [.main]) = .ok (s1, e1))
    (h2 : race md s1 after = .ok (s2, e2)) :
    e1.filterMap Eff.rtk? = [] ∧
    ∃ A B F, arrivals (x1 ++ x2) = A ++ s1.inbox ∧ arrivals (x1 ++ x2 ++ after) = A ++ B ++ s2.inbox ∧
      (demux d.ubx.prev (A ++ B)).1.filterMap Msg.rtcm? = (demux d.ubx.prev A).1.filterMap Msg.rtcm? ++ F ∧
      e2.filterMap Eff.rtk? ++ s2.pend.map (fun c => (i, c.bytes)) = F.map fun f => (i, f) := by
  have hi := h.inv
  have hid := h.idle hu hr
  obtain ⟨q4, f4, f5, g1, k5, rfl⟩ := race_append_ok h1
  obtain ⟨q3, f3, f6, g2, k4, rfl⟩ := race_append_ok g1
  obtain ⟨q2, f2, f7, g3, k3, rfl⟩ := race_append_ok g2
  obtain ⟨q1, f1, f8, g4, k2, rfl⟩ := race_append_ok g3
  clear h1 g1 g2 g3
  cases g4
  have hR0 : Reading d.ubx.prev [] ⟨{ d with role := .base }, [], [], false, (baseStmts i st).tail⟩ :=
    ⟨rfl, ⟨hid.wired.wf, hid.ubx, hid.wired.rlen, hid.rtcm⟩⟩
  have hl0 : d.rtcm.listeners = [] := by rw [hi.rlisteners, configured_none hc]; rfl
  obtain ⟨B1, b1, b2, b3, b4, b5, b6, b7⟩ := quiet_run hx1 hR0 rfl hl0 k2
  have m3 : race md q2 [.main] = .ok (⟨{ q2.dev with rtk := some i }, q2.inbox, q2.pend, q2.tested, (baseStmts i st).tail.tail⟩, []) := by
    obtain ⟨p1, p2, p3, p4, p5⟩ := q2
    change p5 = _ at b5
    subst b5
    rfl
  rw [m3] at k3
  cases k3
  have hR1 : Reading d.ubx.prev ([] ++ B1) ⟨{ q2.dev with rtk := some i }, q2.inbox, q2.pend, q2.tested, (baseStmts i st).tail.tail⟩ :=
    ⟨b2.role, ⟨b2.abs.wf, b2.abs.ubx, b2.abs.len, b2.abs.rtcm⟩⟩
  obtain ⟨B2, c1, c2, c3, c4, c5, c6, c7⟩ := quiet_run hx2 hR1 b3 b4 k4
  have m5 : race md q4 [.main] = .ok (⟨{ q4.dev with rtcm := q4.dev.rtcm.registerListener 0 }, q4.inbox, q4.pend, q4.tested,
      (baseStmts i st).tail.tail.tail⟩, []) := by
    obtain ⟨p1, p2, p3, p4, p5⟩ := q4
    change p5 = _ at c5
    subst c5
    rfl
  rw [m5] at k5
  cases k5
  have hR2 : Reading d.ubx.prev ([] ++ B1 ++ B2) ⟨{ q4.dev with rtcm := q4.dev.rtcm.registerListener 0 }, q4.inbox, q4.pend, q4.tested,
      (baseStmts i st).tail.tail.tail⟩ := ⟨c2.role, ⟨c2.abs.wf, c2.abs.ubx, c2.abs.len, c2.abs.rtcm⟩⟩
  have hls : (q4.dev.rtcm.registerListener 0).listeners = [0] := by
    show q4.dev.rtcm.listeners ++ [0] = [0]
    rw [c4]; rfl
  have hcm : ∀ x ∈ (baseStmts i st).tail.tail.tail, ∃ c, x = Stmt.cmd c := by
    intro x hx
    obtain ⟨c, -, e⟩ := List.mem_map.1 (show x ∈ (baseCommands st).map Stmt.cmd from hx)
    exact ⟨c, e.symm⟩
  obtain ⟨B3, F, d1, d2, d3⟩ := busy_run ha hR2 hls c6 c2.abs.wf.outLen hcm h2
  rw [List.nil_append] at d2
  refine ⟨?_, B1 ++ B2, B3, F, ?_, ?_, ?_, ?_⟩
  · simp only [List.filterMap_append, b7, c7]; rfl
  · rw [arrivals_append, List.append_assoc]
    have b1 : arrivals x1 = B1 ++ q2.inbox := b1
    rw [b1, List.append_assoc, c1]
  · rw [arrivals_append, arrivals_append]
    have b1 : arrivals x1 = B1 ++ q2.inbox := b1
    have c1 : q2.inbox ++ arrivals x2 = B2 ++ q4.inbox := c1
    have d1 : q4.inbox ++ arrivals after = B3 ++ s2.inbox := d1
    rw [b1, List.append_assoc B1, c1, List.append_assoc, List.append_assoc B2, d1]
    simp only [List.append_assoc]
  · unfold framesOf at d2
    rw [(demux_eq d.ubx.prev _).2.2, (demux_eq d.ubx.prev _).2.2] at d2
    exact d2
  · rw [d3]
    have : q4.pend = [] := c3
    show q4.pend.map _ ++ _ = _
    rw [this]; rfl

/-! ## Uninterrupted calls are those of `Model/Device.lean` -/

theorem rxByte_split (md : Mode) (d : Dev) (b : Byte) :
    rxByte md d b = (do
      let (d', e, cs) ← parseByte md d b
      let es ← gotRtcms d' cs
      .ok (d', e ++ es)) := by
  unfold rxByte parseByte
  split
  · cases rxUbx md d b with
    | error e => rfl
    | ok x => simp [ok_bind, gotRtcms]
  · split
    · unfold rxRtcm
      cases Rtcm.readByte d.rtcm b with
      | error e => rfl
      | ok x => simp [ok_bind]
    · cases rxUbx md d b with
      | error e => rfl
      | ok x =>
        simp only [ok_bind]
        unfold rxRtcm
        cases Rtcm.readByte x.1.rtcm b with
        | error e => rfl
        | ok y =>
          simp only [ok_bind]
          cases gotRtcms { x.1 with rtcm := y.1 } y.2 with
          | error e => rfl
          | ok z => rfl

theorem race_rx_more {md : Mode} (s : Sys) (n : Nat) :
    race md s (List.replicate (n + 1) .rx) = (do
      let (s1, e1) ← rxStepRace md s
      let (s2, e2) ← race md s1 (List.replicate n .rx)
      .ok (s2, e1 ++ e2)) := rfl

theorem race_pend (md : Mode) (cs : List RtcmCall) : ∀ (s : Sys), s.pend = cs → s.tested = false →
    ∃ n, race md s (List.replicate n .rx) =
      (gotRtcms s.dev cs).map fun es => ({ s with pend := [], tested := false }, es) := by
  induction cs with
  | nil =>
    intro s hp ht
    refine ⟨0, ?_⟩
    obtain ⟨a, b, c, d, e⟩ := s
    cases hp; cases ht
    rfl
  | cons c cs ih =>
    intro s hp ht
    obtain ⟨n, hn⟩ := ih { s with pend := cs } rfl ht
    by_cases hb : s.dev.role = .base
    · refine ⟨n + 2, ?_⟩
      obtain ⟨d, b, c', t, e⟩ := s
      cases hp; cases ht
      have s1 : rxStepRace md ⟨d, b, c :: cs, false, e⟩ = .ok (⟨d, b, c :: cs, true, e⟩, []) := by
        unfold rxStepRace; dsimp only; rw [if_neg (by simp), if_pos hb]
      rw [race_rx_more, s1]
      simp only [ok_bind]
      rw [race_rx_more]
      unfold gotRtcms gotRtcm
      rw [if_pos hb]
      cases hr : d.rtk with
      | none =>
        have s2 : rxStepRace md ⟨d, b, c :: cs, true, e⟩ = .error .nullDeref := by
          unfold rxStepRace; dsimp only; rw [if_pos rfl, hr]
        rw [s2]; rfl
      | some i =>
        have s2 : rxStepRace md ⟨d, b, c :: cs, true, e⟩ = .ok (⟨d, b, cs, false, e⟩, [.toRtk i c.bytes]) := by
          unfold rxStepRace; dsimp only; rw [if_pos rfl, hr]
        rw [s2]
        simp only [ok_bind]
        rw [hn]
        dsimp only
        cases gotRtcms d cs with
        | error e => rfl
        | ok es => rfl
    · refine ⟨n + 1, ?_⟩
      obtain ⟨d, b, c', t, e⟩ := s
      cases hp; cases ht
      have s1 : rxStepRace md ⟨d, b, c :: cs, false, e⟩ = .ok (⟨d, b, cs, false, e⟩, []) := by
        unfold rxStepRace; dsimp only; rw [if_neg (by simp), if_neg hb]
      rw [race_rx_more, s1]
      simp only [ok_bind]
      rw [hn]
      have hg : gotRtcms d (c :: cs) = (do let e2 ← gotRtcms d cs; .ok ([] ++ e2)) := by
        conv_lhs => unfold gotRtcms gotRtcm
        rw [if_neg hb]; rfl
      rw [hg]
      dsimp only
      cases gotRtcms d cs with
      | error e => rfl
      | ok es => rfl

/-- C132, the model is that of `Model/Device.lean`: if the serial thread is not interrupted, reading a byte is what it is
there, for every device, including undefined behaviour. -/
theorem c132_uninterrupted_rx (md : Mode) (d : Dev) (b : Byte) (bs : List Byte) (prog : List Stmt) :
    ∃ n, race md ⟨d, b :: bs, [], false, prog⟩ (List.replicate n .rx) =
      (rxByte md d b).map fun x => (⟨x.1, bs, [], false, prog⟩, x.2) := by
  rw [rxByte_split]
  cases hp : parseByte md d b with
  | error e => 
    refine ⟨1, ?_⟩
    rw [race_rx_more]
    have : rxStepRace md ⟨d, b :: bs, [], false, prog⟩ = .error e := by
      unfold rxStepRace; dsimp only; rw [hp]; rfl
    rw [this]; rfl
  | ok x =>
    obtain ⟨d', e, cs⟩ := x
    obtain ⟨n, hn⟩ := race_pend md cs ⟨d', bs, cs, false, prog⟩ rfl rfl
    refine ⟨n + 1, ?_⟩
    rw [race_rx_more]
    have : rxStepRace md ⟨d, b :: bs, [], false, prog⟩ = .ok (⟨d', bs, cs, false, prog⟩, e) := by
      unfold rxStepRace; dsimp only; rw [hp]; rfl
    rw [this]
    simp only [ok_bind]
    rw [hn]
    dsimp only
    cases gotRtcms d' cs with
    | error e => rfl
    | ok es => rfl

theorem race_main_more {md : Mode} (s : Sys) (n : Nat) :
    race md s (List.replicate (n + 1) .main) = (do
      let (s1, e1) ← mainStep s
      let (s2, e2) ← race md s1 (List.replicate n .main)
      .ok (s2, e1 ++ e2)) := rfl

/-- The commands of a configuration call, executed one by one. -/
theorem race_cmds {md : Mode} (cs : List Ubx.Command) : ∀ (d : Dev) (inbox : List Byte) (pend : List RtcmCall) (t : Bool)
    (rest : List Stmt), d.ubx.outMsg.length = 2048 →
    ∃ d' es w, race md ⟨d, inbox, pend, t, cs.map .cmd ++ rest⟩ (List.replicate cs.length .main) = .ok (⟨d', inbox, pend, t, rest⟩, es) ∧
      command d cs = .ok (d', [.toReceiver w]) ∧ (es.filterMap Eff.receiver?).flatten = w := by
  induction cs with
  | nil => intro d inbox pend t rest _; exact ⟨d, [], [], rfl, rfl, rfl⟩
  | cons c cs ih =>
    intro d inbox pend t rest ho
    obtain ⟨o, g, w, ho', e1, e2⟩ := command_ok [c] ho
    obtain ⟨d', es, w', k1, k2, k3⟩ := ih { d with ubx := { d.ubx with outMsg := o, gotVer := g } } inbox pend t rest ho'
    refine ⟨d', .toReceiver w :: es, w ++ w', ?_, ?_, ?_⟩
    · rw [List.length_cons, race_main_more]
      have : mainStep ⟨d, inbox, pend, t, (c :: cs).map .cmd ++ rest⟩ =
          .ok (⟨{ d with ubx := { d.ubx with outMsg := o, gotVer := g } }, inbox, pend, t, cs.map .cmd ++ rest⟩, [.toReceiver w]) := by
        unfold mainStep
        rw [List.map_cons, List.cons_append]
        dsimp only
        rw [show exec d (.cmd c) = command d [c] from rfl, e2]; rfl
      rw [this]
      simp only [ok_bind]
      rw [k1]; rfl
    · unfold command at k2 ⊢
      obtain ⟨⟨u2, w2⟩, j1, j2⟩ := bind_ok.1 k2
      dsimp only at j1
      cases j2
      have h1 : c.run d.ubx = .ok ({ d.ubx with outMsg := o, gotVer := g }, w) := by
        unfold Ubx.runCommands at e1
        unfold Ubx.andThen at e1
        obtain ⟨⟨u1, w1⟩, l1, l2⟩ := bind_ok.1 e1
        obtain ⟨⟨u3, w3⟩, l3, l4⟩ := bind_ok.1 l2
        cases l3
        obtain ⟨l5, l6⟩ := Prod.mk.inj (Except.ok.inj l4)
        rw [l1]
        dsimp only at l5 l6
        rw [List.append_nil] at l6
        rw [l5, l6]
      rw [Ubx.runCommands, Ubx.andThen_ok h1 j1]
      rfl
    · rw [List.filterMap_cons]
      show (w :: es.filterMap Eff.receiver?).flatten = _
      rw [List.flatten_cons, k3]

/-- C132, the model is that of `Model/Device.lean`: a configuration call that is not interrupted does what it does there and
sends the same bytes. -/
theorem c132_uninterrupted_calls {md : Mode} {d : Dev} {evs : List Ev} {es0 es : List Eff} {as : List Act} {s : Sys}
    (h : Reach md d evs es0) (hs : race md (Sys.rest d) as = .ok (s, es)) (hp : s.prog = []) (i : Nat) (st : Bool) :
    (∃ n d' es' w, race md s (.callBase i st :: List.replicate n .main) = .ok ({ s with dev := d' }, es') ∧
      configBase s.dev i st = .ok (d', [.toReceiver w]) ∧ (es'.filterMap Eff.receiver?).flatten = w) ∧
    (∃ n d' es' w, race md s (.callRover i :: List.replicate n .main) = .ok ({ s with dev := d' }, es') ∧
      configRover s.dev i = .ok (d', [.toReceiver w]) ∧ (es'.filterMap Eff.receiver?).flatten = w) := by
  obtain ⟨hist, hU⟩ := ((SI.start h).run hs).1.ubx
  have ho := hU.inv.wf.outLen
  obtain ⟨d, inbox, pend, t, prog⟩ := s
  cases hp
  dsimp only at ho
  refine ⟨?_, ?_⟩
  · obtain ⟨d', es', w, k1, k2, k3⟩ := race_cmds (md := md) (baseCommands st)
      { d with role := .base, rtk := some i, rtcm := d.rtcm.registerListener 0 } inbox pend t [] ho
    refine ⟨3 + (baseCommands st).length, d', es', w, ?_, k2, k3⟩
    rw [List.append_nil] at k1
    rw [List.replicate_add]
    have : race md ⟨d, inbox, pend, t, []⟩ (.callBase i st :: List.replicate 3 .main) =
        .ok (⟨{ d with role := .base, rtk := some i, rtcm := d.rtcm.registerListener 0 }, inbox, pend, t, (baseCommands st).map .cmd⟩, []) := rfl
    rw [← List.cons_append, race_append, this]
    simp only [ok_bind]
    rw [k1]; rfl
  · obtain ⟨d', es', w, k1, k2, k3⟩ := race_cmds (md := md) roverCommands { d with role := .rover } inbox pend t
      [.setRtk i, .addCb i] ho
    refine ⟨1 + (roverCommands.length + 2), { d' with rtk := some i, fwd := if i ∈ d'.fwd then d'.fwd else i :: d'.fwd }, es', w, ?_, ?_, k3⟩
    · rw [List.replicate_add, ← List.cons_append, race_append]
      have : race md ⟨d, inbox, pend, t, []⟩ (.callRover i :: List.replicate 1 .main) =
        .ok (⟨{ d with role := .rover }, inbox, pend, t, roverCommands.map .cmd ++ [.setRtk i, .addCb i]⟩, []) := rfl
      rw [this]
      simp only [ok_bind]
      rw [List.replicate_add, race_append, k1]
      simp only [ok_bind]
      have : race md ⟨d', inbox, pend, t, [.setRtk i, .addCb i]⟩ (List.replicate 2 .main) =
        .ok (⟨{ d' with rtk := some i, fwd := if i ∈ d'.fwd then d'.fwd else i :: d'.fwd }, inbox, pend, t, []⟩, []) := rfl
      rw [this]
      simp only [ok_bind, List.append_nil, List.nil_append]
    · unfold configRover
      rw [k2]
      rfl

/-- C132, what is under way is delivered: in any reached state the messages whose delivery has begun are done with after
finitely many steps of the serial thread, without reading further bytes. -/
theorem c132_progress {md : Mode} {d : Dev} {evs : List Ev} {es0 es : List Eff} {as : List Act} {s : Sys}
    (h : Reach md d evs es0) (hs : race md (Sys.rest d) as = .ok (s, es)) :
    ∃ n s' es', race md s (List.replicate n .rx) = .ok (s', es') ∧ s'.pend = [] ∧ s'.inbox = s.inbox := by
  have hS := ((SI.start h).run hs).1
  generalize namedEv evs ++ namedAct as = names at hS
  clear hs h
  have key : ∀ (m : Nat) (s : Sys), SI names s → 2 * s.pend.length - (if s.tested then 1 else 0) ≤ m →
      ∃ n s' es', race md s (List.replicate n .rx) = .ok (s', es') ∧ s'.pend = [] ∧ s'.inbox = s.inbox := by
    intro m
    induction m with
    | zero =>
      intro s hS hm
      refine ⟨0, s, [], rfl, ?_, rfl⟩
      apply List.length_eq_zero_iff.1
      split at hm <;> omega
    | succ m ih =>
      intro s hS hm
      cases hp : s.pend with
      | nil => exact ⟨0, s, [], rfl, hp, rfl⟩
      | cons c cs =>
        obtain ⟨s1, e1, he, hS1, hib, -⟩ := pend_ok (md := md) hS hp
        have hle : 2 * s1.pend.length - (if s1.tested then 1 else 0) ≤ m := by
          rw [hp, List.length_cons] at hm
          unfold rxStepRace at he
          rw [hp] at he
          dsimp only at he
          split at he
          · rename_i ht
            rw [if_pos ht] at hm
            split at he
            · cases he; dsimp only; rw [if_neg (by simp)]; omega
            · cases he
          · rename_i ht
            rw [if_neg ht] at hm
            split at he
            · cases he; dsimp only; rw [if_pos rfl, List.length_cons]; omega
            · cases he; dsimp only; rw [if_neg ht]; omega
        obtain ⟨n, s2, e2, k1, k2, k3⟩ := ih s1 hS1 hle
        refine ⟨n + 1, s2, e1 ++ e2, ?_, k2, k3.trans hib⟩
        rw [race_rx_more, he]
        simp only [ok_bind]
        rw [k1]; rfl
  exact key _ s hS (le_refl _)

/-! ## Refutation: a device that is reconfigured -/

/-- Schedules on the example device. -/
def exRace (evs : List Ev) (as : List Act) : Option (Role × Option Nat × List (Nat × List Byte)) :=
  (exRun evs).bind fun x =>
    match race .strict (Sys.rest x.1) as with
    | .ok (_, es) => some (x.1.role, x.1.rtk, es.filterMap Eff.rtk?)
    | .error _ => none

theorem exRace_reach {evs : List Ev} {as : List Act} {x : Role × Option Nat × List (Nat × List Byte)} (h : exRace evs as = some x) :
    ∃ d es0 s es, Reach .strict d evs es0 ∧ race .strict (Sys.rest d) as = .ok (s, es) ∧ es.filterMap Eff.rtk? = x.2.2 := by
  unfold exRace at h
  cases hr : exRun evs with
  | none => rw [hr] at h; cases h
  | some y =>
    rw [hr] at h
    dsimp only [Option.bind_some] at h
    split at h
    · rename_i s es he
      cases h
      exact ⟨y.1, y.2, s, es, exRun_reach hr, he, rfl⟩
    · cases h

/-- C132 refuted, 1. A base on link 9 is made a rover on link 8 while a message is being forwarded: the message of the base
is written to the link of the rover. -/
theorem c132_base_to_rover_refuted :
    ∃ d es0 s es, Reach .strict d exBase es0 ∧ configured exBase = (.base, some 9) ∧
      race .strict (Sys.rest d) ([.arrive exFrame] ++ List.replicate 8 .rx ++ [.callRover 8] ++ List.replicate 10 .main ++ [.rx]) =
        .ok (s, es) ∧ es.filterMap Eff.rtk? = [(8, exFrame)] := by
  have h : exRace exBase ([.arrive exFrame] ++ List.replicate 8 .rx ++ [.callRover 8] ++ List.replicate 10 .main ++ [.rx]) =
      some (.base, some 9, [(8, exFrame)]) := by decide +kernel
  obtain ⟨d, es0, s, es, h1, h2, h3⟩ := exRace_reach h
  exact ⟨d, es0, s, es, h1, rfl, h2, h3⟩

/-- C132 refuted, 2. A device that was a base once and is now a rover on link 8 is made a base on link 7: `type_` is set
before `rtk_interface_`, and a message that arrives in between is written to link 8. -/
theorem c132_rover_to_base_refuted :
    ∃ d es0 s es, Reach .strict d (exBase ++ [.configRover 8]) es0 ∧ configured (exBase ++ [.configRover 8]) = (.rover, some 8) ∧
      race .strict (Sys.rest d) ([.callBase 7 false, .main, .arrive exFrame] ++ List.replicate 9 .rx ++ [.main]) = .ok (s, es) ∧
      es.filterMap Eff.rtk? = [(8, exFrame)] := by
  have h : exRace (exBase ++ [.configRover 8]) ([.callBase 7 false, .main, .arrive exFrame] ++ List.replicate 9 .rx ++ [.main]) =
      some (.rover, some 8, [(8, exFrame)]) := by decide +kernel
  obtain ⟨d, es0, s, es, h1, h2, h3⟩ := exRace_reach h
  exact ⟨d, es0, s, es, h1, rfl, h2, h3⟩

/-- A schedule of `c132_first_base_partial`: one message is completed before the registration, one after it. -/
def exFirst : Option (List (List Byte) × List (Nat × List Byte) × List (Nat × List Byte)) :=
  (exRun []).bind fun x =>
    match race .strict (Sys.rest x.1) ([.callBase 9 false, .main] ++ [.arrive (exFrame ++ exFrame.take 3)] ++ [.main] ++
      List.replicate 9 .rx ++ [.main]) with
    | .ok (s1, e1) =>
      match race .strict s1 ([.rx, .main, .arrive (exFrame.drop 3)] ++ List.replicate 9 .rx) with
      | .ok (s2, e2) => if x.1.ubx.parsingMessage || x.1.rtcm.parsingMessage then none else some ([s1.inbox, s2.inbox], e1.filterMap Eff.rtk?, e2.filterMap Eff.rtk?)
      | .error _ => none
    | .error _ => none

example : exFirst = some ([[0x01], []], [], [(9, exFrame)]) := by decide +kernel

example : SerialOnly [.arrive (exFrame ++ exFrame.take 3)] ∧ SerialOnly (List.replicate 9 .rx) ∧
    NoCall ([.rx, .main, .arrive (exFrame.drop 3)] ++ List.replicate 9 .rx) := by
  refine ⟨?_, ?_, rfl⟩
  · intro a ha
    exact .inr ⟨_, List.mem_singleton.1 ha⟩
  · intro a ha
    exact .inl (List.eq_of_mem_replicate ha)

end Dev
end Ublox
