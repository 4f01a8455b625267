import Verif.Model.Lifetime
import Mathlib.Data.List.Infix

/-!
# C104, C107: nobody is called after it is destroyed; the ROS node and its port
-/

namespace Ublox.Life

/-- `evs` is a run of the program `prog`, possibly unfinished: the main thread's statements in program order, interleaved in
any way with any data on the two links. -/
def IsRun (prog : List Stmt) (evs : List Ev) : Prop :=
  evs.filterMap (fun | .main c => some c | .data _ => none) <+: prog

/-- The same, with no data after the first statement of the second part (the part that takes the program down) has begun. -/
def IsQuietRun (up down : List Stmt) (evs : List Ev) : Prop :=
  ∃ e1 done, evs = e1 ++ done.map .main ∧ done <+: down ∧
    (IsRun up e1 ∧ (done = [] ∨ e1.filterMap (fun | .main c => some c | .data _ => none) = up))

/-- No run of the program calls a destroyed object. -/
def Safe (prog : List Stmt) : Prop := ∀ evs, IsRun prog evs → ∃ s, St.init.run evs = .ok s

/-! ## The state depends on the main thread alone -/

/-- The wiring after a list of statements. -/
def after (s : St) (p : List Stmt) : St := p.foldl St.exec s

/-- Every delivery possible in this state is harmless. -/
def Harmless (s : St) : Prop := ∀ d, (s.deliver d).isOk

instance (s : St) : Decidable (Harmless s) :=
  decidable_of_iff ((s.deliver .udp).isOk ∧ ∀ m r, (s.deliver (.serial m r)).isOk) <| by
    constructor
    · rintro ⟨h1, h2⟩ (⟨m, r⟩ | _)
      · exact h2 m r
      · exact h1
    · intro h
      exact ⟨h _, fun m r => h _⟩

theorem run_harmless (evs : List Ev) (s : St)
    (h : ∀ q, q <+: evs.filterMap (fun | .main c => some c | .data _ => none) → Harmless (after s q)) :
    s.run evs = .ok (after s (evs.filterMap (fun | .main c => some c | .data _ => none))) := by
  induction evs generalizing s with
  | nil => rfl
  | cons e es ih =>
    cases e with
    | main c =>
      refine ih (s.exec c) ?_
      intro q hq
      exact h (c :: q) (by simpa using hq)
    | data d =>
      have h0 : (s.deliver d).isOk := h [] (List.nil_prefix) d
      show (s.deliver d >>= fun _ => s.run es) = _
      cases hd : s.deliver d with
      | error e => rw [hd] at h0; exact absurd h0 nofun
      | ok l =>
      exact ih s (fun q hq => h q (by simpa using hq))

theorem filterMap_main (p : List Stmt) :
    (p.map Ev.main).filterMap (fun | .main c => some c | .data _ => none) = p := by
  induction p with
  | nil => rfl
  | cons c p ih => simpa using ih

theorem run_main (p : List Stmt) (s : St) (es : List Ev) : s.run (p.map .main ++ es) = (after s p).run es := by
  induction p generalizing s with
  | nil => rfl
  | cons c p ih => exact ih (s.exec c)

/-- A program is safe under every interleaving exactly if, whenever the main thread stops between two statements, every
delivery is harmless. -/
theorem safe_iff (prog : List Stmt) : Safe prog ↔ ∀ q, q <+: prog → Harmless (after St.init q) := by
  constructor
  · intro h q hq d
    obtain ⟨s, hs⟩ := h (q.map .main ++ [.data d]) (by
      unfold IsRun
      rw [List.filterMap_append, filterMap_main]
      simpa using hq)
    rw [run_main] at hs
    cases hd : (after St.init q).deliver d with
    | ok => rfl
    | error e =>
      have : ((after St.init q).deliver d >>= fun _ => (after St.init q).run []) = .ok s := hs
      rw [hd] at this
      exact absurd this nofun
  · intro h evs he
    exact ⟨_, run_harmless evs St.init (fun q hq => h q (hq.trans he))⟩

theorem safe_check (prog : List Stmt) (h : ∀ q ∈ prog.inits, Harmless (after St.init q)) : Safe prog :=
  (safe_iff prog).2 fun q hq => h q ((List.mem_inits q prog).2 hq)

/-! ## The programs -/

/-- Quiet runs of a program whose first part is safe are safe. -/
theorem quiet_safe {up down : List Stmt} (hup : Safe up) {evs : List Ev} (h : IsQuietRun up down evs) :
    ∃ s, St.init.run evs = .ok s := by
  obtain ⟨e1, done, rfl, -, hr, -⟩ := h
  have := (safe_iff up).1 hup
  have h1 := run_harmless e1 St.init (fun q hq => this q (hq.trans hr))
  have split : ∀ (a b : List Ev) (s s1 : St), s.run a = .ok s1 → s.run (a ++ b) = s1.run b := by
    intro a b
    induction a with
    | nil => intro s s1 h; cases Except.ok.inj h; rfl
    | cons e es ih =>
      intro s s1 h
      cases e with
      | main c => exact ih _ _ h
      | data d =>
        have h : (s.deliver d >>= fun _ => s.run es) = .ok s1 := h
        show (s.deliver d >>= fun _ => s.run (es ++ b)) = _
        cases hd : s.deliver d with
        | error e => rw [hd] at h; exact absurd h nofun
        | ok _ => rw [hd] at h; exact ih _ _ h
  rw [split _ _ _ _ h1]
  generalize after St.init _ = s1
  have := run_main done s1 []
  rw [List.append_nil] at this
  exact ⟨_, this⟩

/-- C104, start-up and operation: from the first statement to the end of the waiting loop, whatever data arrive on the
serial port and the UDP link and whenever they do, nobody is called who is not alive. -/
theorem c104_running : Safe baseUp ∧ Safe roverUp ∧ ∀ log, Safe (readSerialUp log) :=
  ⟨safe_check _ (by decide), safe_check _ (by decide), fun log => by cases log <;> exact safe_check _ (by decide)⟩

/-- C104, what holds of the programs as a whole: if no data arrive after the waiting loop has been left, no destroyed object
is called.  Missing: data arriving while the program shuts down. -/
theorem c104_partial {evs : List Ev} (h : IsQuietRun baseUp baseDown evs ∨ IsQuietRun roverUp roverDown evs ∨
    ∃ log, IsQuietRun (readSerialUp log) (readSerialDown log) evs) : ∃ s, St.init.run evs = .ok s := by
  rcases h with h | h | ⟨log, h⟩
  · exact quiet_safe c104_running.1 h
  · exact quiet_safe c104_running.2.1 h
  · exact quiet_safe (c104_running.2.2 log) h

/-- C104 is false of the code: each program can call a destroyed object when the receiver goes on sending while `main`
returns: `base` the UDP link, `rover` and `read_serial` their message handler, `read_serial` with a log the logger. -/
theorem c104_refuted :
    (∃ evs, IsRun (baseUp ++ baseDown) evs ∧ St.init.run evs = .error ⟨.udp⟩) ∧
    (∃ evs, IsRun (roverUp ++ roverDown) evs ∧ St.init.run evs = .error ⟨.handler⟩) ∧
    (∃ evs, IsRun (readSerialUp false ++ readSerialDown false) evs ∧ St.init.run evs = .error ⟨.handler⟩) ∧
    (∃ evs, IsRun (readSerialUp true ++ readSerialDown true) evs ∧ St.init.run evs = .error ⟨.logger⟩) := by
  refine ⟨⟨(baseUp ++ [Stmt.del .udp]).map Ev.main ++ [.data (.serial false true)], ?_, rfl⟩,
    ⟨(roverUp ++ [Stmt.del .udp, Stmt.del .handler]).map Ev.main ++ [.data (.serial true false)], ?_, rfl⟩,
    ⟨(readSerialUp false ++ [Stmt.del .handler]).map Ev.main ++ [.data (.serial true false)], ?_, rfl⟩,
    ⟨(readSerialUp true ++ [Stmt.del .logger]).map Ev.main ++ [.data (.serial false false)], ?_, rfl⟩⟩
  all_goals (unfold IsRun; decide)

/-- C104: once the device is destroyed every further buffer from the receiver calls it, whatever is in the buffer, in all
three programs (the port is destroyed last). -/
theorem c104_last_window_refuted (msg rtcm : Bool) (p : List Stmt)
    (hp : p = baseUp ++ [.del .udp, .del .handler, .del .device] ∨
      p = roverUp ++ [.del .udp, .del .handler, .del .device] ∨
      p = readSerialUp false ++ [.del .handler, .del .device]) :
    St.init.run (p.map .main ++ [.data (.serial msg rtcm)]) = .error ⟨.device⟩ := by
  rcases hp with rfl | rfl | rfl <;> cases msg <;> cases rtcm <;> rfl

/-- C104 is false of the code: after a failed construction the port still calls the device that never came to be; the next
buffer from the receiver, whatever its content, is handed to it. -/
theorem c104_failed_construction_refuted (msg rtcm : Bool) :
    St.init.run (failedConstruction.map .main ++ [.data (.serial msg rtcm)]) = .error ⟨.device⟩ := by
  cases msg <;> cases rtcm <;> rfl

/-- C104, what an application has to do: take the links down first, in the order that suits the role (a base's port
writes to the UDP link, a rover's UDP link writes to the port).  Then no interleaving calls a destroyed object; and with the
two links in the other order there is one that does. -/
theorem c104_links_first :
    Safe (baseUp ++ [.del .ser, .del .udp, .del .handler, .del .device]) ∧
    Safe (roverUp ++ [.del .udp, .del .ser, .del .handler, .del .device]) ∧
    (∀ log, Safe (readSerialUp log ++ (.del .ser :: (if log then [.del .logger] else []) ++ [.del .handler, .del .device]))) ∧
    ¬ Safe (baseUp ++ [.del .udp, .del .ser, .del .handler, .del .device]) ∧
    ¬ Safe (roverUp ++ [.del .ser, .del .udp, .del .handler, .del .device]) := by
  refine ⟨safe_check _ (by decide), safe_check _ (by decide), ?_, ?_, ?_⟩
  · intro log
    cases log <;> exact safe_check _ (by decide)
  · intro h
    exact absurd ((safe_iff _).1 h (baseUp ++ [.del .udp]) (by decide)) (by decide)
  · intro h
    exact absurd ((safe_iff _).1 h (roverUp ++ [.del .ser]) (by decide)) (by decide)

/-- C104, who is called while the programs run: every buffer from the port reaches the device, which calls the listener
exactly if a message is complete and, as a base only, the UDP link exactly if an RTCM message is complete; then the logger, if
there is one.  Every buffer from the UDP link is written to the port by a rover, and by nobody else. -/
theorem c104_calls (m r : Bool) :
    (after St.init baseUp).deliver (.serial m r) =
      .ok ([.device] ++ (if m then [.handler] else []) ++ (if r then [.udp] else [])) ∧
    (after St.init roverUp).deliver (.serial m r) = .ok ([.device] ++ (if m then [.handler] else [])) ∧
    (∀ log, (after St.init (readSerialUp log)).deliver (.serial m r) =
      .ok ([.device] ++ (if m then [.handler] else []) ++ (if log then [.logger] else []))) ∧
    (after St.init baseUp).deliver .udp = .ok [] ∧ (after St.init roverUp).deliver .udp = .ok [.device, .ser] := by
  refine ⟨?_, ?_, fun log => ?_, rfl, rfl⟩ <;> cases m <;> cases r <;> first | rfl | (cases log <;> rfl)

/-! ## The ROS node -/

/-- **C107, the true part.** While the constructor of the ROS node runs, no destroyed object is called, and before it returns
the device is connected: it gets every buffer, and a rover writes every correction to the port.  Missing: after it has
returned. -/
theorem c107_constructing_partial (role : Role) :
    Safe (rosCtor role) ∧
    (∀ m r, ∃ l, (after St.init (rosCtor role)).deliver (.serial m r) = .ok (.device :: l)) ∧
    (role = .rover → (after St.init (rosCtor role)).deliver .udp = .ok [.device, .ser]) := by
  refine ⟨?_, fun m r => ?_, ?_⟩
  · cases role <;> exact safe_check _ (by decide)
  · cases role <;> cases m <;> cases r <;> exact ⟨_, rfl⟩
  · rintro rfl
    rfl

/-- **C107 refuted.** As soon as the constructor has returned nothing from the receiver reaches the device any more, in any
role, until the node is gone. -/
theorem c107_refuted (role : Role) (q : List Stmt) (hq : q <+: rosDown role) (m r : Bool) :
    (after St.init (rosCtor role ++ rosCtorEnd ++ q)).deliver (.serial m r) = .ok [] := by
  have hm : q ∈ (rosDown role).inits := (List.mem_inits q (rosDown role)).2 hq
  have key : ∀ q ∈ (rosDown role).inits, Obj.ser ∉ (after St.init (rosCtor role ++ rosCtorEnd ++ q)).alive := by
    cases role <;> decide
  exact if_neg (key q hm)

/-- **C107 refuted, rover.** Whatever data arrived before, the first correction received over UDP after the constructor has
returned makes the device write to the destroyed port. -/
theorem c107_rover_refuted (ds : List (Bool × Bool)) :
    St.init.run ((rosCtor .rover ++ rosCtorEnd).map .main ++ ds.map (fun d => .data (.serial d.1 d.2)) ++ [.data .udp]) =
      .error ⟨.ser⟩ := by
  rw [List.append_assoc, run_main]
  induction ds with
  | nil => rfl
  | cons d ds ih => exact ih

/-- C107, what saves the other roles: without a rover's link, the whole life of the node, with any data at any time, calls no
destroyed object. -/
theorem c107_others_safe (role : Role) : Safe (rosCtor role ++ rosCtorEnd ++ rosDown role) ↔ role ≠ .rover := by
  cases role
  · exact ⟨fun _ => nofun, fun _ => safe_check _ (by decide)⟩
  · refine ⟨fun h => ?_, fun h => absurd rfl h⟩
    exact absurd ((safe_iff _).1 h (rosCtor .rover ++ rosCtorEnd) (by decide)) (by decide)
  · exact ⟨fun _ => nofun, fun _ => safe_check _ (by decide)⟩

/-- C107, destruction: once the destruction of a node with a link has begun, no data from anywhere reach anybody. -/
theorem c107_down (role : Role) (hr : role ≠ .none) (c : Stmt) (q : List Stmt) (hq : c :: q <+: rosDown role) (d : Data) :
    (after St.init (rosCtor role ++ rosCtorEnd ++ c :: q)).deliver d = .ok [] := by
  have hm : c :: q ∈ (rosDown role).inits := (List.mem_inits _ (rosDown role)).2 hq
  have key : ∀ q ∈ (rosDown role).inits, q ≠ [] → Obj.ser ∉ (after St.init (rosCtor role ++ rosCtorEnd ++ q)).alive ∧
      Obj.udp ∉ (after St.init (rosCtor role ++ rosCtorEnd ++ q)).alive := by
    cases role
    · exact absurd rfl hr
    all_goals decide
  obtain ⟨k1, k2⟩ := key _ hm (List.cons_ne_nil _ _)
  cases d
  · exact if_neg k1
  · exact if_neg fun h => k2 h.1

theorem ok_bind' {α β : Type} (a : α) (f : α → Except Fault β) : ((Except.ok a : Except Fault α) >>= f) = f a := rfl

theorem mem_callAll {s : St} : ∀ {os l : List Obj}, s.callAll os = .ok l → ∀ o ∈ l, o ∈ os
  | [], l, h, o, ho => by
    cases (Except.ok.inj h)
    exact absurd ho List.not_mem_nil
  | x :: os, l, h, o, ho => by
    unfold St.callAll at h
    unfold St.call at h
    by_cases hx : x ∈ s.alive
    · rw [if_pos hx] at h
      cases hr : s.callAll os with
      | error e => rw [hr] at h; cases h
      | ok b =>
        rw [hr] at h
        cases (Except.ok.inj h)
        rcases List.mem_append.1 ho with ho | ho
        · rw [List.mem_singleton.1 ho]; exact List.mem_cons_self
        · exact List.mem_cons_of_mem _ (mem_callAll hr o ho)
    · rw [if_neg hx] at h
      cases h

/-- C104, after `config_rover`: whatever the device was before, data from the receiver no longer use the UDP link. -/
theorem c104_rover_link (s : St) (h1 : Obj.udp ∉ s.serListeners) (h2 : Obj.udp ∉ s.ubxListeners) (m r : Bool) (l : List Obj)
    (h : (s.exec .configRover).deliver (.serial m r) = .ok l) : Obj.udp ∉ l := by
  have step : ∀ {o : Obj} {l}, (s.exec .configRover).serialTo m r o = .ok l → o ≠ .udp → Obj.udp ∉ l := by
    intro o l h ho
    unfold St.serialTo St.call at h
    by_cases hx : o ∈ (s.exec .configRover).alive
    · rw [if_pos hx] at h
      have hb : (r && (s.exec .configRover).base) = false := by cases r <;> rfl
      rw [hb] at h
      rw [ok_bind'] at h
      by_cases hd : o = .device
      · rw [if_pos hd] at h
        cases m
        · cases (Except.ok.inj h)
          simpa using ho.symm
        · cases hc : (s.exec .configRover).callAll (s.exec .configRover).ubxListeners with
          | error e => rw [hc] at h; cases h
          | ok b =>
            rw [hc] at h
            cases (Except.ok.inj h)
            intro hu
            simp only [List.append_nil] at hu
            rcases List.mem_append.1 hu with hu | hu
            · exact ho (List.mem_singleton.1 hu).symm
            · exact h2 (mem_callAll hc _ hu)
      · rw [if_neg hd] at h
        cases (Except.ok.inj h)
        simpa using ho.symm
    · rw [if_neg hx] at h
      cases h
  have all : ∀ {os l}, (s.exec .configRover).serialAll m r os = .ok l → Obj.udp ∉ os → Obj.udp ∉ l := by
    intro os
    induction os with
    | nil =>
      intro l h _
      cases (Except.ok.inj h)
      exact List.not_mem_nil
    | cons o os ih =>
      intro l h hn
      unfold St.serialAll at h
      cases h3 : (s.exec .configRover).serialTo m r o with
      | error e => rw [h3] at h; cases h
      | ok a =>
        cases h4 : (s.exec .configRover).serialAll m r os with
        | error e => rw [h3, h4] at h; cases h
        | ok b =>
          rw [h3, h4] at h
          cases (Except.ok.inj h)
          intro hu
          rcases List.mem_append.1 hu with hu | hu
          · exact step h3 (fun e => hn (e ▸ List.mem_cons_self)) hu
          · exact ih h4 (fun e => hn (List.mem_cons_of_mem _ e)) hu
  unfold St.deliver at h
  by_cases ha : Obj.ser ∈ (s.exec .configRover).alive
  · exact all ((if_pos ha).symm.trans h) h1
  · cases (Except.ok.inj ((if_neg ha).symm.trans h))
    exact List.not_mem_nil

/-- A base that becomes a rover, and an RTCM message arriving afterwards. -/
example : ((after St.init baseUp).exec .configRover).deliver (.serial true true) = .ok [.device, .handler] ∧
    (after St.init baseUp).deliver (.serial true true) = .ok [.device, .handler, .udp] := ⟨rfl, rfl⟩

/-- A quiet run of `base` with data on both links: the hypotheses of `c104_partial` are met. -/
example : IsQuietRun baseUp baseDown
    ([.main (.new .ser), .main (.new .device), .main (.serListen .device), .data (.serial false false),
      .main (.new .handler), .main (.ubxListen .handler), .data (.serial true true), .main (.new .udp),
      .main .configBase, .data (.serial true true), .data .udp] ++ baseDown.map .main) :=
  ⟨_, baseDown, rfl, by decide, by unfold IsRun; decide, .inr (by decide)⟩

end Ublox.Life
