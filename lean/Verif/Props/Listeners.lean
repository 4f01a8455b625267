import Verif.Model.Listeners
import Mathlib.Tactic.Linarith

/-!
# C98: registering while data arrive
-/

namespace Ublox.Conc

variable {α β : Type}

/-! ### Reading a history -/

/-- The calls that were made, in order. -/
def calls : List (Entry α β) → List (α × β)
  | [] => []
  | .call l c :: t => (l, c) :: calls t
  | .reg _ :: t => calls t
  | .start _ :: t => calls t

/-- The calls that are due: everything goes to all those, and only those, who were registered when its delivery began, in the
order of registration. The first argument is who is registered so far. -/
def owed : List α → List (Entry α β) → List (α × β)
  | _, [] => []
  | r, .reg l :: t => owed (r ++ [l]) t
  | r, .start c :: t => r.map (fun l => (l, c)) ++ owed r t
  | r, .call _ _ :: t => owed r t

/-- What was delivered, in order. -/
def starts : List (Entry α β) → List β
  | [] => []
  | .start c :: t => c :: starts t
  | .reg _ :: t => starts t
  | .call _ _ :: t => starts t

/-- Who registered, in order. -/
def regs : List (Entry α β) → List α
  | [] => []
  | .reg l :: t => l :: regs t
  | .start _ :: t => regs t
  | .call _ _ :: t => regs t

/-- What came in, in order. -/
def received : List (Ev α β) → List β
  | [] => []
  | .data c :: t => c :: received t
  | .register _ :: t => received t
  | .rx :: t => received t

/-- What has come in and is not yet being delivered. -/
def St.waiting (s : St α β) : List β :=
  match s.rx with
  | .begun c _ => c :: s.queue
  | _ => s.queue

/-- Registrations never make the vector move while a delivery is in progress: each finds the receive thread idle or room to
spare. -/
def Gentle (grow : Nat → Nat) : St α β → List (Ev α β) → Prop
  | _, [] => True
  | s, ev :: evs => (∀ l, ev = .register l → s.rx = .idle ∨ s.vec.items.length < s.vec.cap) ∧
      ∀ s', step grow s ev = .ok s' → Gentle grow s' evs

/-! ### The invariant -/

theorem calls_append (t u : List (Entry α β)) : calls (t ++ u) = calls t ++ calls u := by
  induction t with
  | nil => rfl
  | cons x t ih => cases x <;> simp [calls, ih]

theorem starts_append (t u : List (Entry α β)) : starts (t ++ u) = starts t ++ starts u := by
  induction t with
  | nil => rfl
  | cons x t ih => cases x <;> simp [starts, ih]

theorem regs_append (t u : List (Entry α β)) : regs (t ++ u) = regs t ++ regs u := by
  induction t with
  | nil => rfl
  | cons x t ih => cases x <;> simp [regs, ih]

theorem owed_append (r : List α) (t u : List (Entry α β)) : owed r (t ++ u) = owed r t ++ owed (r ++ regs t) u := by
  induction t generalizing r with
  | nil => simp [owed, regs]
  | cons x t ih => cases x <;> simp [owed, regs, ih]

/-- The invariant; `d` is what has come in. -/
structure Inv (d : List β) (s : St α β) : Prop where
  items : s.vec.items = regs s.trace
  order : starts s.trace ++ s.waiting = d
  calls : match s.rx with
    | .idle => calls s.trace = owed [] s.trace
    | .begun _ it => it = ⟨s.vec.alloc, 0⟩ ∧ calls s.trace = owed [] s.trace
    | .loop c it e => it.alloc = s.vec.alloc ∧ e.alloc = s.vec.alloc ∧ it.idx ≤ e.idx ∧ e.idx ≤ s.vec.items.length ∧
        calls s.trace ++ ((s.vec.items.take e.idx).drop it.idx).map (fun l => (l, c)) = owed [] s.trace

theorem inv_init : Inv (α := α) (β := β) [] init := ⟨rfl, rfl, rfl⟩

/-- One event keeps the invariant. -/
theorem inv_step (grow : Nat → Nat) {d : List β} {s : St α β} (h : Inv d s) (ev : Ev α β)
    (hg : ∀ l, ev = .register l → s.rx = .idle ∨ s.vec.items.length < s.vec.cap) :
    ∃ s', step grow s ev = .ok s' ∧ Inv (d ++ received [ev]) s' := by
  obtain ⟨vec, queue, rx, trace⟩ := s
  obtain ⟨h1, h2, h3⟩ := h
  cases ev with
  | register l =>
    refine ⟨_, rfl, ⟨?_, ?_, ?_⟩⟩
    · show (vec.pushBack grow l).items = _
      rw [regs_append, ← h1]
      unfold Vec.pushBack
      split <;> rfl
    · show starts (trace ++ [.reg l]) ++ _ = _
      rw [starts_append]
      simpa [starts, received, St.waiting] using h2
    · have e : calls (trace ++ [.reg l]) = calls trace := by rw [calls_append]; simp [calls]
      have o : owed [] (trace ++ [Entry.reg (β := β) l]) = owed [] trace := by rw [owed_append]; simp [owed]
      rcases hg l rfl with hi | hc
      · dsimp only at hi
        subst hi
        show calls (trace ++ [.reg l]) = _
        rw [e, o]; exact h3
      · dsimp only at hc h1
        have hv : vec.pushBack grow l = { vec with items := vec.items ++ [l] } := if_pos hc
        cases rx with
        | idle =>
          show calls (trace ++ [.reg l]) = _
          rw [e, o]; exact h3
        | begun c it =>
          show it = ⟨(vec.pushBack grow l).alloc, 0⟩ ∧ calls (trace ++ [.reg l]) = _
          rw [e, o, hv]; exact h3
        | loop c it en =>
          obtain ⟨a, b, f, g, i⟩ := h3
          dsimp only at a b f g i
          show it.alloc = (vec.pushBack grow l).alloc ∧ en.alloc = (vec.pushBack grow l).alloc ∧ it.idx ≤ en.idx ∧
            en.idx ≤ (vec.pushBack grow l).items.length ∧
            calls (trace ++ [.reg l]) ++ (((vec.pushBack grow l).items.take en.idx).drop it.idx).map (fun l => (l, c)) =
              owed [] (trace ++ [.reg l])
          rw [e, o, hv]
          refine ⟨a, b, f, by simp; omega, ?_⟩
          dsimp only
          rw [List.take_append_of_le_length g]
          exact i
  | data c =>
    refine ⟨_, rfl, ⟨h1, ?_, ?_⟩⟩
    · rw [← h2]
      cases rx <;> simp [St.waiting, received]
    · cases rx <;> exact h3
  | rx =>
    cases rx with
    | idle =>
      cases queue with
      | nil => exact ⟨_, rfl, ⟨h1, by simpa [received] using h2, h3⟩⟩
      | cons c q =>
        refine ⟨_, rfl, ⟨h1, by simpa [received, St.waiting] using h2, ?_⟩⟩
        exact ⟨rfl, h3⟩
    | begun c it =>
      refine ⟨_, rfl, ⟨?_, ?_, ?_⟩⟩
      · show vec.items = _
        rw [regs_append, ← h1]; simp [regs]
      · show starts (trace ++ [.start c]) ++ queue = _
        rw [starts_append]
        simpa [starts, received, St.waiting] using h2
      · obtain ⟨hit, h3⟩ := h3
        have hit : it = ⟨vec.alloc, 0⟩ := hit
        subst hit
        refine ⟨rfl, rfl, Nat.zero_le _, le_refl _, ?_⟩
        dsimp only at h1
        show calls (trace ++ [.start c]) ++ ((vec.items.take vec.items.length).drop 0).map (fun l => (l, c)) =
          owed [] (trace ++ [.start c])
        rw [calls_append, owed_append, ← h1]
        dsimp only at h3
        rw [h3]
        simp [calls, owed]
    | loop c it e =>
      obtain ⟨a, b, f, g, i⟩ := h3
      dsimp only at a b f g i h1
      by_cases hie : it = e
      · subst hie
        refine ⟨⟨vec, queue, .idle, trace⟩, if_pos rfl, ⟨h1, by simpa [received, St.waiting] using h2, ?_⟩⟩
        show calls trace = _
        rw [← i]
        simp
      · have hlt : it.idx < e.idx := by
          rcases Nat.lt_or_eq_of_le f with h | h
          · exact h
          · exact absurd (by cases it; cases e; dsimp only at *; subst a b h; rfl) hie
        have hx : it.idx < vec.items.length := by omega
        have hd : vec.deref it = .ok vec.items[it.idx] := by
          unfold Vec.deref
          rw [if_pos a, List.getElem?_eq_getElem hx]
        refine ⟨⟨vec, queue, .loop c ⟨it.alloc, it.idx + 1⟩ e, trace ++ [.call vec.items[it.idx] c]⟩, ?_, ⟨?_, ?_, ?_⟩⟩
        · show (if it = e then _ else _) = _
          rw [if_neg hie, hd]
        · show vec.items = _
          rw [regs_append, ← h1]; simp [regs]
        · show starts (trace ++ [.call _ c]) ++ queue = _
          rw [starts_append]
          simpa [starts, received, St.waiting] using h2
        · refine ⟨a, b, hlt, g, ?_⟩
          show calls (trace ++ [.call vec.items[it.idx] c]) ++
            ((vec.items.take e.idx).drop (it.idx + 1)).map (fun l => (l, c)) = owed [] (trace ++ [.call vec.items[it.idx] c])
          rw [calls_append, owed_append, ← i]
          have : (vec.items.take e.idx).drop it.idx = vec.items[it.idx] :: (vec.items.take e.idx).drop (it.idx + 1) := by
            rw [List.drop_eq_getElem_cons (by simp; omega)]
            simp
          rw [this]
          simp [calls, owed]

theorem received_append (a b : List (Ev α β)) : received (a ++ b) = received a ++ received b := by
  induction a with
  | nil => rfl
  | cons x t ih => cases x <;> simp [received, ih]

theorem inv_run (grow : Nat → Nat) {d : List β} {s : St α β} (h : Inv d s) (evs : List (Ev α β)) (hg : Gentle grow s evs) :
    ∃ s', run grow s evs = .ok s' ∧ Inv (d ++ received evs) s' := by
  induction evs generalizing d s with
  | nil => exact ⟨s, rfl, by simpa [received] using h⟩
  | cons ev evs ih =>
    obtain ⟨s', e, h'⟩ := inv_step grow h ev hg.1
    obtain ⟨s'', e', h''⟩ := ih h' (hg.2 s' e)
    refine ⟨s'', by unfold run; rw [e]; exact e', ?_⟩
    rw [show ev :: evs = [ev] ++ evs from rfl, received_append, ← List.append_assoc]
    exact h''

/-! ### C98 -/

/-- **C98, no registration disturbs a delivery.** For every growth policy and every schedule in which the vector never has to
move during a delivery: nothing goes wrong, everything received is delivered in order, and whenever the receive thread is
idle the calls made are exactly the calls due. -/
theorem c98_deliver_partial (grow : Nat → Nat) (evs : List (Ev α β)) (hg : Gentle grow init evs) :
    ∃ s, run grow init evs = .ok s ∧ starts s.trace ++ s.waiting = received evs ∧
      calls s.trace <+: owed [] s.trace ∧ (s.rx = .idle → calls s.trace = owed [] s.trace) := by
  obtain ⟨s, e, h⟩ := inv_run grow inv_init evs hg
  refine ⟨s, e, by simpa using h.order, ?_, ?_⟩
  · have := h.calls
    cases hr : s.rx with
    | idle => rw [hr] at this; exact ⟨[], by simpa using this⟩
    | begun c it => rw [hr] at this; exact ⟨[], by simpa using this.2⟩
    | loop c it en => rw [hr] at this; exact ⟨_, this.2.2.2.2⟩
  · intro hr
    have := h.calls
    rw [hr] at this
    exact this

/-- The steps of the receive thread until everything is delivered. -/
theorem drain (grow : Nat → Nat) {d : List β} (s : St α β) (h : Inv d s) :
    ∃ n s', run grow s (List.replicate n .rx) = .ok s' ∧ s'.rx = .idle ∧ s'.queue = [] ∧ Inv d s' := by
  let m : St α β → Nat := fun s => s.queue.length * (s.vec.items.length + 3) + match s.rx with
    | .idle => 0
    | .begun _ _ => s.vec.items.length + 2
    | .loop _ it _ => s.vec.items.length + 1 - it.idx
  suffices H : ∀ k, ∀ s : St α β, m s ≤ k → Inv d s →
      ∃ n s', run grow s (List.replicate n .rx) = .ok s' ∧ s'.rx = .idle ∧ s'.queue = [] ∧ Inv d s' from H (m s) s le_rfl h
  intro k
  induction k with
  | zero =>
    intro s hm h
    obtain ⟨vec, queue, rx, trace⟩ := s
    cases rx with
    | idle =>
      refine ⟨0, _, rfl, rfl, ?_, h⟩
      cases queue with
      | nil => rfl
      | cons c q =>
        exfalso
        simp only [m, List.length_cons] at hm
        rw [Nat.add_mul, Nat.one_mul] at hm
        omega
    | begun c it => exfalso; simp only [m] at hm; omega
    | loop c it e =>
      exfalso
      obtain ⟨-, -, f, g, -⟩ := h.calls
      dsimp only at f g
      simp only [m] at hm; omega
  | succ k ih =>
    intro s hm h
    by_cases hdone : s.rx = .idle ∧ s.queue = []
    · exact ⟨0, s, rfl, hdone.1, hdone.2, h⟩
    · obtain ⟨s', e, h'⟩ := inv_step grow h .rx (by nofun)
      have h' : Inv d s' := by simpa [received] using h'
      have hlt : m s' < m s := by
        obtain ⟨vec, queue, rx, trace⟩ := s
        have hc := h.calls
        cases rx with
        | idle =>
          cases queue with
          | nil => exact absurd ⟨rfl, rfl⟩ hdone
          | cons c q =>
            cases Except.ok.inj e
            simp only [m, List.length_cons]
            rw [Nat.add_mul q.length 1, Nat.one_mul]
            omega
        | begun c it =>
          cases Except.ok.inj e
          have hit : it = ⟨vec.alloc, 0⟩ := hc.1
          subst hit
          simp only [m]
          omega
        | loop c it en =>
          obtain ⟨a, b, f, g, -⟩ := hc
          dsimp only at a b f g
          by_cases hie : it = en
          · have e' : (Except.ok ⟨vec, queue, .idle, trace⟩ : Except Fault (St α β)) = .ok s' := (if_pos hie).symm.trans e
            cases Except.ok.inj e'
            simp only [m]
            omega
          · have hlt : it.idx < en.idx := by
              rcases Nat.lt_or_eq_of_le f with hl | hl
              · exact hl
              · exact absurd (by cases it; cases en; dsimp only at a b hl; rw [a, b, hl]) hie
            have hd : vec.deref it = .ok vec.items[it.idx] := by
              unfold Vec.deref
              rw [if_pos a, List.getElem?_eq_getElem (by omega)]
            have e' := (if_neg hie).symm.trans e
            rw [hd] at e'
            cases Except.ok.inj e'
            simp only [m]
            omega
      obtain ⟨n, s'', r, i1, i2, i3⟩ := ih s' (by omega) h'
      refine ⟨n + 1, s'', ?_, i1, i2, i3⟩
      rw [List.replicate_succ]
      unfold run
      rw [e]
      exact r

/-- **C98, nothing gets stuck.** After any such schedule the receive thread, left alone, finishes: all data have been
delivered, in order, each to exactly those registered when its delivery began. -/
theorem c98_progress_partial (grow : Nat → Nat) (evs : List (Ev α β)) (hg : Gentle grow init evs) :
    ∃ n s, run grow init (evs ++ List.replicate n .rx) = .ok s ∧ starts s.trace = received evs ∧
      calls s.trace = owed [] s.trace := by
  obtain ⟨s, e, h⟩ := inv_run grow inv_init evs hg
  obtain ⟨n, s', r, i1, i2, i3⟩ := drain grow s h
  have key : ∀ (evs : List (Ev α β)) (t : St α β), run grow t evs = .ok s → run grow t (evs ++ List.replicate n .rx) = .ok s' := by
    intro evs
    induction evs with
    | nil => intro t ht; cases Except.ok.inj ht; exact r
    | cons ev evs ih =>
      intro t ht
      unfold run at ht
      show run grow t (ev :: (evs ++ _)) = _
      unfold run
      cases hs : step grow t ev with
      | error f => rw [hs] at ht; exact absurd ht (by nofun)
      | ok t' => rw [hs] at ht; exact ih t' ht
  refine ⟨n, s', key evs init e, ?_, ?_⟩
  · have := i3.order
    simp only [St.waiting, i1, i2, List.append_nil, List.nil_append] at this
    exact this
  · have := i3.calls
    rw [i1] at this
    exact this

/-- Registering everybody before the first data is such a schedule. -/
theorem c98_register_first (grow : Nat → Nat) (ls : List α) (rest : List (Ev α β)) (h : ∀ l, .register l ∉ rest) :
    Gentle grow init (ls.map .register ++ rest) := by
  have hr : ∀ (rest : List (Ev α β)), (∀ l, .register l ∉ rest) → ∀ s, Gentle grow s rest := by
    intro rest
    induction rest with
    | nil => intro _ _; trivial
    | cons ev evs ih =>
      intro h s
      refine ⟨fun l hl => absurd (hl ▸ List.mem_cons_self) (h l), fun s' _ => ih (fun l hl => h l (List.mem_cons_of_mem _ hl)) s'⟩
  suffices H : ∀ (ls : List α) (s : St α β), s.rx = .idle → Gentle grow s (ls.map .register ++ rest) from H ls init rfl
  intro ls
  induction ls with
  | nil => intro s _; exact hr rest h s
  | cons l ls ih =>
    intro s hs
    exact ⟨fun _ _ => .inl hs, fun s' he => ih s' (by cases Except.ok.inj he; exact hs)⟩

/-- **C98 is false of the code.** For every growth policy, every full list of listeners and all data: a registration during
the delivery makes the receive thread use freed memory; e.g. with two listeners, a third registered while the first handles
the data. -/
theorem c98_refuted (grow : Nat → Nat) (s : St α β) (c : β) (it e : Iter) (l : α) (hr : s.rx = .loop c it e)
    (hfull : s.vec.cap ≤ s.vec.items.length) (hv : it.alloc = s.vec.alloc) (hmore : it ≠ e) :
    run grow s [.register l, .rx] = .error .dangling := by
  obtain ⟨vec, queue, rx, trace⟩ := s
  dsimp only at hr hfull hv
  subst hr
  have hp : vec.pushBack grow l = ⟨vec.alloc + 1, grow vec.cap, vec.items ++ [l]⟩ := if_neg (by omega)
  have hs : step grow ⟨vec.pushBack grow l, queue, .loop c it e, trace ++ [.reg l]⟩ .rx = .error .dangling := by
    refine (if_neg hmore).trans ?_
    have : (vec.pushBack grow l).deref it = .error .dangling := by
      rw [hp]
      exact if_neg (by dsimp only; omega)
    rw [this]
  show run grow ⟨vec.pushBack grow l, queue, .loop c it e, trace ++ [.reg l]⟩ [.rx] = _
  unfold run
  rw [hs]

/-- The growth policy of libstdc++: 1, 2, 4, 8, … -/
def doubling (n : Nat) : Nat := max 1 (2 * n)

/-- A whole run: two listeners, data, the first listener is called, a third registers, the receive thread goes on. -/
theorem c98_schedule_refuted (a b c : α) (d : β) :
    run doubling init [.register a, .register b, .data d, .rx, .rx, .rx, .register c, .rx] = .error .dangling := rfl

/-- The same with only the device registered: `read_serial` adds its logger when data are already flowing. -/
theorem c98_logger_refuted (device logger : α) (d : β) :
    run doubling init [.register device, .data d, .rx, .register logger, .rx, .rx] = .error .dangling := rfl

/-- A gentle schedule with a registration in the middle of a delivery: there is room for a fourth listener. The new listener
does not get the data in progress but gets the next. -/
example : ∃ s, run doubling init ([.register 1, .register 2, .register 3, .data 'a', .rx, .rx, .rx, .register 4, .data 'b'] ++
      List.replicate 20 Ev.rx) = .ok s ∧
    calls s.trace = [(1, 'a'), (2, 'a'), (3, 'a'), (1, 'b'), (2, 'b'), (3, 'b'), (4, 'b')] := ⟨_, rfl, rfl⟩

example : Gentle doubling (init (α := Nat) (β := Char)) [.register 1, .register 2, .register 3, .data 'a', .rx, .rx, .rx, .register 4, .data 'b'] := by
  simp [Gentle, step, init, Vec.pushBack, Vec.empty, Vec.deref, doubling]

end Ublox.Conc
