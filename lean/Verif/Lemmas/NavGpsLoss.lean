import Verif.Lemmas.NavGpsLive
import Verif.Props.NavEncGps
import Verif.Spec.NavLoss

/-! Helper lemmas for C134. -/

namespace Ublox.Nav

attribute [local irreducible] gpsU gpsS gpsU32 gpsS32 subframe

/-- A message of satellite `s` in the run completed the entry. -/
def Fired (md : Mode) (s : Byte) (n : Nav) (ops : List NavOp) : Prop :=
  ∃ A junk m B n1 cs, ops = A ++ .sfrbx junk m :: B ∧ FromGps s (.sfrbx junk m) ∧ n.run md A = .ok (n1, cs) ∧
    Ready (gpsUpd m.dwrd (n1.own s)) ∧ (gpsId m.dwrd = 1 ∨ gpsId m.dwrd = 2 ∨ gpsId m.dwrd = 3)

/-- What is collected comes from subframes of `p` only. -/
def Clean (p : GpsParams) (e : Eph) : Prop := ∃ P, Coll True P e ∧ ∀ d ∈ P, ∃ f k, (k = 1 ∨ k = 2 ∨ k = 3) ∧ d = subframe f p k

theorem sub_id {p : GpsParams} (hp : p.Ok) (f : Nat → Nat → Bool) {k : Nat} (hk : k = 1 ∨ k = 2 ∨ k = 3) :
    gpsId (subframe f p k) = k := by
  unfold subframe
  rcases hk with rfl | rfl | rfl
  · exact id1 hp
  · exact id2 hp
  · exact id3 hp

theorem sub_iode1 {p : GpsParams} (hp : p.Ok) (f : Nat → Nat → Bool) : iode1Of (subframe f p 1) = p.iodc % 256 := by
  have h : issueOf (subframe f p 1) = p.iodc % 256 := by unfold subframe; exact issue1 hp
  unfold issueOf at h
  rw [sub_id hp f (.inl rfl), if_pos rfl] at h
  exact h

theorem sub_iode2 {p : GpsParams} (hp : p.Ok) (f : Nat → Nat → Bool) : iode2Of (subframe f p 2) = p.iodc % 256 := by
  have h : issueOf (subframe f p 2) = p.iodc % 256 := by unfold subframe; exact issue2 hp
  unfold issueOf at h
  rw [sub_id hp f (.inr (.inl rfl)), if_neg (by decide), if_pos rfl] at h
  exact h

theorem latest_mem {k : Nat} {P : List (List Byte)} {d : List Byte} (h : latest k P = some d) : d ∈ P ∧ gpsId d = k := by
  have := List.mem_of_getLast? h
  simpa using this

theorem Clean.cleared {p : GpsParams} {e : Eph} (h : e.got1 = false ∧ e.got2 = false ∧ e.got3 = false) : Clean p e :=
  ⟨[], coll_clear h, by simp⟩

theorem Clean.add {p : GpsParams} {e : Eph} {f : Nat → Nat → Bool} {k : Nat} (hk : k = 1 ∨ k = 2 ∨ k = 3) (h : Clean p e) :
    Clean p (gpsUpd (subframe f p k) e) := by
  obtain ⟨P, h1, h2⟩ := h
  refine ⟨P ++ [subframe f p k], h1.addGps, fun d hd => ?_⟩
  rcases List.mem_append.1 hd with hd | hd
  · exact h2 d hd
  · exact ⟨f, k, hk, List.mem_singleton.1 hd⟩

theorem carries_of_clean {p : GpsParams} (hp : p.Ok) {s : Byte} {e : Eph} {P : List (List Byte)} {d1 d2 d3 : List Byte}
    (hP : ∀ d ∈ P, ∃ f k, (k = 1 ∨ k = 2 ∨ k = 3) ∧ d = subframe f p k) (h1 : latest 1 P = some d1) (h2 : latest 2 P = some d2)
    (h3 : latest 3 P = some d3) (hc : CarriesGps e s d1 d2 d3) : ReportsGps e s p := by
  obtain ⟨m1, i1⟩ := latest_mem h1
  obtain ⟨m2, i2⟩ := latest_mem h2
  obtain ⟨m3, i3⟩ := latest_mem h3
  obtain ⟨f1, k1, q1, rfl⟩ := hP _ m1
  obtain ⟨f2, k2, q2, rfl⟩ := hP _ m2
  obtain ⟨f3, k3, q3, rfl⟩ := hP _ m3
  rw [sub_id hp _ q1] at i1
  rw [sub_id hp _ q2] at i2
  rw [sub_id hp _ q3] at i3
  subst i1; subst i2; subst i3
  unfold subframe at hc
  exact reports_of_carries hp hc

/-- What a stretch of messages of one data set does to the entry. -/
structure Stretch (md : Mode) (s : Byte) (p : GpsParams) (n n' : Nav) (ops : List NavOp) (cs : List (List NavCall)) : Prop where
  one : (((n.own s).iode1 = p.iodc % 256 ∧ (n.own s).iodc % 256 = p.iodc % 256) ∨ Has s 1 ops) →
    (n'.own s).iode1 = p.iodc % 256 ∧ (n'.own s).iodc % 256 = p.iodc % 256
  two : ((n.own s).iode2 = p.iodc % 256 ∨ Has s 2 ops) → (n'.own s).iode2 = p.iodc % 256
  cur : ((n.own s).iode = p.iodc % 256 ∨ Has s 1 ops ∨ Has s 2 ops) → (n'.own s).iode = p.iodc % 256
  three : (n.own s).iode = p.iodc % 256 → ((n.own s).iode3 = p.iodc % 256 ∨ Has s 3 ops) → (n'.own s).iode3 = p.iodc % 256
  flags : ¬ Fired md s n ops → (((n.own s).got1 = true ∨ Has s 1 ops) → (n'.own s).got1 = true) ∧
    (((n.own s).got2 = true ∨ Has s 2 ops) → (n'.own s).got2 = true) ∧
    (((n.own s).got3 = true ∨ Has s 3 ops) → (n'.own s).got3 = true)
  idle : (Has s 1 ops ∨ Has s 2 ops ∨ Has s 3 ops) → ¬ Ready (n'.own s)
  clean : (Clean p (n.own s) ∨ Fired md s n ops) → Clean p (n'.own s)
  exact : Clean p (n.own s) → ∀ A junk m B, ops = A ++ .sfrbx junk m :: B → FromGps s (.sfrbx junk m) →
    ∃ n1 c1 c c2, n.run md A = .ok (n1, c1) ∧ cs = c1 ++ c :: c2 ∧ c1.length = A.length ∧
      (((¬ Ready (gpsUpd m.dwrd (n1.own s)) ∨ ¬ (gpsId m.dwrd = 1 ∨ gpsId m.dwrd = 2 ∨ gpsId m.dwrd = 3)) ∧ c = []) ∨
        ∃ e, c = reportTo n1.ephCbs e ∧ ReportsGps e s p)

theorem has_nil (s : Byte) (k : Nat) : ¬ Has s k [] := by rintro ⟨_, _, h, -⟩; cases h

theorem has_cons {s : Byte} {k : Nat} {op : NavOp} {ops : List NavOp} :
    Has s k (op :: ops) ↔ Has s k [op] ∨ Has s k ops := by
  unfold Has
  constructor
  · rintro ⟨j, m, h, r⟩
    rcases List.mem_cons.1 h with h | h
    · exact .inl ⟨j, m, by rw [h]; simp, r⟩
    · exact .inr ⟨j, m, h, r⟩
  · rintro (⟨j, m, h, r⟩ | ⟨j, m, h, r⟩)
    · exact ⟨j, m, by rw [List.mem_singleton.1 h]; simp, r⟩
    · exact ⟨j, m, List.mem_cons_of_mem _ h, r⟩

theorem quiet_not_has {s : Byte} {op : NavOp} (h : Quiet s op) {k : Nat} (hk : k = 1 ∨ k = 2 ∨ k = 3) : ¬ Has s k [op] := by
  rintro ⟨j, m, hm, h0, hs, hid⟩
  have := List.mem_singleton.1 hm
  subst this
  rcases h with h | ⟨_, _, e, -, -, h⟩
  · rcases h with h | h
    · rw [h0] at h; exact absurd h (by decide)
    · exact h hs
  · cases e
    rw [hid] at h
    simp at h; omega

theorem own_has {s : Byte} {junk : List Byte} {m : Sfrbx} (h0 : m.gnssId = 0) (hs : m.svId = s) {k : Nat} :
    Has s k [.sfrbx junk m] ↔ gpsId m.dwrd = k := by
  constructor
  · rintro ⟨j, m', hm, -, -, h⟩
    have := List.mem_singleton.1 hm
    cases this; exact h
  · intro h; exact ⟨junk, m, by simp, h0, hs, h⟩

theorem Fired.cons {md : Mode} {s : Byte} {n n1 : Nav} {op : NavOp} {c : List NavCall} {ops : List NavOp}
    (h : n.step md op = .ok (n1, c)) (hf : Fired md s n1 ops) : Fired md s n (op :: ops) := by
  obtain ⟨A, j, m, B, n2, cs, rfl, h1, h2, h3⟩ := hf
  exact ⟨op :: A, j, m, B, n2, c :: cs, rfl, h1, by rw [run_cons]; exact ⟨n1, c, cs, h, h2, rfl⟩, h3⟩

theorem Fired.head {md : Mode} {s : Byte} {n : Nav} {op : NavOp} {ops : List NavOp} (hf : Fired md s n [op]) :
    Fired md s n (op :: ops) := by
  obtain ⟨A, j, m, B, n2, cs, h0, h1, h2, h3⟩ := hf
  cases A with
  | nil =>
    cases h0
    exact ⟨[], j, m, ops, n2, cs, rfl, h1, h2, h3⟩
  | cons a A =>
    exact absurd (congrArg List.length h0) (by simp)

theorem Stretch.nil {md : Mode} {s : Byte} {p : GpsParams} {n : Nav} : Stretch md s p n n [] [] where
  one h := h.resolve_right (has_nil _ _)
  two h := h.resolve_right (has_nil _ _)
  cur h := h.resolve_right (fun h => h.elim (has_nil _ _) (has_nil _ _))
  three _ h := h.resolve_right (has_nil _ _)
  flags _ := ⟨fun h => h.resolve_right (has_nil _ _), fun h => h.resolve_right (has_nil _ _), fun h => h.resolve_right (has_nil _ _)⟩
  idle h := by rcases h with h | h | h <;> exact absurd h (has_nil _ _)
  clean h := h.resolve_right (by rintro ⟨A, j, m, B, _, _, h, -⟩; exact absurd (congrArg List.length h) (by simp))
  exact _ A j m B h := absurd (congrArg List.length h) (by simp)

theorem Stretch.cons {md : Mode} {s : Byte} {p : GpsParams} {n n1 n' : Nav} {op : NavOp} {c : List NavCall} {ops : List NavOp}
    {cs : List (List NavCall)} (hstep : n.step md op = .ok (n1, c)) (a : Stretch md s p n n1 [op] [c])
    (b : Stretch md s p n1 n' ops cs) (hidle : ¬ Ready (n1.own s) → (∀ k, (k = 1 ∨ k = 2 ∨ k = 3) → ¬ Has s k ops) → ¬ Ready (n'.own s)) :
    Stretch md s p n n' (op :: ops) (c :: cs) where
  one h := b.one (by
    rcases h with h | h
    · exact .inl (a.one (.inl h))
    · rcases has_cons.1 h with h | h
      · exact .inl (a.one (.inr h))
      · exact .inr h)
  two h := b.two (by
    rcases h with h | h
    · exact .inl (a.two (.inl h))
    · rcases has_cons.1 h with h | h
      · exact .inl (a.two (.inr h))
      · exact .inr h)
  cur h := b.cur (by
    rcases h with h | h | h
    · exact .inl (a.cur (.inl h))
    · rcases has_cons.1 h with h | h
      · exact .inl (a.cur (.inr (.inl h)))
      · exact .inr (.inl h)
    · rcases has_cons.1 h with h | h
      · exact .inl (a.cur (.inr (.inr h)))
      · exact .inr (.inr h))
  three h0 h := b.three (a.cur (.inl h0)) (by
    rcases h with h | h
    · exact .inl (a.three h0 (.inl h))
    · rcases has_cons.1 h with h | h
      · exact .inl (a.three h0 (.inr h))
      · exact .inr h)
  flags hf := by
    obtain ⟨a1, a2, a3⟩ := a.flags (fun h => hf h.head)
    obtain ⟨b1, b2, b3⟩ := b.flags (fun h => hf (h.cons hstep))
    refine ⟨fun h => b1 ?_, fun h => b2 ?_, fun h => b3 ?_⟩ <;> rcases h with h | h
    · exact .inl (a1 (.inl h))
    · rcases has_cons.1 h with h | h
      · exact .inl (a1 (.inr h))
      · exact .inr h
    · exact .inl (a2 (.inl h))
    · rcases has_cons.1 h with h | h
      · exact .inl (a2 (.inr h))
      · exact .inr h
    · exact .inl (a3 (.inl h))
    · rcases has_cons.1 h with h | h
      · exact .inl (a3 (.inr h))
      · exact .inr h
  idle h := by
    by_cases hb : Has s 1 ops ∨ Has s 2 ops ∨ Has s 3 ops
    · exact b.idle hb
    · refine hidle (a.idle ?_) ?_
      · rcases h with h | h | h
        · exact .inl ((has_cons.1 h).resolve_right (fun x => hb (.inl x)))
        · exact .inr (.inl ((has_cons.1 h).resolve_right (fun x => hb (.inr (.inl x)))))
        · exact .inr (.inr ((has_cons.1 h).resolve_right (fun x => hb (.inr (.inr x)))))
      · rintro k (rfl | rfl | rfl) h'
        · exact hb (.inl h')
        · exact hb (.inr (.inl h'))
        · exact hb (.inr (.inr h'))
  clean h := b.clean (by
    rcases h with h | h
    · exact .inl (a.clean (.inl h))
    · obtain ⟨A, j, m, B, n2, cs', h0, h1, h2, h3⟩ := h
      cases A with
      | nil =>
        cases h0
        exact .inl (a.clean (.inr ⟨[], j, m, [], n2, cs', rfl, h1, h2, h3⟩))
      | cons x A =>
        obtain ⟨rfl, rfl⟩ := List.cons.inj h0
        rw [run_cons] at h2
        obtain ⟨n3, c3, cs3, g1, g2, -⟩ := h2
        rw [hstep] at g1
        obtain ⟨rfl, rfl⟩ := Prod.mk.inj (Except.ok.inj g1)
        exact .inr ⟨A, j, m, B, n2, cs3, rfl, h1, g2, h3⟩)
  exact hcl A j m B h0 hg := by
    cases A with
    | nil =>
      obtain ⟨rfl, rfl⟩ := List.cons.inj h0
      obtain ⟨n2, c1, c', c2, g1, g2, g3, g4⟩ := a.exact hcl [] j m [] rfl hg
      have : c1 = [] := List.length_eq_zero_iff.1 g3
      subst this
      obtain ⟨rfl, -⟩ := List.cons.inj g2
      exact ⟨n2, [], c, cs, g1, rfl, rfl, g4⟩
    | cons x A =>
      obtain ⟨rfl, rfl⟩ := List.cons.inj h0
      obtain ⟨n2, c1, c', c2, g1, g2, g3, g4⟩ := b.exact (a.clean (.inl hcl)) A j m B rfl hg
      exact ⟨n2, c :: c1, c', c2, by rw [run_cons]; exact ⟨n1, c, c1, hstep, g1, rfl⟩, by rw [g2]; rfl, by simp [g3], g4⟩

theorem fired_one {md : Mode} {s : Byte} {n : Nav} {junk : List Byte} {m : Sfrbx} (hf : Fired md s n [.sfrbx junk m]) :
    Ready (gpsUpd m.dwrd (n.own s)) ∧ FromGps s (.sfrbx junk m) ∧ (gpsId m.dwrd = 1 ∨ gpsId m.dwrd = 2 ∨ gpsId m.dwrd = 3) := by
  obtain ⟨A, j, m', B, n2, cs, h0, h1, h2, h3, h4⟩ := hf
  cases A with
  | nil =>
    cases h0
    rw [run_nil] at h2
    obtain ⟨rfl, rfl⟩ := h2
    exact ⟨h3, h1, h4⟩
  | cons a A => exact absurd (congrArg List.length h0) (by simp)

/-- An operation that brings nothing. -/
theorem stretch_quiet {md : Mode} {s : Byte} {p : GpsParams} {n n1 : Nav} {op : NavOp} {c : List NavCall} (hq : Quiet s op) (hw : op.WF)
    (h : n.step md op = .ok (n1, c)) : Stretch md s p n n1 [op] [c] := by
  have e := quiet_step hq hw h
  have h1 := quiet_not_has hq (k := 1) (by simp)
  have h2 := quiet_not_has hq (k := 2) (by simp)
  have h3 := quiet_not_has hq (k := 3) (by simp)
  constructor
  · rw [e]; exact fun h => h.resolve_right h1
  · rw [e]; exact fun h => h.resolve_right h2
  · rw [e]; exact fun h => h.resolve_right (fun h => h.elim h1 h2)
  · rw [e]; exact fun _ h => h.resolve_right h3
  · rw [e]; exact fun _ => ⟨fun h => h.resolve_right h1, fun h => h.resolve_right h2, fun h => h.resolve_right h3⟩
  · exact fun h => absurd h (by rintro (h | h | h); exacts [h1 h, h2 h, h3 h])
  · rw [e]
    refine fun h => h.resolve_right fun hf => ?_
    cases op with
    | sfrbx j m =>
      obtain ⟨-, g, r⟩ := fired_one hf
      rcases r with r | r | r
      · exact h1 ((own_has g.1 g.2).2 r)
      · exact h2 ((own_has g.1 g.2).2 r)
      · exact h3 ((own_has g.1 g.2).2 r)
    | _ =>
      obtain ⟨A, j, m', B, n2, cs, h0, -⟩ := hf
      cases A with
      | nil => cases h0
      | cons a A => exact absurd (congrArg List.length h0) (by simp)
  · intro _ A j m B h0 hg
    cases A with
    | cons a A => exact absurd (congrArg List.length h0) (by simp)
    | nil =>
      cases h0
      have hid : ¬ (gpsId m.dwrd = 1 ∨ gpsId m.dwrd = 2 ∨ gpsId m.dwrd = 3) := by
        rintro (r | r | r)
        · exact h1 ((own_has hg.1 hg.2).2 r)
        · exact h2 ((own_has hg.1 hg.2).2 r)
        · exact h3 ((own_has hg.1 hg.2).2 r)
      refine ⟨n, [], c, [], rfl, rfl, rfl, .inl ⟨.inr hid, ?_⟩⟩
      obtain ⟨o, hres, -, g2, -⟩ := gps_step hg.1 hw h
      rcases hres with ⟨-, -, a, -⟩ | ⟨-, a, -⟩
      · rw [g2, a]; rfl
      · exact absurd a hid

/-- A subframe of the data set. -/
theorem stretch_msg {md : Mode} {s : Byte} {p : GpsParams} (hp : p.Ok) {n n1 : Nav} {junk : List Byte} {m : Sfrbx} {c : List NavCall}
    {f : Nat → Nat → Bool} {k : Nat} (h0 : m.gnssId = 0) (hs : m.svId = s) (hk : k = 1 ∨ k = 2 ∨ k = 3) (hd : m.dwrd = subframe f p k)
    (hw : (NavOp.sfrbx junk m).WF) (h : n.step md (.sfrbx junk m) = .ok (n1, c)) : Stretch md s p n n1 [.sfrbx junk m] [c] := by
  have hid : gpsId m.dwrd = k := by rw [hd]; exact sub_id hp f hk
  have mv := gps_moves ⟨h0, hs⟩ hw h (by rw [hid]; exact hk)
  have hio : (n1.own s).iodes = (gpsUpd m.dwrd (n.own s)).iodes := by
    rcases mv with ⟨-, e, -⟩ | ⟨-, -, e, -⟩
    · rw [e]
    · exact e
  have hnr : ¬ Ready (n1.own s) := by
    rcases mv with ⟨r, e, -⟩ | ⟨-, g, -⟩
    · rw [e]; exact r
    · exact not_ready (.inl g.1)
  have hkey : (gpsUpd m.dwrd (n.own s)).key = if k = 1 then ((true, (n.own s).got2, (n.own s).got3), (p.iodc % 256, p.iodc % 256, (n.own s).iode2, (n.own s).iode3, p.iodc % 256))
      else if k = 2 then (((n.own s).got1, true, (n.own s).got3), (p.iodc % 256, (n.own s).iode1, p.iodc % 256, (n.own s).iode3, (n.own s).iodc % 256))
      else (((n.own s).got1, (n.own s).got2, true), ((n.own s).iode, (n.own s).iode1, (n.own s).iode2, (n.own s).iode, (n.own s).iodc % 256)) := by
    rcases hk with rfl | rfl | rfl
    · rw [key_upd1 hid, hd, sub_iode1 hp]; rfl
    · rw [key_upd2 hid, hd, sub_iode2 hp]; rfl
    · rw [key_upd3 hid]; rfl
  have hz : (n1.own s).iodes = (gpsUpd m.dwrd (n.own s)).key.2 := hio
  have hcl : Clean p (n.own s) → Clean p (gpsUpd m.dwrd (n.own s)) := fun hc => by rw [hd]; exact hc.add hk
  have hcl' : (Clean p (n.own s) ∨ Ready (gpsUpd m.dwrd (n.own s))) → Clean p (n1.own s) := by
    rintro (hc | hr)
    · rcases mv with ⟨-, e, -⟩ | ⟨-, g, -⟩
      · rw [e]; exact hcl hc
      · exact Clean.cleared g
    · rcases mv with ⟨r, -⟩ | ⟨-, g, -⟩
      · exact absurd hr r
      · exact Clean.cleared g
  have hfl : ¬ Ready (gpsUpd m.dwrd (n.own s)) → (n1.own s).key = (gpsUpd m.dwrd (n.own s)).key := by
    intro r
    rw [(mv.wait r).1]
  rw [hkey] at hz hfl
  have hfire : Ready (gpsUpd m.dwrd (n.own s)) → Fired md s n [.sfrbx junk m] := fun r =>
    ⟨[], junk, m, [], n, [], rfl, ⟨h0, hs⟩, rfl, r, by rw [hid]; exact hk⟩
  have hash : ∀ i, Has s i [.sfrbx junk m] ↔ k = i := fun i => by rw [own_has h0 hs, hid]
  simp only [Eph.iodes, Prod.ext_iff] at hz
  obtain ⟨z1, z2, z3, z4, z5⟩ := hz
  constructor
  · rw [hash]
    rcases hk with rfl | rfl | rfl <;> simp at z2 z5 ⊢ <;> rw [z2, z5] <;>
      first | exact ⟨rfl, rfl⟩ | exact fun a b => ⟨a, b⟩ | simp
  · rw [hash]
    rcases hk with rfl | rfl | rfl <;> simp at z3 ⊢ <;> rw [z3] <;> simp
  · rw [hash, hash]
    rcases hk with rfl | rfl | rfl <;> simp at z1 ⊢ <;> rw [z1] <;> simp
  · rw [hash]
    intro hi
    rcases hk with rfl | rfl | rfl <;> simp at z4 ⊢ <;> rw [z4] <;> first | exact hi | exact fun h => h | simp [hi]
  · intro hf
    have hk' := hfl (fun r => hf (hfire r))
    rw [hash, hash, hash]
    rcases hk with rfl | rfl | rfl <;> simp only [Eph.key, Prod.ext_iff] at hk' <;> obtain ⟨⟨y1, y2, y3⟩, -⟩ := hk' <;>
      simp at y1 y2 y3 ⊢ <;> rw [y1, y2, y3] <;> simp
  · exact fun _ => hnr
  · rintro (hc | hf)
    · exact hcl' (.inl hc)
    · exact hcl' (.inr (fired_one hf).1)
  · intro hc A j m' B e0 hg
    cases A with
    | cons a A => exact absurd (congrArg List.length e0) (by simp)
    | nil =>
      cases e0
      refine ⟨n, [], c, [], rfl, rfl, rfl, ?_⟩
      rcases mv with ⟨r, -, rc⟩ | ⟨-, -, -, e, he, -, -, -, hP⟩
      · exact .inl ⟨.inl r, rc⟩
      · right
        obtain ⟨P, c1, c2⟩ := hcl hc
        obtain ⟨d1, d2, d3, q1, q2, q3, q4⟩ := hP P c1
        exact ⟨e, he, carries_of_clean hp c2 q1 q2 q3 q4⟩

theorem stretch_run {md : Mode} {s : Byte} {p : GpsParams} (hp : p.Ok) {ops : List NavOp} : ∀ {n n' : Nav} {cs : List (List NavCall)},
    (∀ op ∈ ops, SendsGps s p op ∧ op.WF) → n.run md ops = .ok (n', cs) →
      Stretch md s p n n' ops cs ∧ ((∀ k, (k = 1 ∨ k = 2 ∨ k = 3) → ¬ Has s k ops) → n'.own s = n.own s) := by
  induction ops with
  | nil =>
    intro n n' cs _ h
    rw [run_nil] at h
    obtain ⟨rfl, rfl⟩ := h
    exact ⟨Stretch.nil, fun _ => rfl⟩
  | cons op ops ih =>
    intro n n' cs hu h
    rw [run_cons] at h
    obtain ⟨n1, c, cs', h1, h2, rfl⟩ := h
    obtain ⟨b, b'⟩ := ih (fun o ho => hu o (by simp [ho])) h2
    obtain ⟨hs, hw⟩ := hu op (by simp)
    have a : Stretch md s p n n1 [op] [c] := by
      rcases hs with hq | ⟨j, m, f, k, rfl, g0, gs, gk, gd⟩
      · exact stretch_quiet hq hw h1
      · exact stretch_msg hp g0 gs gk gd hw h1
    refine ⟨Stretch.cons h1 a b (fun hr hn => by rw [b' hn]; exact hr), fun hn => ?_⟩
    have hq : Quiet s op := by
      rcases hs with hq | ⟨j, m, f, k, rfl, g0, gs, gk, gd⟩
      · exact hq
      · refine absurd ((own_has g0 gs).2 ?_) (fun x => hn k gk (has_cons.2 (.inl x)))
        rw [gd]; exact sub_id hp f gk
    rw [b' (fun k hk x => hn k hk (has_cons.2 (.inr x))), quiet_step hq hw h1]

end Ublox.Nav
