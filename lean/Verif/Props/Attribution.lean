import Verif.Lemmas.NavInv
import Verif.Props.NavGps

/-!
# C100: whose ephemeris it is, and who is told
-/

namespace Ublox.Nav

/-- Same satellite, same constellation. -/
def Same (e e' : Eph) : Prop := e'.sat = e.sat ∧ e'.gnssID = e.gnssID

theorem same_sub1 {b : List Byte} {e e' : Eph} (h : sub1 b e = .ok e') : Same e e' := by
  unfold sub1 at h
  iterate 12
    rw [bind_ok] at h
    obtain ⟨_, _, h⟩ := h
  have := Except.ok.inj h
  rw [← this]
  exact ⟨rfl, rfl⟩

theorem same_sub2 {b : List Byte} {e e' : Eph} (h : sub2 b e = .ok e') : Same e e' := by
  unfold sub2 at h
  iterate 10
    rw [bind_ok] at h
    obtain ⟨_, _, h⟩ := h
  have := Except.ok.inj h
  rw [← this]
  exact ⟨rfl, rfl⟩

theorem same_sub3 {b : List Byte} {e e' : Eph} (h : sub3 b e = .ok e') : Same e e' := by
  unfold sub3 at h
  iterate 9
    rw [bind_ok] at h
    obtain ⟨_, _, h⟩ := h
  have := Except.ok.inj h
  rw [← this]
  exact ⟨rfl, rfl⟩

theorem same_finish {t : UTCTime} {e : Eph} {o : GpsOut} (h : gpsFinish t e = .ok o) :
    o.reports = [] ∨ ∃ r, o.reports = [r] ∧ Same e r := by
  unfold gpsFinish at h
  split at h
  · rw [bind_ok] at h
    obtain ⟨toe, h1, h⟩ := h
    rw [bind_ok] at h
    obtain ⟨toc, h2, h⟩ := h
    have := Except.ok.inj h
    rw [← this]
    exact .inr ⟨_, rfl, rfl, rfl⟩
  · have := Except.ok.inj h
    rw [← this]
    exact .inl rfl

theorem same_gps {junk d : List Byte} {t : UTCTime} {e : Eph} {o : GpsOut} (h : decodeGPS junk t d e = .ok o) :
    o.reports = [] ∨ ∃ r, o.reports = [r] ∧ r.sat = e.sat ∧ r.gnssID = 0 := by
  unfold decodeGPS at h
  dsimp only at h
  rw [bind_ok] at h
  obtain ⟨sf, -, h⟩ := h
  rw [bind_ok] at h
  obtain ⟨b5, -, h⟩ := h
  have key : ∀ {e1 : Eph}, Same { e with gnssID := 0 } e1 → gpsFinish t e1 = .ok o →
      o.reports = [] ∨ ∃ r, o.reports = [r] ∧ r.sat = e.sat ∧ r.gnssID = 0 := by
    intro e1 hs h
    rcases same_finish h with h | ⟨r, h, hr⟩
    · exact .inl h
    · exact .inr ⟨r, h, hr.1.trans hs.1, hr.2.trans hs.2⟩
  split at h
  · have := Except.ok.inj h
    rw [← this]; exact .inl rfl
  · split at h
    · rw [bind_ok] at h
      obtain ⟨e1, h1, h⟩ := h
      exact key (same_sub1 h1) h
    · rw [bind_ok] at h
      obtain ⟨e1, h1, h⟩ := h
      exact key (same_sub2 h1) h
    · rw [bind_ok] at h
      obtain ⟨e1, h1, h⟩ := h
      exact key (same_sub3 h1) h
    · have := Except.ok.inj h
      rw [← this]; exact .inl rfl

theorem same_inav {b : List Byte} {e e' : Eph} {g : Bool} (h : galInav b e = .ok (e', g)) : Same e e' := by
  unfold galInav at h
  iterate 40
    rw [bind_ok] at h
    obtain ⟨_, _, h⟩ := h
  dsimp only at h
  split at h
  · have := (Prod.mk.inj (Except.ok.inj h)).1
    rw [← this]
    exact ⟨rfl, rfl⟩
  split at h
  · have := (Prod.mk.inj (Except.ok.inj h)).1
    rw [← this]
    exact ⟨rfl, rfl⟩
  split at h
  · have := (Prod.mk.inj (Except.ok.inj h)).1
    rw [← this]
    exact ⟨rfl, rfl⟩
  · iterate 4
      rw [bind_ok] at h
      obtain ⟨_, -, h⟩ := h
    have := (Prod.mk.inj (Except.ok.inj h)).1
    rw [← this]
    exact ⟨rfl, rfl⟩

theorem same_galileo {md : Mode} {d row : List Byte} {e : Eph} {o : GalOut} (h : decodeGalileo md d row e = .ok o) :
    o.reports = [] ∨ ∃ r, o.reports = [r] ∧ Same e r := by
  have triv : ∀ {row : List Byte} {b : Bool}, (Except.ok ⟨row, e, [], b⟩ : M GalOut) = .ok o →
      o.reports = [] ∨ ∃ r, o.reports = [r] ∧ Same e r := by
    intro row b h
    have := Except.ok.inj h
    rw [← this]; exact .inl rfl
  unfold decodeGalileo at h
  iterate 5
    rw [bind_ok] at h
    obtain ⟨_, -, h⟩ := h
  split at h
  · exact triv h
  split at h
  · exact triv h
  iterate 4
    rw [bind_ok] at h
    obtain ⟨_, -, h⟩ := h
  split at h
  · exact triv h
  rw [bind_ok] at h
  obtain ⟨_, -, h⟩ := h
  split at h
  · exact triv h
  split at h
  · cases h
  unfold galAccept at h
  iterate 5
    rw [bind_ok] at h
    obtain ⟨_, -, h⟩ := h
  split at h
  · exact triv h
  rw [bind_ok] at h
  obtain ⟨⟨e1, g⟩, h1, h⟩ := h
  have hs := same_inav h1
  dsimp only at h
  split at h
  · have := Except.ok.inj h
    rw [← this]; exact .inl rfl
  · rw [bind_ok] at h
    obtain ⟨_, -, h⟩ := h
    have := Except.ok.inj h
    rw [← this]
    exact .inr ⟨e1, rfl, hs⟩

theorem same_glonass {md : Mode} {t : UTCTime} {gn sv fr : Byte} {d : List Byte} {g : GEph} {o : GloOut}
    (h : decodeGlonass md t gn sv fr d g = .ok o) :
    o.reports = [] ∨ ∃ r, o.reports = [r] ∧ r.sat = sv ∧ r.gnssID = gn ∧ r.frq = (fr.toNat : Int) - 7 := by
  unfold decodeGlonass at h
  split at h
  · have e := Except.ok.inj h
    rw [← e]; exact .inl rfl
  split at h
  · have e := Except.ok.inj h
    rw [← e]; exact .inl rfl
  · rw [bind_ok] at h
    obtain ⟨b, -, h⟩ := h
    rw [bind_ok] at h
    obtain ⟨good, -, h⟩ := h
    split at h
    · have e := Except.ok.inj h
      rw [← e]; exact .inl rfl
    · rw [bind_ok] at h
      obtain ⟨b12, -, h⟩ := h
      rw [bind_ok] at h
      obtain ⟨b13, -, h⟩ := h
      dsimp only at h
      rw [bind_ok] at h
      obtain ⟨⟨g3, done⟩, h1, h⟩ := h
      dsimp only at h
      split at h
      · have e := Except.ok.inj h
        rw [← e]; exact .inl rfl
      · have e := Except.ok.inj h
        rw [← e]
        exact .inr ⟨_, rfl, rfl, rfl, rfl⟩

/-! ### The report of one message -/

/-- What handling the message `m` may cause when `k` ephemeris and `l` GLONASS callbacks are registered: nothing; or one
ephemeris, of the satellite and constellation that sent `m`, handed to each callback of the right kind once, in the order of
registration. -/
def Attributed (k l : Nat) (m : Sfrbx) (c : List NavCall) : Prop :=
  c = [] ∨
  (∃ e : Eph, e.sat = m.svId ∧ e.gnssID = m.gnssId ∧ (m.gnssId = 0 ∨ m.gnssId = 2) ∧ c = (List.range k).map fun i => .eph i e) ∨
  (∃ g : GEph, g.sat = m.svId ∧ g.gnssID = m.gnssId ∧ m.gnssId = 6 ∧ g.frq = (m.freqId.toNat : Int) - 7 ∧
    c = (List.range l).map fun i => .geph i g)

theorem attributed_ephTail {md : Mode} {junk : List Byte} {n : Nav} {m : Sfrbx} {o : NavOut} {ephs : List Eph} {i : Nat}
    (h : (match ephs[i]? with
      | none => .error .oobRead
      | some e0 =>
        let e := { e0 with sat := m.svId, gnssID := m.gnssId }
        if m.gnssId = 0 then do
          let o ← decodeGPS junk n.gpsTime m.dwrd e
          .ok ⟨{ n with eph := ephs.set i o.eph, gpsTime := o.gpsTime }, ephCalls n.ephCbs o.reports, some o.ret⟩
        else if m.gnssId = 2 then do
          let o ← decodeGalileo md m.dwrd (n.gal m.svId.toNat) e
          .ok ⟨{ n with eph := ephs.set i o.eph,
                        gal := fun s => if s = m.svId.toNat then o.row else n.gal s },
               ephCalls n.ephCbs o.reports, some o.ret⟩
        else do
          offEnd md
          .ok ⟨{ n with eph := ephs.set i e }, [], none⟩ : M NavOut) = .ok o) :
    Attributed n.ephCbs n.gephCbs m o.calls ∧ o.nav.ephCbs = n.ephCbs ∧ o.nav.gephCbs = n.gephCbs := by
  cases hi : ephs[i]? with
  | none => rw [hi] at h; cases h
  | some e0 =>
    rw [hi] at h
    dsimp only at h
    split at h
    · rename_i h0
      rw [bind_ok] at h
      obtain ⟨r, hr, h⟩ := h
      have e := Except.ok.inj h
      rw [← e]
      refine ⟨?_, rfl, rfl⟩
      rcases same_gps hr with hr | ⟨r', hr, a, b⟩
      · left; dsimp only; rw [hr]; rfl
      · right; left
        refine ⟨r', a, b.trans h0.symm, .inl h0, ?_⟩
        dsimp only; rw [hr]; simp [ephCalls]
    · split at h
      · rename_i h0
        rw [bind_ok] at h
        obtain ⟨r, hr, h⟩ := h
        have e := Except.ok.inj h
        rw [← e]
        refine ⟨?_, rfl, rfl⟩
        rcases same_galileo hr with hr | ⟨r', hr, a, b⟩
        · left; dsimp only; rw [hr]; rfl
        · right; left
          refine ⟨r', a, b, .inr h0, ?_⟩
          dsimp only; rw [hr]; simp [ephCalls]
      · rw [bind_ok] at h
        obtain ⟨_, -, h⟩ := h
        have e := Except.ok.inj h
        rw [← e]
        exact ⟨.inl rfl, rfl, rfl⟩

theorem attributed_gloTail {md : Mode} {n : Nav} {m : Sfrbx} {o : NavOut} {gephs : List GEph} {i : Nat} (h6 : m.gnssId = 6)
    (h : (match gephs[i]? with
      | none => .error .oobRead
      | some g => do
        let o ← decodeGlonass md n.gpsTime m.gnssId m.svId m.freqId m.dwrd g
        .ok ⟨{ n with geph := gephs.set i o.geph }, gephCalls n.gephCbs o.reports, some o.ret⟩ : M NavOut) = .ok o) :
    Attributed n.ephCbs n.gephCbs m o.calls ∧ o.nav.ephCbs = n.ephCbs ∧ o.nav.gephCbs = n.gephCbs := by
  cases hi : gephs[i]? with
  | none => rw [hi] at h; cases h
  | some e0 =>
    rw [hi] at h
    dsimp only at h
    rw [bind_ok] at h
    obtain ⟨r, hr, h⟩ := h
    have e := Except.ok.inj h
    rw [← e]
    refine ⟨?_, rfl, rfl⟩
    rcases same_glonass hr with hr | ⟨r', hr, a, b, c⟩
    · left; dsimp only; rw [hr]; rfl
    · right; right
      refine ⟨r', a, b, h6, c, ?_⟩
      dsimp only; rw [hr]; simp [gephCalls]

theorem attributed_convert {md : Mode} {junk : List Byte} {n : Nav} {m : Sfrbx} {o : NavOut}
    (h : convertUBX md junk n m = .ok o) :
    Attributed n.ephCbs n.gephCbs m o.calls ∧ o.nav.ephCbs = n.ephCbs ∧ o.nav.gephCbs = n.gephCbs := by
  unfold convertUBX at h
  split at h
  · rename_i h6
    unfold convertGlo at h
    cases hfl : findLast m.svId (n.geph.map (·.sat)) 0 none with
    | some i => rw [hfl] at h; exact attributed_gloTail h6 h
    | none =>
      rw [hfl] at h
      exact attributed_gloTail (gephs := n.geph ++ [{ GEph.fresh with sat := m.svId }]) h6 h
  · unfold convertEph at h
    cases hfl : findLast m.svId (n.eph.map (·.sat)) 0 none with
    | some i => rw [hfl] at h; exact attributed_ephTail h
    | none =>
      rw [hfl] at h
      exact attributed_ephTail (ephs := n.eph ++ [Eph.fresh]) h

/-! ### Whole histories -/

/-- How many ephemeris callbacks were registered. -/
def ephRegs : List NavOp → Nat
  | [] => 0
  | .addEphCb :: t => ephRegs t + 1
  | _ :: t => ephRegs t

/-- How many GLONASS callbacks were registered. -/
def gephRegs : List NavOp → Nat
  | [] => 0
  | .addGephCb :: t => gephRegs t + 1
  | _ :: t => gephRegs t

/-- What an operation may cause: registrations and time updates cause no calls. -/
def Allowed (k l : Nat) (op : NavOp) (c : List NavCall) : Prop :=
  match op with
  | .sfrbx _ m => Attributed k l m c
  | _ => c = []

theorem allowed_step {md : Mode} {n n' : Nav} {op : NavOp} {c : List NavCall} (h : n.step md op = .ok (n', c)) :
    Allowed n.ephCbs n.gephCbs op c ∧ n'.ephCbs = n.ephCbs + ephRegs [op] ∧ n'.gephCbs = n.gephCbs + gephRegs [op] := by
  cases op with
  | setTime t =>
    obtain ⟨e1, e2⟩ := Prod.mk.inj (Except.ok.inj h)
    rw [← e1, ← e2]; exact ⟨rfl, rfl, rfl⟩
  | addEphCb =>
    obtain ⟨e1, e2⟩ := Prod.mk.inj (Except.ok.inj h)
    rw [← e1, ← e2]; exact ⟨rfl, rfl, rfl⟩
  | addGephCb =>
    obtain ⟨e1, e2⟩ := Prod.mk.inj (Except.ok.inj h)
    rw [← e1, ← e2]; exact ⟨rfl, rfl, rfl⟩
  | sfrbx junk m =>
    unfold Nav.step at h
    rw [bind_ok] at h
    obtain ⟨o, ho, h⟩ := h
    obtain ⟨e1, e2⟩ := Prod.mk.inj (Except.ok.inj h)
    rw [← e1, ← e2]
    exact attributed_convert ho

theorem ephRegs_cons (op : NavOp) (t : List NavOp) : ephRegs (op :: t) = ephRegs [op] + ephRegs t := by
  cases op <;> simp [ephRegs]; omega

theorem gephRegs_cons (op : NavOp) (t : List NavOp) : gephRegs (op :: t) = gephRegs [op] + gephRegs t := by
  cases op <;> simp [gephRegs]; omega

theorem allowed_run {md : Mode} (ops : List NavOp) : ∀ {n n' : Nav} {cs : List (List NavCall)},
    n.run md ops = .ok (n', cs) → cs.length = ops.length ∧ ∀ k op c, ops[k]? = some op → cs[k]? = some c →
      Allowed (n.ephCbs + ephRegs (ops.take k)) (n.gephCbs + gephRegs (ops.take k)) op c := by
  induction ops with
  | nil =>
    intro n n' cs h
    rw [run_nil] at h
    rw [h.2]
    exact ⟨rfl, fun k op c h => by simp at h⟩
  | cons op ops ih =>
    intro n n' cs h
    rw [run_cons] at h
    obtain ⟨n1, c, cs', h1, h2, h3⟩ := h
    obtain ⟨a, b1, b2⟩ := allowed_step h1
    obtain ⟨l, r⟩ := ih h2
    rw [h3]
    refine ⟨by simp [l], fun k op' c' e1 e2 => ?_⟩
    cases k with
    | zero =>
      simp only [List.getElem?_cons_zero, Option.some.injEq] at e1 e2
      rw [← e1, ← e2]
      exact a
    | succ k =>
      simp only [List.getElem?_cons_succ] at e1 e2
      have := r k op' c' e1 e2
      rw [b1, b2] at this
      rw [List.take_succ_cons, ephRegs_cons, gephRegs_cons, ← Nat.add_assoc, ← Nat.add_assoc]
      exact this

/-- **C100.** In every history, every message causes no call at all or one report: an ephemeris that names the satellite and
the constellation (and, for GLONASS, the frequency channel) of that very message, handed exactly once, in the order of
registration, to each of the callbacks of its kind registered up to then. Nothing else causes calls. -/
theorem c100_attributed (md : Mode) (ops : List NavOp) (n : Nav) (cs : List (List NavCall))
    (h : Nav.init.run md ops = .ok (n, cs)) :
    cs.length = ops.length ∧ ∀ (k : Nat) (op : NavOp) (c : List NavCall), ops[k]? = some op → cs[k]? = some c →
      match op with
      | .sfrbx _ m => Attributed (ephRegs (ops.take k)) (gephRegs (ops.take k)) m c
      | _ => c = [] := by
  obtain ⟨l, r⟩ := allowed_run ops h
  refine ⟨l, fun k op c e1 e2 => ?_⟩
  have := r k op c e1 e2
  rw [show Nav.init.ephCbs = 0 from rfl, show Nav.init.gephCbs = 0 from rfl, Nat.zero_add, Nat.zero_add] at this
  exact this

open Data in
/-- A history with reports: two callbacks, two satellites; each report goes to both. -/
example : (Nav.init.run .strict [.addEphCb, gps 7 gps1, .addEphCb, gps 8 gps1, gps 7 gps2, gps 8 gps2, gps 8 gps3, gps 7 gps3]).map
      (fun r => r.2.map fun c => c.map fun | .eph i e => (i, e.sat.toNat, e.gnssID.toNat) | .geph i g => (i, g.sat.toNat, 6)) =
    .ok [[], [], [], [], [], [], [(0, 8, 0), (1, 8, 0)], [(0, 7, 0), (1, 7, 0)]] := by
  decide +kernel

end Ublox.Nav
