import Mathlib.Data.List.Dedup
import Mathlib.Data.List.Perm.Subperm
import Verif.Props.DeviceCalls
import Verif.Lemmas.NavEntry

/-!
# C126: memory does not grow with what is received
-/

namespace Ublox.Nav

/-- The satellite numbers of the stored records after one message: unchanged, or one new number at the end. -/
theorem sats_set {α : Type} (f : α → Byte) (s : Byte) (pre post : List α) (x y : α) (hx : f x = s) (hy : f y = s) :
    ((pre ++ x :: post).set pre.length y).map f = (pre ++ x :: post).map f := by
  rw [set_mid]; simp [hx, hy]

/-- How the numbers of the records change: a number that is not there is appended, nothing else. -/
def addSat (s : Byte) (l : List Byte) : List Byte := if s ∈ l then l else l ++ [s]

theorem addSat_nodup {s : Byte} {l : List Byte} (h : l.Nodup) : (addSat s l).Nodup := by
  unfold addSat
  split
  · exact h
  · next hs => rw [List.nodup_append]; exact ⟨h, by simp, fun a ha b hb => by
      rw [List.mem_singleton.1 hb]; exact fun e => hs (e ▸ ha)⟩

theorem mem_addSat {s x : Byte} {l : List Byte} : x ∈ addSat s l ↔ x ∈ l ∨ x = s := by
  unfold addSat
  split
  · next h => exact ⟨Or.inl, fun a => a.elim id fun e => e ▸ h⟩
  · simp

theorem convertGlo_sats {md : Mode} {n : Nav} {m : Sfrbx} {o : NavOut} (h : convertGlo md n m = .ok o) :
    o.nav.geph.map (·.sat) = addSat m.svId (n.geph.map (·.sat)) ∧ o.nav.eph = n.eph := by
  unfold convertGlo at h
  rcases findLast_gen GEph.sat m.svId n.geph 0 none with ⟨h1, h2⟩ | ⟨pre, x, post, h1, h2, h3, h4⟩
  · rw [h1] at h
    dsimp only at h
    have hg : (n.geph ++ [{ GEph.fresh with sat := m.svId }])[n.geph.length]? = some { GEph.fresh with sat := m.svId } := by simp
    rw [hg] at h
    dsimp only at h
    rw [bind_ok] at h
    obtain ⟨r, hr, h⟩ := h
    have e := Except.ok.inj h
    rw [← e]
    refine ⟨?_, rfl⟩
    have hs := (decodeGlonass_sat (g := { GEph.fresh with sat := m.svId }) rfl hr).1
    have hn : m.svId ∉ n.geph.map (·.sat) := by
      intro hm
      obtain ⟨y, hy, e⟩ := List.mem_map.1 hm
      exact h2 y hy e
    show List.map GEph.sat (List.set _ _ _) = _
    rw [sats_set GEph.sat m.svId n.geph [] _ _ rfl hs]
    unfold addSat
    rw [if_neg hn]; simp
  · rw [h4, Nat.zero_add] at h
    dsimp only at h
    rw [h1] at h
    have hg : (pre ++ x :: post)[pre.length]? = some x := by simp
    rw [hg] at h
    dsimp only at h
    rw [bind_ok] at h
    obtain ⟨r, hr, h⟩ := h
    have e := Except.ok.inj h
    rw [← e]
    refine ⟨?_, rfl⟩
    have hs := (decodeGlonass_sat h2 hr).1
    show List.map GEph.sat (List.set _ _ _) = _
    rw [sats_set GEph.sat m.svId pre post _ _ h2 hs, h1]
    unfold addSat
    rw [if_pos (List.mem_map.2 ⟨x, by simp, h2⟩)]

theorem convertEph_sats {md : Mode} {junk : List Byte} {n : Nav} {m : Sfrbx} {o : NavOut} (h : convertEph md junk n m = .ok o) :
    o.nav.eph.map (·.sat) = addSat m.svId (n.eph.map (·.sat)) ∧ o.nav.geph = n.geph := by
  have aux : ∀ (ephs : List Eph) (i : Nat) (e0 : Eph), ephs[i]? = some e0 →
      (∀ y : Eph, y.sat = m.svId → (ephs.set i y).map (·.sat) = addSat m.svId (n.eph.map (·.sat))) →
      (match ephs[i]? with
        | none => .error .oobRead
        | some e0 =>
          let e := { e0 with sat := m.svId, gnssID := m.gnssId }
          if m.gnssId = 0 then do
            let o ← decodeGPS junk n.gpsTime m.dwrd e
            .ok ⟨{ n with eph := ephs.set i o.eph, gpsTime := o.gpsTime }, ephCalls n.ephCbs o.reports, some o.ret⟩
          else if m.gnssId = 2 then do
            let o ← decodeGalileo md m.dwrd (n.gal m.svId.toNat) e
            .ok ⟨{ n with eph := ephs.set i o.eph,
                          gal := fun s => if s = m.svId.toNat then o.row else n.gal s },
                 ephCalls n.ephCbs o.reports, some o.ret⟩
          else do
            offEnd md
            .ok ⟨{ n with eph := ephs.set i e }, [], none⟩ : M NavOut) = .ok o →
      o.nav.eph.map (·.sat) = addSat m.svId (n.eph.map (·.sat)) ∧ o.nav.geph = n.geph := by
    intro ephs i e0 hi hset h
    rw [hi] at h
    dsimp only at h
    split at h
    · rw [bind_ok] at h
      obtain ⟨a, h1, h⟩ := h
      have e := Except.ok.inj h
      rw [← e]
      exact ⟨hset _ (decodeGPS_sat h1), rfl⟩
    split at h
    · rw [bind_ok] at h
      obtain ⟨a, h1, h⟩ := h
      have e := Except.ok.inj h
      rw [← e]
      exact ⟨hset _ (decodeGalileo_same h1).1.1, rfl⟩
    · rw [bind_ok] at h
      obtain ⟨a, h1, h⟩ := h
      have e := Except.ok.inj h
      rw [← e]
      exact ⟨hset _ rfl, rfl⟩
  unfold convertEph at h
  rcases findLast_gen Eph.sat m.svId n.eph 0 none with ⟨h1, h2⟩ | ⟨pre, x, post, h1, h2, h3, h4⟩
  · rw [h1] at h
    dsimp only at h
    refine aux (n.eph ++ [Eph.fresh]) n.eph.length Eph.fresh (by simp) ?_ h
    intro y hy
    rw [set_mid]
    have hn : m.svId ∉ n.eph.map (·.sat) := by
      intro hm
      obtain ⟨y, hy, e⟩ := List.mem_map.1 hm
      exact h2 y hy e
    unfold addSat
    rw [if_neg hn]; simp [hy]
  · rw [h4, Nat.zero_add] at h
    dsimp only at h
    refine aux n.eph pre.length x (by rw [h1]; simp) ?_ h
    intro y hy
    rw [h1, sats_set Eph.sat m.svId pre post _ _ h2 hy]
    unfold addSat
    rw [if_pos (List.mem_map.2 ⟨x, by simp, h2⟩)]

/-- The satellite numbers of the SFRBX messages of GLONASS (`glo`) or of the other systems in a history. -/
def satsHeard (glo : Bool) (ops : List NavOp) : List Byte :=
  ops.filterMap fun
    | .sfrbx _ m => if (m.gnssId = GLONASS) = glo then some m.svId else none
    | _ => none

theorem run_sats {md : Mode} : ∀ {ops : List NavOp} {n n' : Nav} {cs : List (List NavCall)}, n.run md ops = .ok (n', cs) →
    (n.eph.map (·.sat)).Nodup → (n.geph.map (·.sat)).Nodup →
    (n'.eph.map (·.sat)).Nodup ∧ (n'.geph.map (·.sat)).Nodup ∧
    (∀ s, s ∈ n'.eph.map (·.sat) ↔ s ∈ n.eph.map (·.sat) ∨ s ∈ satsHeard false ops) ∧
    (∀ s, s ∈ n'.geph.map (·.sat) ↔ s ∈ n.geph.map (·.sat) ∨ s ∈ satsHeard true ops)
  | [], n, n', cs, h, h1, h2 => by
    obtain ⟨rfl, rfl⟩ := Nav.run_nil.1 h
    exact ⟨h1, h2, by simp [satsHeard], by simp [satsHeard]⟩
  | op :: ops, n, n', cs, h, h1, h2 => by
    obtain ⟨n1, c, cs', hs, hr, -⟩ := Nav.run_cons.1 h
    cases op with
    | sfrbx junk m =>
      unfold Nav.step at hs
      rw [bind_ok] at hs
      obtain ⟨o, ho, hs⟩ := hs
      obtain ⟨rfl, rfl⟩ := Prod.mk.inj (Except.ok.inj hs)
      unfold convertUBX at ho
      by_cases hg : m.gnssId = GLONASS
      · rw [if_pos hg] at ho
        obtain ⟨k1, k2⟩ := convertGlo_sats ho
        obtain ⟨a, b, c, d⟩ := run_sats hr (by rw [k2]; exact h1) (by rw [k1]; exact addSat_nodup h2)
        refine ⟨a, b, fun s => ?_, fun s => ?_⟩
        · rw [c, k2]; simp [satsHeard, hg]
        · rw [d, k1, mem_addSat]; simp [satsHeard, hg, or_assoc]
      · rw [if_neg hg] at ho
        obtain ⟨k1, k2⟩ := convertEph_sats ho
        obtain ⟨a, b, c, d⟩ := run_sats hr (by rw [k1]; exact addSat_nodup h1) (by rw [k2]; exact h2)
        refine ⟨a, b, fun s => ?_, fun s => ?_⟩
        · rw [c, k1, mem_addSat]; simp [satsHeard, hg, or_assoc]
        · rw [d, k2]; simp [satsHeard, hg]
    | setTime t =>
      obtain ⟨rfl, rfl⟩ := Prod.mk.inj (Except.ok.inj hs)
      obtain ⟨a, b, c, d⟩ := run_sats hr h1 h2
      exact ⟨a, b, c, d⟩
    | addEphCb =>
      obtain ⟨rfl, rfl⟩ := Prod.mk.inj (Except.ok.inj hs)
      obtain ⟨a, b, c, d⟩ := run_sats hr h1 h2
      exact ⟨a, b, c, d⟩
    | addGephCb =>
      obtain ⟨rfl, rfl⟩ := Prod.mk.inj (Except.ok.inj hs)
      obtain ⟨a, b, c, d⟩ := run_sats hr h1 h2
      exact ⟨a, b, c, d⟩

theorem byte_nodup {l : List Byte} (h : l.Nodup) : l.length ≤ 256 := by
  have h1 : (l.map BitVec.toNat).Nodup := h.map fun a b e => BitVec.eq_of_toNat_eq e
  have h2 : l.map BitVec.toNat ⊆ List.range 256 := by
    intro x hx
    obtain ⟨b, -, rfl⟩ := List.mem_map.1 hx
    exact List.mem_range.2 b.isLt
  simpa using (h1.subperm h2).length_le

/-- C126. After any history the ephemeris decoder holds one record for each satellite number heard, never more, so at most 256
of either kind, however many messages came. -/
theorem c126_records {md : Mode} {ops : List NavOp} {n : Nav} {cs : List (List NavCall)} (h : Nav.init.run md ops = .ok (n, cs)) :
    (n.eph.map (·.sat)).Perm (satsHeard false ops).dedup ∧ (n.geph.map (·.sat)).Perm (satsHeard true ops).dedup ∧
    n.eph.length ≤ 256 ∧ n.geph.length ≤ 256 := by
  obtain ⟨a, b, c, d⟩ := run_sats h List.nodup_nil List.nodup_nil
  have e1 : Nav.init.eph.map (·.sat) = [] := rfl
  have e2 : Nav.init.geph.map (·.sat) = [] := rfl
  rw [e1] at c
  rw [e2] at d
  refine ⟨?_, ?_, by simpa using byte_nodup a, by simpa using byte_nodup b⟩
  · rw [List.perm_ext_iff_of_nodup a (List.nodup_dedup _)]
    intro s; rw [c, List.mem_dedup]; simp
  · rw [List.perm_ext_iff_of_nodup b (List.nodup_dedup _)]
    intro s; rw [d, List.mem_dedup]; simp

end Ublox.Nav

namespace Ublox.Dev
open Nav (Mode)

/-- C126. Whatever a constructed device has received, over the serial line and the RTK link, in whatever pieces: its message
buffers have the size they were made with, it holds at most 256 records of either kind, and as many listeners and callbacks as
calls have registered. -/
theorem c126_device {md : Mode} {d : Dev} {evs : List Ev} {es : List Eff} (h : Reach md d evs es) :
    d.ubx.inMsg.length = 2048 ∧ d.ubx.outMsg.length = 2048 ∧ d.ubx.modName.length = 10 ∧
    d.rtcm.inBuf.length = 1024 ∧ d.dbg.inBuf.length = 1024 ∧
    d.nav.eph.length ≤ 256 ∧ d.nav.geph.length ≤ 256 ∧
    d.ubx.listeners.length = 1 + (registered evs).length ∧ d.rtcm.listeners.length = baseCalls evs ∧
    d.nav.ephCbs = ephCallbacks evs ∧ d.nav.gephCbs = gephCallbacks evs := by
  have hi := h.inv
  obtain ⟨_, hu⟩ := hi.ubx
  obtain ⟨_, hr⟩ := hi.rtcm
  obtain ⟨_, hg⟩ := hi.dbg
  obtain ⟨ops, cs, -, hn⟩ := hi.nav
  obtain ⟨-, -, n1, n2⟩ := Nav.c126_records hn
  refine ⟨hu.inv.wf.inLen, hu.inv.wf.outLen, hu.inv.wf.modLen, hr.inv.len, hg.inv.len, n1, n2, ?_, ?_, h.cbs.1, h.cbs.2⟩
  · rw [hi.listeners]; simp [Nat.add_comm]
  · rw [hi.rlisteners]; simp

/-- A case: four GLONASS messages of two satellites leave two records. -/
def exSats : List Byte := [3, 5, 3, 3]
example : (exRun [.listen 5, .gephCb, .rx (exSats.flatMap fun s => ubxFrame 0x02 0x13 (6 :: s :: List.replicate 46 0))]).map
    (fun x => (x.1.nav.geph.map (·.sat), x.1.nav.eph.length, x.1.ubx.listeners.length, x.1.nav.gephCbs)) = some ([3, 5], 0, 2, 1) := by
  decide +kernel

end Ublox.Dev
