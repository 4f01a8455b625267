import Verif.Lemmas.NavGpsLoss
import Verif.Props.NavGpsLive

/-!
# C134: lost, repeated and reordered subframes delay a GPS data set but do not prevent it
-/

namespace Ublox.Nav

attribute [local irreducible] gpsU gpsS gpsU32 gpsS32 subframe

theorem ready_own {e : Eph} {k : Nat} (g1 : e.got1 = true) (g2 : e.got2 = true) (g3 : e.got3 = true) (h1 : e.iode1 = k ∧ e.iodc % 256 = k)
    (h2 : e.iode2 = k) (h3 : e.iode3 = k) (h : e.iode = k) : Ready e :=
  ⟨g1, g2, g3, by rw [h1.1, h2], by rw [h1.1, h3], by rw [h, h1.2]⟩

/-- **C134**: after any history `pre`, GPS satellite `s` transmits the parameters `p` (stretches `A`, `B`, `C`: any interleaving of its
subframes, in any order, with losses and repetitions, and of anything else that brings no other orbit data for the satellite).  Once `A` has
brought subframes 1 and 2, in any order, and `B` subframe 3, then in any further stretch `C` in which each of the three arrives at least
once, some message makes every callback registered by then be called with exactly the parameters `p`, and no message of the satellite in `C`
reports anything else. -/
theorem c134 (md : Mode) (s : Byte) (p : GpsParams) (hp : p.Ok) (pre A B C : List NavOp) (n : Nav) (cs : List (List NavCall))
    (hA : ∀ op ∈ A, SendsGps s p op ∧ op.WF) (hB : ∀ op ∈ B, SendsGps s p op ∧ op.WF) (hC : ∀ op ∈ C, SendsGps s p op ∧ op.WF)
    (a1 : Has s 1 A) (a2 : Has s 2 A) (b3 : Has s 3 B) (c1 : Has s 1 C) (c2 : Has s 2 C) (c3 : Has s 3 C)
    (h : Nav.init.run md (pre ++ (A ++ (B ++ C))) = .ok (n, cs)) :
    ∃ cs0 csC, cs = cs0 ++ csC ∧ cs0.length = (pre ++ A ++ B).length ∧
      (∃ i op e, C[i]? = some op ∧ FromGps s op ∧ csC[i]? = some (reportTo (ephCbCount (pre ++ A ++ B ++ C.take i)) e) ∧
        ReportsGps e s p) ∧
      ∀ i op c, C[i]? = some op → FromGps s op → csC[i]? = some c →
        c = [] ∨ ∃ e, c = reportTo (ephCbCount (pre ++ A ++ B ++ C.take i)) e ∧ ReportsGps e s p := by
  rw [run_append] at h
  obtain ⟨n0, cs0, _, h0, h, rfl⟩ := h
  rw [run_append] at h
  obtain ⟨n1, cs1, _, h1, h, rfl⟩ := h
  rw [run_append] at h
  obtain ⟨n2, cs2, csC, h2, h3, rfl⟩ := h
  obtain ⟨SA, -⟩ := stretch_run hp hA h1
  obtain ⟨SB, -⟩ := stretch_run hp hB h2
  obtain ⟨SC, -⟩ := stretch_run hp hC h3
  have i1 := SA.one (.inr a1)
  have i2 := SA.two (.inr a2)
  have i0 := SA.cur (.inr (.inl a1))
  have j1 := SB.one (.inl i1)
  have j2 := SB.two (.inl i2)
  have j0 := SB.cur (.inl i0)
  have j3 := SB.three i0 (.inr b3)
  have k1 := SC.one (.inl j1)
  have k2 := SC.two (.inl j2)
  have k0 := SC.cur (.inl j0)
  have k3 := SC.three j0 (.inl j3)
  -- something was reported in `A` or `B`, so from then on the collection is of this data set
  have hcl : Clean p (n2.own s) := by
    by_cases fA : Fired md s n0 A
    · exact SB.clean (.inl (SA.clean (.inr fA)))
    by_cases fB : Fired md s n1 B
    · exact SB.clean (.inr fB)
    exfalso
    obtain ⟨f1, f2, -⟩ := SA.flags fA
    obtain ⟨g1, g2, g3⟩ := SB.flags fB
    exact SB.idle (.inr (.inr b3)) (ready_own (g1 (.inl (f1 (.inr a1)))) (g2 (.inl (f2 (.inr a2)))) (g3 (.inr b3)) j1 j2 j3 j0)
  have fC : Fired md s n2 C := by
    by_contra fC
    obtain ⟨g1, g2, g3⟩ := SC.flags fC
    exact SC.idle (.inl c1) (ready_own (g1 (.inr c1)) (g2 (.inr c2)) (g3 (.inr c3)) k1 k2 k3 k0)
  have hcb : ∀ (X : List NavOp) (nX : Nav) (cX : List (List NavCall)), n2.run md X = .ok (nX, cX) →
      nX.ephCbs = ephCbCount (pre ++ A ++ B ++ X) := by
    intro X nX cX hX
    rw [(run_ephCbs hX).1, (run_ephCbs h2).1, (run_ephCbs h1).1, run_ephCbs_init h0, ephCbCount_append, ephCbCount_append,
      ephCbCount_append]
  refine ⟨cs0 ++ cs1 ++ cs2, csC, by simp, ?_, ?_, ?_⟩
  · have l0 := run_length h0
    have l1 := run_length h1
    have l2 := run_length h2
    simp; omega
  · obtain ⟨X, j, m, Y, nX, cX, rfl, hg, hX, hr, hid⟩ := fC
    obtain ⟨nX', d1, d, d2, q1, rfl, q3, q4⟩ := SC.exact hcl X j m Y rfl hg
    rw [hX] at q1
    obtain ⟨rfl, rfl⟩ := Prod.mk.inj (Except.ok.inj q1)
    rcases q4 with ⟨q4 | q4, -⟩ | ⟨e, rfl, q4⟩
    · exact absurd hr q4
    · exact absurd hid q4
    · refine ⟨X.length, _, e, by simp, hg, ?_, q4⟩
      rw [← q3, List.getElem?_append_right (Nat.le_refl _), Nat.sub_self, List.getElem?_cons_zero, hcb X nX cX hX, q3,
        List.take_left']
      rfl
  · intro i op c hi hg hc
    have hlt : i < C.length := (List.getElem?_eq_some_iff.1 hi).1
    have hsp : C = C.take i ++ op :: C.drop (i + 1) := by
      rw [← (List.getElem?_eq_some_iff.1 hi).2, List.cons_getElem_drop_succ, List.take_append_drop]
    cases op with
    | sfrbx j m =>
      obtain ⟨nX, d1, d, d2, q1, rfl, q3, q4⟩ := SC.exact hcl _ j m _ hsp hg
      have l : d1.length = i := by rw [q3, List.length_take]; omega
      rw [List.getElem?_append_right (by omega), l, Nat.sub_self, List.getElem?_cons_zero] at hc
      cases hc
      rcases q4 with ⟨-, q4⟩ | ⟨e, q4, q5⟩
      · exact .inl q4
      · rw [hcb _ _ _ q1] at q4
        exact .inr ⟨e, q4, q5⟩
    | _ => exact absurd hg id

/-! ### A concrete case -/

theorem liveMsg_sends (k : Nat) (hk : k = 1 ∨ k = 2 ∨ k = 3) :
    SendsGps 7 { exParams with iodc := 91 } (liveMsg 91 k) ∧ (liveMsg 91 k).WF :=
  ⟨.inr ⟨_, _, _, k, rfl, rfl, rfl, hk, rfl⟩, List.length_replicate, Ublox.Dev.subframe_length _ _ _⟩

theorem live_ok : GpsParams.Ok { exParams with iodc := 91 } := by
  have h := exParams_ok
  constructor
  all_goals first | exact h.week | exact h.codeOnL2 | exact h.ura | exact h.health | decide | skip
  all_goals first | exact h.l2p | exact h.tgd | exact h.toc | exact h.af2 | exact h.af1 | exact h.af0 | exact h.crs | exact h.deltaN | exact h.m0 | exact h.cuc | exact h.ecc | exact h.cus | exact h.sqrta | exact h.toe | exact h.fit | exact h.cic | exact h.omega0 | exact h.cis | exact h.i0 | exact h.crc | exact h.w | exact h.omegadot | exact h.idot

theorem liveMsg_has (k : Nat) (hk : k = 1 ∨ k = 2 ∨ k = 3) (ops : List NavOp) (h : liveMsg 91 k ∈ ops) : Has 7 k ops :=
  ⟨_, _, h, rfl, rfl, sub_id live_ok _ hk⟩

/-- The hypotheses of `c134` are met by this run, in which subframes are missing, repeated and out of order; the sixth and the tenth
operation report. -/
example : (∀ op ∈ [liveMsg 91 2, liveMsg 91 2, liveMsg 91 1], SendsGps 7 { exParams with iodc := 91 } op ∧ op.WF) ∧
    (∀ op ∈ [liveMsg 91 3], SendsGps 7 { exParams with iodc := 91 } op ∧ op.WF) ∧
    (∀ op ∈ [liveMsg 91 3, liveMsg 91 1, liveMsg 91 1, liveMsg 91 2], SendsGps 7 { exParams with iodc := 91 } op ∧ op.WF) ∧
    Has 7 1 [liveMsg 91 2, liveMsg 91 2, liveMsg 91 1] ∧ Has 7 2 [liveMsg 91 2, liveMsg 91 2, liveMsg 91 1] ∧ Has 7 3 [liveMsg 91 3] ∧
    Has 7 1 [liveMsg 91 3, liveMsg 91 1, liveMsg 91 1, liveMsg 91 2] ∧ Has 7 2 [liveMsg 91 3, liveMsg 91 1, liveMsg 91 1, liveMsg 91 2] ∧
    Has 7 3 [liveMsg 91 3, liveMsg 91 1, liveMsg 91 1, liveMsg 91 2] ∧
    liveRun [.addEphCb, liveMsg 90 3, liveMsg 91 2, liveMsg 91 2, liveMsg 91 1, liveMsg 91 3, liveMsg 91 3, liveMsg 91 1, liveMsg 91 1, liveMsg 91 2] =
      some [[], [], [], [], [], [91], [], [], [], [91]] := by
  have w : ∀ l : List Nat, (∀ k ∈ l, k = 1 ∨ k = 2 ∨ k = 3) → ∀ op ∈ l.map (liveMsg 91), SendsGps 7 { exParams with iodc := 91 } op ∧ op.WF := by
    intro l hl op hop
    obtain ⟨k, hk, rfl⟩ := List.mem_map.1 hop
    exact liveMsg_sends k (hl k hk)
  exact ⟨w [2, 2, 1] (by decide), w [3] (by decide), w [3, 1, 1, 2] (by decide), liveMsg_has 1 (by simp) _ (by simp),
    liveMsg_has 2 (by simp) _ (by simp), liveMsg_has 3 (by simp) _ (by simp), liveMsg_has 1 (by simp) _ (by simp),
    liveMsg_has 2 (by simp) _ (by simp), liveMsg_has 3 (by simp) _ (by simp), by decide +kernel⟩

end Ublox.Nav

namespace Ublox
namespace Dev

open Nav (Nav NavCall Mode Sfrbx NavOp GpsParams ReportsGps reportTo subframe Unrelated)

section
attribute [local irreducible] Nav.subframe

theorem SendsIn.sends {s : Byte} {p : GpsParams} {i : NavIn} {op : NavOp} (h : SendsIn s p i) (hs : SameIn i op) :
    Nav.SendsGps s p op ∧ op.WF := by
  rcases h with h | ⟨r, x, ch, ver, res, f, k, rfl, hk⟩
  · exact ⟨.inl (h.quiet hs).1, (h.quiet hs).2⟩
  · have e := gps_op (subframe_length _ _ _) hs
    subst e
    exact ⟨.inr ⟨_, _, f, k, rfl, rfl, rfl, hk, rfl⟩, List.length_replicate, subframe_length _ _ _⟩

theorem sendsIn_all {s : Byte} {p : GpsParams} {ins : List NavIn} {ops : List NavOp} (hs : List.Forall₂ SameIn ins ops)
    (h : ∀ i ∈ ins, SendsIn s p i) : ∀ op ∈ ops, Nav.SendsGps s p op ∧ op.WF := by
  induction hs with
  | nil => simp
  | cons h1 _ ih =>
    intro op hop
    rcases List.mem_cons.1 hop with rfl | hop
    · exact (h _ List.mem_cons_self).sends h1
    · exact ih (fun i hi => h i (List.mem_cons_of_mem _ hi)) op hop

theorem hasIn_has {s : Byte} {p : GpsParams} (hp : p.Ok) {k : Nat} (hk : k = 1 ∨ k = 2 ∨ k = 3) {ins : List NavIn} {ops : List NavOp}
    (hs : List.Forall₂ SameIn ins ops) (h : HasIn s p k ins) : Nav.Has s k ops := by
  obtain ⟨r, x, ch, ver, res, f, hm⟩ := h
  induction hs with
  | nil => cases hm
  | cons h1 _ ih =>
    rcases List.mem_cons.1 hm with e | hm
    · subst e
      have e := gps_op (subframe_length _ _ _) h1
      subst e
      exact ⟨_, _, List.mem_cons_self, rfl, rfl, Nav.sub_id hp f hk⟩
    · obtain ⟨j, m, q, q'⟩ := ih hm
      exact ⟨j, m, List.mem_cons_of_mem _ q, q'⟩

theorem forall2_take {α β : Type} {R : α → β → Prop} {l : List α} {l' : List β} (h : List.Forall₂ R l l') (i : Nat) :
    List.Forall₂ R (l.take i) (l'.take i) := by
  induction h generalizing i with
  | nil => simp
  | cons h1 _ ih =>
    cases i with
    | zero => exact .nil
    | succ i => exact .cons h1 (ih i)

/-- The same for any decoder that was told `ins`. -/
theorem c134_told {md : Mode} {ins : List NavIn} {n : Nav} {es : List Eff} (h : Told md Nav.init ins n es) (s : Byte) (p : GpsParams) (hp : p.Ok) (i0 iA iB iC : List NavIn)
    (hA : ∀ i ∈ iA, SendsIn s p i) (hB : ∀ i ∈ iB, SendsIn s p i) (hC : ∀ i ∈ iC, SendsIn s p i)
    (a1 : HasIn s p 1 iA) (a2 : HasIn s p 2 iA) (b3 : HasIn s p 3 iB) (c1 : HasIn s p 1 iC) (c2 : HasIn s p 2 iC) (c3 : HasIn s p 3 iC)
    (hin : ins = i0 ++ (iA ++ (iB ++ iC))) :
    ∃ (cs0 csC : List (List NavCall)), es.filterMap Eff.nav? = (cs0 ++ csC).flatten ∧ cs0.length = (i0 ++ iA ++ iB).length ∧
      csC.length = iC.length ∧
      ∃ (i : Nat) (e : Nav.Eph), csC[i]? = some (reportTo (ephRegs (i0 ++ iA ++ iB ++ iC.take i)) e) ∧ ReportsGps e s p := by
  obtain ⟨ops, cs, h1, h2, h3⟩ := h
  rw [hin] at h1
  obtain ⟨o0, _, k0, t0, rfl⟩ := forall2_append_left h1
  obtain ⟨oA, _, kA, t1, rfl⟩ := forall2_append_left t0
  obtain ⟨oB, oC, kB, kC, rfl⟩ := forall2_append_left t1
  have hl := Nav.run_length h2
  obtain ⟨cs0, csC, rfl, l0, ⟨i, op, e, q1, q2, q3, q4⟩, -⟩ := Nav.c134 md s p hp o0 oA oB oC n cs (sendsIn_all kA hA) (sendsIn_all kB hB)
    (sendsIn_all kC hC) (hasIn_has hp (by simp) kA a1) (hasIn_has hp (by simp) kA a2) (hasIn_has hp (by simp) kB b3)
    (hasIn_has hp (by simp) kC c1) (hasIn_has hp (by simp) kC c2) (hasIn_has hp (by simp) kC c3) h2
  have m0 := k0.length_eq
  have mA := kA.length_eq
  have mB := kB.length_eq
  have mC := kC.length_eq
  refine ⟨cs0, csC, h3, by simp at l0 ⊢; omega, by simp at l0 hl; omega, i, e, ?_, q4⟩
  rw [q3, ephRegs_eq (List.rel_append (List.rel_append (List.rel_append k0 kA) kB) (forall2_take kC i))]

/-- **C134** for the device: a device that is never configured as a base has received anything at all (`i0`); from then on GPS satellite
`s` transmits the parameters `p`, and of its subframes any arrive, in any order and any number of times, in good frames. Once `iA` has
brought subframes 1 and 2 and `iB` subframe 3, an input of every further stretch `iC` that brings all three makes the callbacks registered by
then be called, each once, with exactly the parameters `p` (the calls are listed per input). -/
theorem c134_device {md : Mode} {ss : List Ubx.Sched} {evs : List Ev} {d : Dev} {es : List Eff} (h : Life md ss evs d es)
    (hb : ∀ i s, Ev.configBase i s ∉ evs) (s : Byte) (p : GpsParams) (hp : p.Ok) (i0 iA iB iC : List NavIn)
    (hA : ∀ i ∈ iA, SendsIn s p i) (hB : ∀ i ∈ iB, SendsIn s p i) (hC : ∀ i ∈ iC, SendsIn s p i)
    (a1 : HasIn s p 1 iA) (a2 : HasIn s p 2 iA) (b3 : HasIn s p 3 iB) (c1 : HasIn s p 1 iC) (c2 : HasIn s p 2 iC) (c3 : HasIn s p 3 iC)
    (hin : navLife ss evs = i0 ++ (iA ++ (iB ++ iC))) :
    ∃ (cs0 csC : List (List NavCall)), es.filterMap Eff.nav? = (cs0 ++ csC).flatten ∧ cs0.length = (i0 ++ iA ++ iB).length ∧
      csC.length = iC.length ∧
      ∃ (i : Nat) (e : Nav.Eph), csC[i]? = some (reportTo (ephRegs (i0 ++ iA ++ iB ++ iC.take i)) e) ∧ ReportsGps e s p :=
  c134_told (c112 h hb) s p hp i0 iA iB iC hA hB hC a1 a2 b3 c1 c2 c3 hin


end

/-! ### A concrete case -/

/-- The example device: a callback, a stale subframe 3, then what is left of the transmission. -/
def exLoss : List Ev :=
  [.ephCb, .rx (exSub 7 3), .rx (exSub 7 2 ++ exSub 7 1 ++ exSub 8 2), .rx ((exSub 7 3).take 30), .rx ((exSub 7 3).drop 30 ++ exNoId),
   .rx (exSub 7 3 ++ exSub 7 1 ++ exSub 7 1), .rx (exSub 7 2)]

def exP (s : Byte) (k : Nat) : NavIn := .sfrbx (gpsPayload s 0 0 3 2 0 (exW k))

theorem exLoss_in : navLife [exSched] exLoss = [.addEph, exP 7 3] ++ ([exP 7 2, exP 7 1, exP 8 2] ++ ([exP 7 3,
    .sfrbx (gpsPayload 7 0 0 3 2 0 (List.replicate 40 0))] ++ [exP 7 3, exP 7 1, exP 7 1, exP 7 2])) := by
  decide +kernel

/-- All hypotheses of `c134_device` are met by `exLoss`, whose run exists. -/
example : ∃ d es, Life .strict [exSched] exLoss d es ∧ (∀ i s, Ev.configBase i s ∉ exLoss) ∧
    ∃ (cs0 csC : List (List NavCall)), es.filterMap Eff.nav? = (cs0 ++ csC).flatten ∧
      ∃ (i : Nat) (e : Nav.Eph), csC[i]? = some (reportTo 1 e) ∧ ReportsGps e 7 Nav.exParams := by
  have hs : (exRun exLoss).isSome = true := by decide +kernel
  obtain ⟨⟨d, es⟩, hx⟩ := Option.isSome_iff_exists.mp hs
  have hl := exRun_life hx
  have hb : ∀ i s, Ev.configBase i s ∉ exLoss := by intro i s; simp [exLoss]
  refine ⟨d, es, hl, hb, ?_⟩
  have sd : ∀ k, (k = 1 ∨ k = 2 ∨ k = 3) → SendsIn 7 Nav.exParams (exP 7 k) := fun k hk =>
    .inr ⟨_, _, _, _, _, _, k, rfl, hk⟩
  have hd : ∀ k l, exP 7 k ∈ l → HasIn 7 Nav.exParams k l := fun k l hm => ⟨_, _, _, _, _, _, hm⟩
  have q8 : SendsIn 7 Nav.exParams (exP 8 2) := .inl (.inl ⟨by decide +kernel, .inr (by decide +kernel)⟩)
  have q0 : SendsIn 7 Nav.exParams (.sfrbx (gpsPayload 7 0 0 3 2 0 (List.replicate 40 0))) :=
    .inl (.inr ⟨_, _, _, _, _, _, rfl, by decide, by decide +kernel⟩)
  obtain ⟨cs0, csC, h1, -, -, i, e, h2, h3⟩ := c134_device hl hb 7 Nav.exParams Nav.exParams_ok [.addEph, exP 7 3]
    [exP 7 2, exP 7 1, exP 8 2] [exP 7 3, .sfrbx (gpsPayload 7 0 0 3 2 0 (List.replicate 40 0))] [exP 7 3, exP 7 1, exP 7 1, exP 7 2]
    (by
      intro i hi
      simp only [List.mem_cons, List.not_mem_nil, or_false] at hi
      rcases hi with rfl | rfl | rfl
      exacts [sd 2 (by simp), sd 1 (by simp), q8])
    (by
      intro i hi
      simp only [List.mem_cons, List.not_mem_nil, or_false] at hi
      rcases hi with rfl | rfl
      exacts [sd 3 (by simp), q0])
    (by
      intro i hi
      simp only [List.mem_cons, List.not_mem_nil, or_false] at hi
      rcases hi with rfl | rfl | rfl | rfl
      exacts [sd 3 (by simp), sd 1 (by simp), sd 1 (by simp), sd 2 (by simp)])
    (hd 1 _ (by simp)) (hd 2 _ (by simp)) (hd 3 _ (by simp)) (hd 1 _ (by simp)) (hd 2 _ (by simp)) (hd 3 _ (by simp)) exLoss_in
  refine ⟨cs0, csC, h1, i, e, ?_, h3⟩
  rw [h2]
  have : ∀ l : List NavIn, (∀ x ∈ l, x ≠ .addEph) → ephRegs ([.addEph] ++ l) = 1 := by
    intro l hl
    unfold ephRegs
    rw [List.count_append, List.count_eq_zero.2 (fun hm => hl _ hm rfl)]
    decide
  rw [show ([NavIn.addEph, exP 7 3] ++ [exP 7 2, exP 7 1, exP 8 2] ++ [exP 7 3, .sfrbx (gpsPayload 7 0 0 3 2 0 (List.replicate 40 0))] ++
    [exP 7 3, exP 7 1, exP 7 1, exP 7 2].take i) = [.addEph] ++ ([exP 7 3, exP 7 2, exP 7 1, exP 8 2, exP 7 3,
      .sfrbx (gpsPayload 7 0 0 3 2 0 (List.replicate 40 0))] ++ [exP 7 3, exP 7 1, exP 7 1, exP 7 2].take i) from rfl, this]
  intro x hx
  rcases List.mem_append.1 hx with hx | hx
  · simp only [List.mem_cons, List.not_mem_nil, or_false] at hx
    rcases hx with rfl | rfl | rfl | rfl | rfl | rfl <;> exact fun h => by cases h
  · have hx := List.mem_of_mem_take hx
    simp only [List.mem_cons, List.not_mem_nil, or_false] at hx
    rcases hx with rfl | rfl | rfl | rfl <;> exact fun h => by cases h

end Dev
end Ublox
