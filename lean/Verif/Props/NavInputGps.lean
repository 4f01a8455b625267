import Verif.Props.NavInput
import Verif.Props.NavEncGps
import Verif.Props.Attribution

/-!
# C113: from the transmitter's parameters to the user's callback, for GPS
-/

namespace Ublox
namespace Dev

open Nav (Nav NavCall Mode Sfrbx NavOp GpsParams ReportsGps reportTo subframe Unrelated)

theorem buf_at {p buf : List Byte} (h : buf.take p.length = p) {k : Nat} (hk : k < p.length) : buf.getD k 0 = p[k] := by
  have h2 : p[k]? = (buf.take p.length)[k]? := by rw [h]
  rw [List.getElem?_take_of_lt hk, List.getElem?_eq_getElem hk] at h2
  rw [List.getD_eq_getElem?_getD, ← h2]; rfl

theorem NotAbout.unrelated {s : Byte} {i : NavIn} {op : NavOp} (h : NotAbout s i) (hs : SameIn i op) : Unrelated s op := by
  cases hs with
  | sfrbx p buf hl hp =>
    obtain ⟨h2, h3⟩ := h
    show buf.getD 0 0 = 6 ∨ buf.getD 1 0 ≠ s
    rw [buf_at hp (show 0 < p.length by omega), buf_at hp (show 1 < p.length by omega)]
    rw [List.getElem?_eq_getElem (show 0 < p.length by omega), List.getElem?_eq_getElem (show 1 < p.length by omega)] at h3
    rcases h3 with h3 | h3
    · exact .inl (Option.some.inj h3)
    · exact .inr fun e => h3 (by rw [e])
  | eph => trivial
  | geph => trivial

theorem notAbout_all {s : Byte} {ins : List NavIn} {ops : List NavOp} (hs : List.Forall₂ SameIn ins ops)
    (h : ∀ i ∈ ins, NotAbout s i) : ∀ op ∈ ops, Unrelated s op := by
  induction hs with
  | nil => simp
  | cons h1 _ ih =>
    intro op hop
    rcases List.mem_cons.1 hop with rfl | hop
    · exact (h _ List.mem_cons_self).unrelated h1
    · exact ih (fun i hi => h i (List.mem_cons_of_mem _ hi)) op hop

theorem wf_all {ins : List NavIn} {ops : List NavOp} (hs : List.Forall₂ SameIn ins ops) : ∀ op ∈ ops, op.WF := by
  induction hs with
  | nil => simp
  | cons h1 _ ih =>
    intro op hop
    rcases List.mem_cons.1 hop with rfl | hop
    · cases h1 with
      | sfrbx p buf hl hp => exact ofBuffer_wf hl
      | eph => trivial
      | geph => trivial
    · exact ih op hop

theorem ephRegs_eq {ins : List NavIn} {ops : List NavOp} (hs : List.Forall₂ SameIn ins ops) :
    Nav.ephCbCount ops = ephRegs ins := by
  induction hs with
  | nil => rfl
  | cons h1 _ ih =>
    unfold ephRegs Nav.ephCbCount at *
    cases h1 <;> simp [ih]

theorem subframe_length (f : Nat → Nat → Bool) (p : GpsParams) (k : Nat) : (subframe f p k).length = 40 := by
  unfold subframe Nav.subframe1 Nav.subframe2 Nav.subframe3
  split
  · exact Nav.packWords_length _
  · split <;> exact Nav.packWords_length _

theorem gps_op {s r x ch ver res : Byte} {w : List Byte} {op : NavOp} (hw : w.length = 40)
    (h : SameIn (.sfrbx (gpsPayload s r x ch ver res w)) op) : op = .sfrbx (List.replicate 30 0) ⟨0, s, x, w⟩ := by
  cases h with
  | sfrbx _ buf hl hp =>
    have hlen : (gpsPayload s r x ch ver res w).length = 48 := by simp [gpsPayload, hw]
    have h0 := buf_at hp (k := 0) (by omega)
    have h1 := buf_at hp (k := 1) (by omega)
    have h3 := buf_at hp (k := 3) (by omega)
    have hd : (buf.drop 8).take 40 = w := by
      rw [List.take_drop]
      rw [hlen] at hp
      show (buf.take 48).drop 8 = w
      rw [hp]; rfl
    unfold Sfrbx.ofBuffer
    rw [h0, h1, h3, hd]
    rfl

theorem forall2_append_left {α β : Type} {R : α → β → Prop} {a b : List α} {l : List β} (h : List.Forall₂ R (a ++ b) l) :
    ∃ l1 l2, List.Forall₂ R a l1 ∧ List.Forall₂ R b l2 ∧ l = l1 ++ l2 := by
  induction a generalizing l with
  | nil => exact ⟨[], l, .nil, h, rfl⟩
  | cons x xs ih =>
    cases h with
    | cons h1 h2 =>
      obtain ⟨l1, l2, k1, k2, rfl⟩ := ih h2
      exact ⟨_ :: l1, l2, .cons h1 k1, k2, rfl⟩

/-- No call about satellite `s` comes from messages that are not about it. -/
theorem calls_unrelated {md : Mode} {ops A X B : List NavOp} {cs A' X' B' : List (List NavCall)} {n : Nav} {s : Byte}
    (h : Nav.init.run md ops = .ok (n, cs)) (ho : ops = A ++ (X ++ B)) (hc : cs = A' ++ (X' ++ B')) (l1 : A.length = A'.length)
    (l2 : X.length = X'.length) (hu : ∀ op ∈ X, Unrelated s op) (i : Nat) (e : Nav.Eph) (hm : NavCall.eph i e ∈ X'.flatten) :
    e.sat ≠ s := by
  obtain ⟨cc, hcc, hm⟩ := List.mem_flatten.1 hm
  obtain ⟨k, hk, rfl⟩ := List.getElem_of_mem hcc
  obtain ⟨-, att⟩ := Nav.c100_attributed md _ _ _ h
  have hk' : k < X.length := by omega
  have a1 : ops[A.length + k]? = some X[k] := by
    rw [ho, List.getElem?_append_right (by omega), Nat.add_sub_cancel_left, List.getElem?_append_left hk',
      List.getElem?_eq_getElem hk']
  have a2 : cs[A.length + k]? = some X'[k] := by
    rw [hc, l1, List.getElem?_append_right (by omega), Nat.add_sub_cancel_left, List.getElem?_append_left hk,
      List.getElem?_eq_getElem hk]
  have q := att _ _ _ a1 a2
  have u := hu X[k] (List.getElem_mem hk')
  generalize X[k] = op at q u
  cases op with
  | sfrbx j m =>
    rcases q with q | ⟨e1, q1, q2, q3, q⟩ | ⟨g, -, -, -, -, q⟩
    · rw [q] at hm; cases hm
    · rw [q] at hm
      obtain ⟨_, -, hm⟩ := List.mem_map.1 hm
      cases hm
      rcases u with u | u
      · rw [u] at q3; rcases q3 with q3 | q3 <;> exact absurd q3 (by decide)
      · rw [q1]; exact u
    · rw [q] at hm
      obtain ⟨_, -, hm⟩ := List.mem_map.1 hm
      cases hm
  | _ => rw [show _ = _ from q] at hm; cases hm

/-- The same for any decoder that was told `ins`. -/
theorem c113_told {md : Mode} {ins : List NavIn} {n : Nav} {es : List Eff} (h : Told md Nav.init ins n es) (s : Byte) (p : GpsParams) (hp : p.Ok) (a b c : Nat)
    (habc : [a, b, c].Perm [1, 2, 3]) (ha : a ≠ 3) (fa fb fc : Nat → Nat → Bool)
    (ra xa cha va ea rb xb chb vb eb rc xc chc vc ec : Byte) (i0 i1 i2 : List NavIn)
    (u0 : ∀ i ∈ i0, NotAbout s i) (u1 : ∀ i ∈ i1, NotAbout s i) (u2 : ∀ i ∈ i2, NotAbout s i)
    (hin : ins = i0 ++ .sfrbx (gpsPayload s ra xa cha va ea (subframe fa p a)) ::
      (i1 ++ .sfrbx (gpsPayload s rb xb chb vb eb (subframe fb p b)) ::
      (i2 ++ [.sfrbx (gpsPayload s rc xc chc vc ec (subframe fc p c))]))) :
    ∃ e pre, es.filterMap Eff.nav? = pre ++ reportTo (ephRegs (i0 ++ i1 ++ i2)) e ∧ ReportsGps e s p ∧
      ∀ i e', NavCall.eph i e' ∈ pre → e'.sat ≠ s := by
  obtain ⟨ops, cs, h1, h2, h3⟩ := h
  rw [hin] at h1
  obtain ⟨o0, h1a, k1, k2, rfl⟩ := forall2_append_left h1
  obtain ⟨_, _, g1, k3, rfl⟩ := List.forall₂_cons_left_iff.mp k2
  obtain ⟨o1, _, k4, k5, rfl⟩ := forall2_append_left k3
  obtain ⟨_, _, g2, k6, rfl⟩ := List.forall₂_cons_left_iff.mp k5
  obtain ⟨o2, _, k7, k8, rfl⟩ := forall2_append_left k6
  obtain ⟨_, _, g3, k9, rfl⟩ := List.forall₂_cons_left_iff.mp k8
  cases k9
  have e1 := gps_op (subframe_length _ _ _) g1
  have e2 := gps_op (subframe_length _ _ _) g2
  have e3 := gps_op (subframe_length _ _ _) g3
  subst e1; subst e2; subst e3
  obtain ⟨n0, cs0, r0, hr0, -, -⟩ := Nav.run_append.mp h2
  have w0 := notAbout_all k1 u0
  obtain ⟨e, c1, c2, hrep, l1, l2, hcs⟩ := Nav.c48_exact_partial md s p hp a b c habc ha fa fb fc o0 o1 o2 _ _ _ xa xb xc n n0
    cs0 cs (by simp) (by simp) (by simp) (wf_all k1) hr0 (.inl w0) (notAbout_all k4 u1) (notAbout_all k7 u2) h2
  obtain ⟨la, att⟩ := Nav.c100_attributed md _ _ _ h2
  refine ⟨e, (cs0 ++ [] :: (c1 ++ [] :: c2)).flatten, ?_, hrep, ?_⟩
  · rw [h3, hcs, ← ephRegs_eq (List.rel_append (List.rel_append k1 k4) k7)]
    simp
  · intro i e' hm
    have l0 : o0.length = cs0.length := (Nav.c100_attributed md _ _ _ hr0).1.symm
    rw [List.flatten_append, List.flatten_cons, List.flatten_append, List.flatten_cons, List.nil_append, List.nil_append] at hm
    rcases List.mem_append.1 hm with hm | hm
    · exact calls_unrelated (A := []) (A' := []) h2 rfl hcs rfl l0 w0 i e' hm
    · rcases List.mem_append.1 hm with hm | hm
      · exact calls_unrelated (A := o0 ++ [_]) (A' := cs0 ++ [[]]) h2 (by rw [List.append_assoc]; rfl)
          (by rw [hcs]; simp only [List.append_assoc, List.cons_append, List.nil_append]; rfl) (by simp [l0]) l1.symm (notAbout_all k4 u1) i e' hm
      · exact calls_unrelated (A := o0 ++ _ :: (o1 ++ [_])) (A' := cs0 ++ [] :: (c1 ++ [[]])) h2
          (by simp only [List.append_assoc, List.cons_append, List.nil_append]; rfl)
          (by rw [hcs]; simp only [List.append_assoc, List.cons_append, List.nil_append]; rfl) (by simp [l0, l1]) l2.symm
          (notAbout_all k7 u2) i e' hm

/-- **C113**: a device that is never configured as a base receives, among anything else, the three RXM-SFRBX messages with the
subframes that encode the parameters `p` of GPS satellite `s`, subframe 3 not first, in good frames, nothing about that
satellite before or in between. Then, with the last of them, each of the callbacks registered so far is called once, with
exactly those parameters; no callback was called for that satellite before. -/
theorem c113 {md : Mode} {ss : List Ubx.Sched} {evs : List Ev} {d : Dev} {es : List Eff} (h : Life md ss evs d es)
    (hb : ∀ i s, Ev.configBase i s ∉ evs) (s : Byte) (p : GpsParams) (hp : p.Ok) (a b c : Nat)
    (habc : [a, b, c].Perm [1, 2, 3]) (ha : a ≠ 3) (fa fb fc : Nat → Nat → Bool)
    (ra xa cha va ea rb xb chb vb eb rc xc chc vc ec : Byte) (i0 i1 i2 : List NavIn)
    (u0 : ∀ i ∈ i0, NotAbout s i) (u1 : ∀ i ∈ i1, NotAbout s i) (u2 : ∀ i ∈ i2, NotAbout s i)
    (hin : navLife ss evs = i0 ++ .sfrbx (gpsPayload s ra xa cha va ea (subframe fa p a)) ::
      (i1 ++ .sfrbx (gpsPayload s rb xb chb vb eb (subframe fb p b)) ::
      (i2 ++ [.sfrbx (gpsPayload s rc xc chc vc ec (subframe fc p c))]))) :
    ∃ e pre, es.filterMap Eff.nav? = pre ++ reportTo (ephRegs (i0 ++ i1 ++ i2)) e ∧ ReportsGps e s p ∧
      ∀ i e', NavCall.eph i e' ∈ pre → e'.sat ≠ s :=
  c113_told (c112 h hb) s p hp a b c habc ha fa fb fc ra xa cha va ea rb xb chb vb eb rc xc chc vc ec i0 i1 i2 u0 u1 u2 hin


/-! ### A concrete case -/

/-- The constructed example device, then the events: two callbacks, and the three subframes of a satellite in frames cut in the
middle, with subframes of other satellites and a damaged frame between them. -/
def exSub (s : Byte) (k : Nat) : List Byte :=
  ubxFrame 0x02 0x13 (gpsPayload s 0 0 3 2 0 (subframe (fun _ _ => true) Nav.exParams k))

def exLife : List Ev :=
  [.ephCb, .rx (exSub 7 2 ++ exSub 8 1), .rx ((exSub 7 3).take 20), .ephCb, .rx ((exSub 7 3).drop 20), .configRover 4,
   .rx ((exSub 7 1).dropLast ++ [0] ++ exSub 7 1)]

theorem exLife_in : navLife [exSched] exLife =
    [.addEph] ++ .sfrbx (gpsPayload 7 0 0 3 2 0 (subframe (fun _ _ => true) Nav.exParams 2)) ::
      ([.sfrbx (gpsPayload 8 0 0 3 2 0 (subframe (fun _ _ => true) Nav.exParams 1)), .addEph] ++
        .sfrbx (gpsPayload 7 0 0 3 2 0 (subframe (fun _ _ => true) Nav.exParams 3)) ::
        ([] ++ [.sfrbx (gpsPayload 7 0 0 3 2 0 (subframe (fun _ _ => true) Nav.exParams 1))])) := by
  decide +kernel

theorem exRun_life {evs : List Ev} {d : Dev} {es : List Eff} (h : exRun evs = some (d, es)) : Life .strict [exSched] evs d es := by
  unfold exRun at h
  split at h
  · rename_i d0 e0 hc
    split at h
    · rename_i x hr
      cases h
      exact ⟨_, _, _, d0, e0, ⟨_, _, _, _, _, List.length_replicate, List.length_replicate, List.length_replicate, rfl⟩,
        ⟨_, _, _, _, List.length_replicate, rfl⟩, ⟨_, _, _, _, List.length_replicate, rfl⟩, hc, hr⟩
    · cases h
  · cases h

/-- All hypotheses of `c113` are met by `exLife`, whose run exists: both callbacks are called for satellite 7. -/
example : ∃ d es, Life .strict [exSched] exLife d es ∧ (∀ i s, Ev.configBase i s ∉ exLife) ∧
    ∃ e, es.filterMap Eff.nav? = reportTo 2 e ∧ ReportsGps e 7 Nav.exParams := by
  have hs : (exRun exLife).isSome = true := by decide +kernel
  have hn : (exRun exLife).map (fun x => (x.2.filterMap Eff.nav?).length) = some 2 := by decide +kernel
  obtain ⟨⟨d, es⟩, hx⟩ := Option.isSome_iff_exists.mp hs
  have hl := exRun_life hx
  have hb : ∀ i s, Ev.configBase i s ∉ exLife := by intro i s; simp [exLife]
  refine ⟨d, es, hl, hb, ?_⟩
  obtain ⟨e, pre, h1, h2, -⟩ := c113 hl hb 7 Nav.exParams Nav.exParams_ok 2 3 1 (by decide) (by decide) _ _ _ _ _ _ _ _ _ _ _ _ _ _ _ _ _ _
    [.addEph] _ [] (by simp [NotAbout]) (by
      intro i hi
      rcases List.mem_cons.1 hi with rfl | hi
      · exact ⟨by decide +kernel, .inr (by decide +kernel)⟩
      · rw [List.mem_singleton.1 hi]; trivial) (by simp) exLife_in
  refine ⟨e, ?_, h2⟩
  rw [hx] at hn
  have hn : (es.filterMap Eff.nav?).length = 2 := Option.some.inj hn
  rw [h1] at hn
  have hr : ephRegs ([.addEph] ++ [.sfrbx (gpsPayload 8 0 0 3 2 0 (subframe (fun _ _ => true) Nav.exParams 1)), .addEph] ++ []) = 2 := by
    decide +kernel
  rw [hr] at hn h1
  have : pre = [] := by
    rw [List.length_append, show (reportTo 2 e).length = 2 from rfl] at hn
    exact List.length_eq_zero_iff.mp (by omega)
  rw [h1, this]; rfl

end Dev
end Ublox
