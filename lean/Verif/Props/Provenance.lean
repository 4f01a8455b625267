import Verif.Spec.Provenance
import Verif.Props.BaseEph
import Verif.Props.Attribution

/-!
# C151: no ephemeris is made up
-/

namespace Ublox
namespace Dev

open Nav (Nav NavCall Mode Sfrbx NavOp CarriesGps CarriesGlo CarriesGal Consistent greportTo reportTo iode1Of iode2Of heard timed
  gloBit gloU gloS gloNum gloMark usable wU wS wType wordBit GoodPage)

/-! ### What a message of the decoder says is what the payload says -/

theorem op_payload {pl : List Byte} {j : List Byte} {m : Sfrbx} (h : SameIn (.sfrbx pl) (.sfrbx j m)) (h8 : 8 ≤ pl.length) :
    pl[0]? = some m.gnssId ∧ pl[1]? = some m.svId ∧ pl[3]? = some m.freqId ∧ m.dwrd.length = 40 ∧
      ∀ k, k ≤ 40 → 8 + k ≤ pl.length → m.dwrd.take k = (wordsIn pl).take k := by
  cases h with
  | sfrbx _ buf hl hp =>
    have hg : ∀ k (hk : k < pl.length), pl[k]? = some (buf.getD k 0) := fun k hk => by
      rw [buf_at hp hk, List.getElem?_eq_getElem hk]
    refine ⟨hg 0 (by omega), hg 1 (by omega), hg 3 (by omega), ?_, fun k hk hlen => ?_⟩
    · show ((buf.drop 8).take 40).length = 40
      simp [hl]
    · show ((buf.drop 8).take 40).take k = _
      unfold wordsIn
      rw [List.take_take, List.take_take, Nat.min_eq_left hk, List.take_drop, List.take_drop, Nat.add_comm 8 k]
      congr 1
      have : buf.take (k + 8) = (buf.take pl.length).take (k + 8) := by rw [List.take_take, Nat.min_eq_left (by omega)]
      rw [this, hp]

theorem gps_words {pl j : List Byte} {m : Sfrbx} (h : SameIn (.sfrbx pl) (.sfrbx j m)) (hc : AllWords pl) (hg : m.gnssId = 0) :
    About 0 m.svId pl ∧ m.dwrd = wordsIn pl := by
  obtain ⟨a, b, -, l, t⟩ := op_payload h hc.1
  rw [hg] at a
  have := t 40 (by omega) (by have := hc.2.1 a; omega)
  rw [List.take_of_length_le (by omega), List.take_of_length_le (by unfold wordsIn; simp)] at this
  exact ⟨⟨a, b⟩, this⟩

theorem gal_words {pl j : List Byte} {m : Sfrbx} (h : SameIn (.sfrbx pl) (.sfrbx j m)) (hc : AllWords pl) (hg : m.gnssId = 2) :
    About 2 m.svId pl ∧ m.dwrd.take 32 = (wordsIn pl).take 32 := by
  obtain ⟨a, b, -, l, t⟩ := op_payload h hc.1
  rw [hg] at a
  exact ⟨⟨a, b⟩, t 32 (by omega) (by have := hc.2.2.1 a; omega)⟩

theorem glo_words {pl j : List Byte} {m : Sfrbx} (h : SameIn (.sfrbx pl) (.sfrbx j m)) (hc : AllWords pl) (hg : m.gnssId = 6) :
    About 6 m.svId pl ∧ pl[3]? = some m.freqId ∧ m.dwrd.take 16 = (wordsIn pl).take 16 := by
  obtain ⟨a, b, f, l, t⟩ := op_payload h hc.1
  rw [hg] at a
  exact ⟨⟨a, b⟩, f, t 16 (by omega) (by have := hc.2.2.2 a; omega)⟩

/-! ### Where a call was made -/

theorem call_at {md : Mode} {ops : List NavOp} {n : Nav} {cs : List (List NavCall)} {x : NavCall}
    (h : Nav.init.run md ops = .ok (n, cs)) (hx : x ∈ cs.flatten) : ∃ A op B n1 n2 c1 r, ops = A ++ op :: B ∧
      Nav.init.run md A = .ok (n1, c1) ∧ n1.step md op = .ok (n2, r) ∧ x ∈ r := by
  obtain ⟨r, hr, hxr⟩ := List.mem_flatten.1 hx
  obtain ⟨k, hk, e⟩ := List.getElem_of_mem hr
  have hlen := (Nav.allowed_run ops h).1
  have hk' : k < ops.length := by omega
  have hs : ops = ops.take k ++ ops[k] :: ops.drop (k + 1) := by
    rw [List.getElem_cons_drop, List.take_append_drop]
  rw [hs] at h
  obtain ⟨n1, n2, c1, r', c2, h1, h2, -, hcs, hl⟩ := Nav.run_split h
  refine ⟨_, _, _, n1, n2, c1, r', hs, h1, h2, ?_⟩
  have hck : c1.length = k := by rw [hl, List.length_take]; omega
  have : cs[k]? = some r' := by
    rw [hcs, List.getElem?_append_right (by omega), hck, Nat.sub_self]; rfl
  rw [List.getElem?_eq_getElem hk, e] at this
  rwa [← Option.some.inj this]

/-- A call of a device, traced back to the message that made it. -/
theorem course_call {md : Mode} {evs : List Ev} {d : Dev} {ins : List NavIn} {es : List Eff} (h : Course md evs d ins es)
    {x : NavCall} (hx : Eff.nav x ∈ es) : ∃ before pl after A j m n1 n2 c1 r, ins = before ++ .sfrbx pl :: after ∧
      List.Forall₂ SameIn before A ∧ SameIn (.sfrbx pl) (.sfrbx j m) ∧ Nav.init.run md A = .ok (n1, c1) ∧
      n1.step md (.sfrbx j m) = .ok (n2, r) ∧ x ∈ r := by
  obtain ⟨ops, cs, hF, hrun, hes⟩ := c146 h
  have hx' : x ∈ cs.flatten := by
    rw [← hes]
    exact List.mem_filterMap.2 ⟨_, hx, rfl⟩
  obtain ⟨A, op, B, n1, n2, c1, r, rfl, h1, h2, h3⟩ := call_at hrun hx'
  obtain ⟨before, rest, f1, f2, rfl⟩ := forall2_append_left hF.flip
  obtain ⟨i, after, g1, -, rfl⟩ := List.forall₂_cons_left_iff.mp f2
  have hi := (Nav.allowed_step h2).1
  cases op with
  | setTime t => rw [show r = [] from hi] at h3; cases h3
  | addEphCb => rw [show r = [] from hi] at h3; cases h3
  | addGephCb => rw [show r = [] from hi] at h3; cases h3
  | sfrbx j m =>
    have g1' : SameIn i (.sfrbx j m) := g1
    cases i with
    | addEph => cases g1'
    | addGeph => cases g1'
    | sfrbx pl => exact ⟨before, pl, after, A, j, m, n1, n2, c1, r, rfl, f1.flip, g1', h1, h2, h3⟩

/-! ### GLONASS -/

theorem gloU_take {d d' : List Byte} (h : d.take 16 = d'.take 16) (a b : Nat) : gloU d a b = gloU d' a b := by
  have : gloBit d = gloBit d' := funext fun _ => Nav.gloBit_take h
  unfold gloU
  rw [this]

theorem gloS_take {d d' : List Byte} (h : d.take 16 = d'.take 16) (a b : Nat) : gloS d a b = gloS d' a b := by
  unfold gloS
  rw [Nav.gloBit_take h, gloU_take h]

theorem carriesGlo_take {g : Nav.GEph} {s f : Byte} {d1 d2 d3 d4 e1 e2 e3 e4 : List Byte} (h : CarriesGlo g s f d1 d2 d3 d4)
    (h1 : d1.take 16 = e1.take 16) (h2 : d2.take 16 = e2.take 16) (h3 : d3.take 16 = e3.take 16) (h4 : d4.take 16 = e4.take 16) :
    CarriesGlo g s f e1 e2 e3 e4 := by
  obtain ⟨a1, a2, a3, b1, b2, b3, c1, c2, c3, c4, c5, f1, f2, f3, f4, k1, k2, k3, k4⟩ := h
  rw [gloS_take h1] at b1 b2 b3
  rw [gloU_take h2] at c1 c2
  rw [gloS_take h2] at c3 c4 c5
  rw [gloS_take h3] at f1 f2 f3 f4
  rw [gloS_take h4] at k1 k2
  rw [gloU_take h4] at k3 k4
  exact ⟨a1, a2, a3, b1, b2, b3, c1, c2, c3, c4, c5, f1, f2, f3, f4, k1, k2, k3, k4⟩

theorem glo_part {pl j : List Byte} {m : Sfrbx} {s : Byte} {mark k : Nat} (h : SameIn (.sfrbx pl) (.sfrbx j m)) (hc : AllWords pl)
    (hg : m.gnssId = Nav.GLONASS) (hs : m.svId = s) (hu : usable (gloBit m.dwrd) = true) (hk : gloNum m.dwrd = k)
    (hm : gloMark m.dwrd = mark) : GloPart s mark k pl := by
  obtain ⟨a, -, t⟩ := glo_words h hc hg
  rw [hs] at a
  exact ⟨a, by rw [← Nav.usable_take t]; exact hu, by rw [← Nav.gloNum_take t]; exact hk, by rw [← Nav.gloMark_take t]; exact hm⟩

/-- **C151**, GLONASS: whatever a device went through, when it reports a GLONASS ephemeris the message just received is string 4
of that satellite, strings 1, 2 and 3 with the same time mark were received from it before, all four have check bits that allow
using them, and the parameters reported are exactly the ones in these four. -/
theorem c151_glonass {md : Mode} {evs : List Ev} {d : Dev} {ins : List NavIn} {es : List Eff} (h : Course md evs d ins es)
    (hall : ∀ pl, NavIn.sfrbx pl ∈ ins → AllWords pl) {i : Nat} {g : Nav.GEph} (hx : Eff.nav (.geph i g) ∈ es) :
    ∃ before pl4 after pl1 pl2 pl3 mark f, ins = before ++ .sfrbx pl4 :: after ∧
      NavIn.sfrbx pl1 ∈ before ∧ NavIn.sfrbx pl2 ∈ before ∧ NavIn.sfrbx pl3 ∈ before ∧ i < gephRegs before ∧
      GloPart g.sat mark 1 pl1 ∧ GloPart g.sat mark 2 pl2 ∧ GloPart g.sat mark 3 pl3 ∧ GloPart g.sat mark 4 pl4 ∧
      pl4[3]? = some f ∧ CarriesGlo g g.sat f (wordsIn pl1) (wordsIn pl2) (wordsIn pl3) (wordsIn pl4) := by
  obtain ⟨before, pl, after, A, j, m, n1, n2, c1, r, rfl, hF, hS, h1, h2, h3⟩ := course_call h hx
  have hne : r ≠ [] := by rintro rfl; cases h3
  have hg6 : m.gnssId = 6 := by
    rcases (Nav.allowed_step h2).1 with ha | ⟨e, -, -, -, ha⟩ | ⟨g', -, -, h6, -⟩
    · exact absurd ha hne
    · rw [ha] at h3; obtain ⟨_, -, e⟩ := List.mem_map.1 h3; cases e
    · exact h6
  have hpl : AllWords pl := hall pl (List.mem_append_right _ List.mem_cons_self)
  obtain ⟨hu, h4, suf, x1, x2, x3, g', hsuf, l1, l2, l3, hr, hcar⟩ := Nav.c53_single_frame md A n1 n2 c1 j m r (wf_all hF)
    (wf_all (.cons hS .nil) _ List.mem_cons_self) h1 hg6 h2 hne
  rw [hr] at h3
  unfold greportTo at h3
  obtain ⟨i', hi, he⟩ := List.mem_map.1 h3
  cases he
  rw [List.mem_range, gephRegs_eq hF] at hi
  have hsat : g.sat = m.svId := hcar.sat
  have find : ∀ k x, Nav.latestG k (heard m.svId suf) = some x → ∃ q, NavIn.sfrbx q ∈ before ∧
      GloPart g.sat (gloMark m.dwrd) k q ∧ x.2.take 16 = (wordsIn q).take 16 := by
    intro k x hl
    have hmem := List.mem_of_getLast? hl
    obtain ⟨hin, hk⟩ := List.mem_filter.1 hmem
    obtain ⟨pre, e, hk2, -⟩ := hsuf
    have hmark := hk2 x hin
    have hin' : x ∈ heard m.svId (timed md Nav.init A) := by
      rw [e, Nav.heard_append]; exact List.mem_append_right _ hin
    obtain ⟨q, j', m', hq, hS', a1, a2, hyd, -, hu'⟩ := heard_in hF hin'
    have hq' : AllWords q := hall q (List.mem_append_left _ hq)
    rw [hyd] at hmark hu' ⊢
    exact ⟨q, hq, glo_part hS' hq' a1 (a2.trans hsat.symm) hu' (by rw [← hyd]; exact of_decide_eq_true hk) hmark, (glo_words hS' hq' a1).2.2⟩
  obtain ⟨q1, m1, p1, t1⟩ := find 1 x1 l1
  obtain ⟨q2, m2, p2, t2⟩ := find 2 x2 l2
  obtain ⟨q3, m3, p3, t3⟩ := find 3 x3 l3
  obtain ⟨-, hf, t4⟩ := glo_words hS hpl hg6
  refine ⟨before, pl, after, q1, q2, q3, gloMark m.dwrd, m.freqId, rfl, m1, m2, m3, hi, p1, p2, p3,
    glo_part hS hpl hg6 hsat.symm hu h4 rfl, hf, ?_⟩
  rw [hsat]
  exact carriesGlo_take hcar t1 t2 t3 t4

/-! ### GPS and Galileo -/

theorem eph_call {md : Mode} {n1 n2 : Nav} {j : List Byte} {m : Sfrbx} {r : List NavCall} {i : Nat} {e : Nav.Eph}
    (h2 : n1.step md (.sfrbx j m) = .ok (n2, r)) (h3 : NavCall.eph i e ∈ r) :
    r ≠ [] ∧ e.sat = m.svId ∧ e.gnssID = m.gnssId ∧ (m.gnssId = 0 ∨ m.gnssId = 2) := by
  have hne : r ≠ [] := by rintro rfl; cases h3
  refine ⟨hne, ?_⟩
  rcases (Nav.allowed_step h2).1 with ha | ⟨e', hs, hg, h02, ha⟩ | ⟨g', -, -, -, -, ha⟩
  · exact absurd ha hne
  · rw [ha] at h3
    obtain ⟨k, -, he⟩ := List.mem_map.1 h3
    cases he
    exact ⟨hs, hg, h02⟩
  · rw [ha] at h3; obtain ⟨_, -, e⟩ := List.mem_map.1 h3; cases e

theorem pending_mem {s : Byte} (l : List (NavOp × List NavCall)) {P : List (List Byte)} {d : List Byte}
    (h : d ∈ l.foldl (Nav.pendStep s) P) :
    d ∈ P ∨ ∃ j m c, (NavOp.sfrbx j m, c) ∈ l ∧ m.gnssId = 0 ∧ m.svId = s ∧ m.dwrd = d := by
  induction l generalizing P with
  | nil => exact .inl h
  | cons x l ih =>
    rcases ih h with h | ⟨j, m, c, hm, a⟩
    · obtain ⟨op, c⟩ := x
      cases op with
      | setTime t => exact .inl h
      | addEphCb => exact .inl h
      | addGephCb => exact .inl h
      | sfrbx j m =>
        have h' : d ∈ (if m.gnssId = 0 ∧ m.svId = s then (if c = [] then P ++ [m.dwrd] else []) else P) := h
        by_cases hc : m.gnssId = 0 ∧ m.svId = s
        · rw [if_pos hc] at h'
          by_cases he : c = []
          · rw [if_pos he] at h'
            rcases List.mem_append.1 h' with h' | h'
            · exact .inl h'
            · exact .inr ⟨j, m, c, List.mem_cons_self, hc.1, hc.2, (List.mem_singleton.1 h').symm⟩
          · rw [if_neg he] at h'; cases h'
        · rw [if_neg hc] at h'; exact .inl h'
    · exact .inr ⟨j, m, c, List.mem_cons_of_mem _ hm, a⟩

/-- **C151**, GPS: whatever a device went through, when it reports a GPS ephemeris it had received (the message just received
included) subframes 1, 2 and 3 of that satellite, with equal issues of data in subframes 1 and 2, and the parameters reported are
exactly the ones in these three - unless it was also given messages of a Galileo satellite under the same number (see C51). -/
theorem c151_gps {md : Mode} {evs : List Ev} {d : Dev} {ins : List NavIn} {es : List Eff} (h : Course md evs d ins es)
    (hall : ∀ pl, NavIn.sfrbx pl ∈ ins → AllWords pl) {i : Nat} {e : Nav.Eph} (hx : Eff.nav (.eph i e) ∈ es) (hgps : e.gnssID = 0) :
    ∃ before pl after pl1 pl2 pl3, ins = before ++ .sfrbx pl :: after ∧ About 0 e.sat pl ∧
      NavIn.sfrbx pl1 ∈ before ++ [.sfrbx pl] ∧ NavIn.sfrbx pl2 ∈ before ++ [.sfrbx pl] ∧ NavIn.sfrbx pl3 ∈ before ++ [.sfrbx pl] ∧
      i < ephRegs before ∧ GpsPart e.sat 1 pl1 ∧ GpsPart e.sat 2 pl2 ∧ GpsPart e.sat 3 pl3 ∧
      iode1Of (wordsIn pl1) = iode2Of (wordsIn pl2) ∧
      ((∀ q, NavIn.sfrbx q ∈ before → ¬ About 2 e.sat q) → CarriesGps e e.sat (wordsIn pl1) (wordsIn pl2) (wordsIn pl3)) := by
  obtain ⟨before, pl, after, A, j, m, n1, n2, c1, r, rfl, hF, hS, h1, h2, h3⟩ := course_call h hx
  obtain ⟨hne, hsat, hg, -⟩ := eph_call h2 h3
  have hg0 : m.gnssId = 0 := by rw [← hg, hgps]
  have hpl : AllWords pl := hall pl (List.mem_append_right _ List.mem_cons_self)
  obtain ⟨e', d1, d2, d3, hr, l1, l2, l3, hio, hcar⟩ := Nav.c49_consistent_partial md A n1 n2 c1 j m r (wf_all hF)
    (wf_all (.cons hS .nil) _ List.mem_cons_self) h1 hg0 h2 hne
  rw [hr] at h3
  unfold reportTo at h3
  obtain ⟨i', hi, he⟩ := List.mem_map.1 h3
  cases he
  rw [List.mem_range, ephRegs_eq hF] at hi
  have find : ∀ k w, Nav.latest k (Nav.pending m.svId A c1 ++ [m.dwrd]) = some w → ∃ q, NavIn.sfrbx q ∈ before ++ [.sfrbx pl] ∧
      GpsPart e.sat k q ∧ w = wordsIn q := by
    intro k w hl
    obtain ⟨hin, hk⟩ := List.mem_filter.1 (List.mem_of_getLast? hl)
    have hk : Nav.gpsId w = k := of_decide_eq_true hk
    rcases List.mem_append.1 hin with hin | hin
    · rcases pending_mem _ hin with hin | ⟨j', m', c', hm, a, b, rfl⟩
      · cases hin
      · obtain ⟨x, hx, hsx⟩ := forall2_mem_right hF (List.of_mem_zip hm).1
        cases x with
        | addEph => cases hsx
        | addGeph => cases hsx
        | sfrbx q =>
          obtain ⟨ab, ew⟩ := gps_words hsx (hall q (List.mem_append_left _ hx)) a
          refine ⟨q, List.mem_append_left _ hx, ⟨?_, by rw [← ew]; exact hk⟩, ew⟩
          rw [hsat, ← b]; exact ab
    · obtain rfl := List.mem_singleton.1 hin
      obtain ⟨ab, ew⟩ := gps_words hS hpl hg0
      refine ⟨pl, List.mem_append_right _ List.mem_cons_self, ⟨?_, by rw [← ew]; exact hk⟩, ew⟩
      rw [hsat]; exact ab
  obtain ⟨q1, m1, p1, rfl⟩ := find 1 d1 l1
  obtain ⟨q2, m2, p2, rfl⟩ := find 2 d2 l2
  obtain ⟨q3, m3, p3, rfl⟩ := find 3 d3 l3
  refine ⟨before, pl, after, q1, q2, q3, rfl, ?_, m1, m2, m3, hi, p1, p2, p3, hio, fun hno => ?_⟩
  · rw [hsat]; exact (gps_words hS hpl hg0).1
  · rw [hsat]
    refine hcar fun op hop hgal => ?_
    obtain ⟨x, hx, hsx⟩ := forall2_mem_left hF.flip hop
    cases op with
    | setTime t => exact hgal
    | addEphCb => exact hgal
    | addGephCb => exact hgal
    | sfrbx j' m' =>
      have hsx' : SameIn x (.sfrbx j' m') := hsx
      cases x with
      | addEph => cases hsx'
      | addGeph => cases hsx'
      | sfrbx q =>
        refine hno q hx ?_
        rw [hsat, ← hgal.2]
        exact (gal_words hsx' (hall q (List.mem_append_left _ hx)) hgal.1).1

theorem wU_take {d d' : List Byte} (h : d.take 32 = d'.take 32) {a n : Nat} (hn : a + n ≤ 128) : wU d a n = wU d' a n := by
  unfold Nav.wU
  exact bitsVal_congr fun i hi => wordBit_take h (by omega)

theorem wS_take {d d' : List Byte} (h : d.take 32 = d'.take 32) {a n : Nat} (hn : a + n ≤ 128) : wS d a n = wS d' a n := by
  unfold Nav.wS
  rw [wU_take h hn]

theorem consistent_take {d0 d1 d2 d3 d4 e0 e1 e2 e3 e4 : List Byte} (h : Consistent d0 d1 d2 d3 d4)
    (h0 : d0.take 32 = e0.take 32) (h1 : d1.take 32 = e1.take 32) (h2 : d2.take 32 = e2.take 32) (h3 : d3.take 32 = e3.take 32)
    (h4 : d4.take 32 = e4.take 32) : Consistent e0 e1 e2 e3 e4 := by
  unfold Consistent Nav.iodNav at h ⊢
  rw [wU_take h0 (by omega), wU_take h1 (by omega), wU_take h2 (by omega), wU_take h3 (by omega), wU_take h4 (by omega)] at h
  exact h

theorem toeWeek_take {d0 d1 e0 e1 : List Byte} (h0 : d0.take 32 = e0.take 32) (h1 : d1.take 32 = e1.take 32) :
    Nav.toeWeek d0 d1 = Nav.toeWeek e0 e1 := by
  unfold Nav.toeWeek Nav.galToe Nav.galTow Nav.galWeek
  rw [wU_take h0 (a := 96) (by omega), wU_take h0 (a := 108) (by omega), wU_take h1 (by omega)]

theorem carriesGal_take {g : Nav.Eph} {s : Byte} {d0 d1 d2 d3 d4 d5 e0 e1 e2 e3 e4 e5 : List Byte}
    (h : CarriesGal g s d0 d1 d2 d3 d4 d5)
    (h0 : d0.take 32 = e0.take 32) (h1 : d1.take 32 = e1.take 32) (h2 : d2.take 32 = e2.take 32) (h3 : d3.take 32 = e3.take 32)
    (h4 : d4.take 32 = e4.take 32) (h5 : d5.take 32 = e5.take 32) : CarriesGal g s e0 e1 e2 e3 e4 e5 where
  sat := h.sat
  gnss := h.gnss
  toes := by rw [h.toes]; unfold Nav.galToe; rw [wU_take h1 (by omega)]
  m0 := by rw [h.m0, wS_take h1 (by omega)]
  ecc := by rw [h.ecc, wU_take h1 (by omega)]
  sqrta := by rw [h.sqrta, wU_take h1 (by omega)]
  omega0 := by rw [h.omega0, wS_take h2 (by omega)]
  i0 := by rw [h.i0, wS_take h2 (by omega)]
  w := by rw [h.w, wS_take h2 (by omega)]
  idot := by rw [h.idot, wS_take h2 (by omega)]
  omegadot := by rw [h.omegadot, wS_take h3 (by omega)]
  deltaN := by rw [h.deltaN, wS_take h3 (by omega)]
  cuc := by rw [h.cuc, wS_take h3 (by omega)]
  cus := by rw [h.cus, wS_take h3 (by omega)]
  crc := by rw [h.crc, wS_take h3 (by omega)]
  crs := by rw [h.crs, wS_take h3 (by omega)]
  cic := by rw [h.cic, wS_take h4 (by omega)]
  cis := by rw [h.cis, wS_take h4 (by omega)]
  af0 := by rw [h.af0, wS_take h4 (by omega)]
  af1 := by rw [h.af1, wS_take h4 (by omega)]
  af2 := by rw [h.af2, wS_take h4 (by omega)]
  tgd0 := by rw [h.tgd0, wS_take h5 (by omega)]
  tgd1 := by rw [h.tgd1, wS_take h5 (by omega)]
  iodc := by rw [h.iodc]; unfold Nav.iodNav; rw [wU_take h1 (by omega)]
  iode := by rw [h.iode]; unfold Nav.iodNav; rw [wU_take h1 (by omega)]
  week := by rw [h.week, toeWeek_take h0 h1]
  toe := by rw [h.toe, toeWeek_take h0 h1]; unfold Nav.galToe; rw [wU_take h1 (by omega)]
  toc := by rw [h.toc, toeWeek_take h0 h1]; unfold Nav.galToc; rw [wU_take h4 (by omega)]

theorem sinceWord2_mem (l : List (List Byte)) {d : List Byte} (h : d ∈ Nav.sinceWord2 l) : d ∈ l := by
  have main : ∀ (l acc : List (List Byte)), d ∈ l.foldl (fun acc d => if wType d = 2 then [d] else acc ++ [d]) acc →
      d ∈ acc ∨ d ∈ l := by
    intro l
    induction l with
    | nil => exact fun _ h => .inl h
    | cons x l ih =>
      intro acc h
      rcases ih _ h with h | h
      · dsimp only at h
        by_cases hw : wType x = 2
        · rw [if_pos hw] at h
          exact .inr (by rw [List.mem_singleton.1 h]; exact List.mem_cons_self)
        · rw [if_neg hw] at h
          rcases List.mem_append.1 h with h | h
          · exact .inl h
          · exact .inr (by rw [List.mem_singleton.1 h]; exact List.mem_cons_self)
      · exact .inr (List.mem_cons_of_mem _ h)
  rcases main l [] h with h | h
  · cases h
  · exact h

theorem pagesOf_mem {s : Byte} {ops : List NavOp} {d : List Byte} (h : d ∈ Nav.pagesOf s ops) :
    ∃ j m, NavOp.sfrbx j m ∈ ops ∧ m.gnssId = 2 ∧ m.svId = s ∧ GoodPage m.dwrd ∧ m.dwrd = d := by
  obtain ⟨op, hop, hs⟩ := List.mem_filterMap.1 h
  cases op with
  | setTime t => cases hs
  | addEphCb => cases hs
  | addGephCb => cases hs
  | sfrbx j m =>
    dsimp only at hs
    by_cases hc : m.gnssId = 2 ∧ m.svId = s ∧ GoodPage m.dwrd
    · rw [if_pos hc] at hs
      exact ⟨j, m, hop, hc.1, hc.2.1, hc.2.2, Option.some.inj hs⟩
    · rw [if_neg hc] at hs; cases hs

/-- **C151**, Galileo: whatever a device went through, when it reports a Galileo ephemeris it had received (the message just
received included) pages with words 0 to 6 of that satellite, every one with a correct CRC, word 0 bears the time and words 1 to 4
the same issue of data, and the parameters reported are exactly the ones in these words. -/
theorem c151_galileo {md : Mode} {evs : List Ev} {d : Dev} {ins : List NavIn} {es : List Eff} (h : Course md evs d ins es)
    (hall : ∀ pl, NavIn.sfrbx pl ∈ ins → AllWords pl) {i : Nat} {e : Nav.Eph} (hx : Eff.nav (.eph i e) ∈ es) (hgal : e.gnssID = 2) :
    ∃ before pl after, ∃ w : Nat → List Byte, ins = before ++ .sfrbx pl :: after ∧
      (∃ k, k ≤ 6 ∧ GalPart e.sat k pl) ∧ i < ephRegs before ∧
      (∀ k, k ≤ 6 → NavIn.sfrbx (w k) ∈ before ++ [.sfrbx pl] ∧ GalPart e.sat k (w k)) ∧
      Consistent (wordsIn (w 0)) (wordsIn (w 1)) (wordsIn (w 2)) (wordsIn (w 3)) (wordsIn (w 4)) ∧
      CarriesGal e e.sat (wordsIn (w 0)) (wordsIn (w 1)) (wordsIn (w 2)) (wordsIn (w 3)) (wordsIn (w 4)) (wordsIn (w 5)) := by
  obtain ⟨before, pl, after, A, j, m, n1, n2, c1, r, rfl, hF, hS, h1, h2, h3⟩ := course_call h hx
  obtain ⟨hne, hsat, hg, -⟩ := eph_call h2 h3
  have hg2 : m.gnssId = 2 := by rw [← hg, hgal]
  have hpl : AllWords pl := hall pl (List.mem_append_right _ List.mem_cons_self)
  have hF' : List.Forall₂ SameIn (before ++ [.sfrbx pl]) (A ++ [.sfrbx j m]) := List.rel_append hF (.cons hS .nil)
  obtain ⟨hgood, e', d0, d1, d2, d3, d4, d5, d6, hl, hcons, hr, hcar⟩ := Nav.c58_consistent md A n1 n2 c1 j m r (wf_all hF)
    (wf_all (.cons hS .nil) _ List.mem_cons_self) h1 hg2 h2 hne
  rw [hr] at h3
  unfold reportTo at h3
  obtain ⟨i', hi, he⟩ := List.mem_map.1 h3
  cases he
  rw [List.mem_range, ephRegs_eq hF] at hi
  have find : ∀ k w, Nav.latestW k (Nav.sinceWord2 (Nav.pagesOf m.svId (A ++ [.sfrbx j m]))) = some w →
      ∃ q, NavIn.sfrbx q ∈ before ++ [.sfrbx pl] ∧ GalPart e.sat k q ∧ w.take 32 = (wordsIn q).take 32 := by
    intro k w hlw
    obtain ⟨hin, hk⟩ := List.mem_filter.1 (List.mem_of_getLast? hlw)
    have hk : wType w = k := of_decide_eq_true hk
    obtain ⟨j', m', hm, a, b, hgd, rfl⟩ := pagesOf_mem (sinceWord2_mem _ hin)
    obtain ⟨x, hx, hsx⟩ := forall2_mem_right hF' hm
    cases x with
    | addEph => cases hsx
    | addGeph => cases hsx
    | sfrbx q =>
      have hq : AllWords q := by
        refine hall q ?_
        rcases List.mem_append.1 hx with hx | hx
        · exact List.mem_append_left _ hx
        · rw [List.mem_singleton.1 hx]; exact List.mem_append_right _ List.mem_cons_self
      obtain ⟨ab, ew⟩ := gal_words hsx hq a
      refine ⟨q, hx, ⟨?_, goodPage_take ew hgd, by rw [← wType_take ew]; exact hk⟩, ew⟩
      rw [hsat, ← b]; exact ab
  obtain ⟨l0, l1, l2, l3, l4, l5, l6⟩ := hl
  obtain ⟨q0, m0, p0, t0⟩ := find 0 d0 l0
  obtain ⟨q1, m1, p1, t1⟩ := find 1 d1 l1
  obtain ⟨q2, m2, p2, t2⟩ := find 2 d2 l2
  obtain ⟨q3, m3, p3, t3⟩ := find 3 d3 l3
  obtain ⟨q4, m4, p4, t4⟩ := find 4 d4 l4
  obtain ⟨q5, m5, p5, t5⟩ := find 5 d5 l5
  obtain ⟨q6, m6, p6, t6⟩ := find 6 d6 l6
  obtain ⟨ab, ew⟩ := gal_words hS hpl hg2
  refine ⟨before, pl, after, fun k => match k with | 0 => q0 | 1 => q1 | 2 => q2 | 3 => q3 | 4 => q4 | 5 => q5 | _ => q6, rfl,
    ⟨wType m.dwrd, hgood.type, by rw [hsat]; exact ab, goodPage_take ew hgood, (wType_take ew).symm⟩, hi, fun k hk => ?_,
    consistent_take hcons t0 t1 t2 t3 t4, ?_⟩
  · match k, hk with
    | 0, _ => exact ⟨m0, p0⟩
    | 1, _ => exact ⟨m1, p1⟩
    | 2, _ => exact ⟨m2, p2⟩
    | 3, _ => exact ⟨m3, p3⟩
    | 4, _ => exact ⟨m4, p4⟩
    | 5, _ => exact ⟨m5, p5⟩
    | 6, _ => exact ⟨m6, p6⟩
  · rw [hsat]
    exact carriesGal_take hcar t0 t1 t2 t3 t4 t5

/-! ### The hypotheses are met -/

/-- All messages of a list have all their words. -/
def exAllWords (ins : List NavIn) : Bool := ins.all fun | .sfrbx pl => decide (AllWords pl) | _ => true

theorem exAllWords_spec {ins : List NavIn} (h : exAllWords ins = true) : ∀ pl, NavIn.sfrbx pl ∈ ins → AllWords pl := fun _ hp =>
  of_decide_eq_true (List.all_eq_true.1 h _ hp)

def exIsGlo : Eff → Bool
  | .nav (.geph _ _) => true
  | _ => false

def exIsEph (c : Byte) : Eff → Bool
  | .nav (.eph _ e) => e.gnssID == c
  | _ => false

theorem exIsGlo_spec {es : List Eff} (h : es.any exIsGlo = true) : ∃ i g, Eff.nav (.geph i g) ∈ es := by
  obtain ⟨x, hx, ht⟩ := List.any_eq_true.1 h
  unfold exIsGlo at ht
  split at ht
  · exact ⟨_, _, hx⟩
  · cases ht

theorem exIsEph_spec {es : List Eff} {c : Byte} (h : es.any (exIsEph c) = true) : ∃ i e, Eff.nav (.eph i e) ∈ es ∧ e.gnssID = c := by
  obtain ⟨x, hx, ht⟩ := List.any_eq_true.1 h
  unfold exIsEph at ht
  split at ht
  · exact ⟨_, _, hx, eq_of_beq ht⟩
  · cases ht

/-- `c151_gps` and `c151_glonass` apply to the run of the two lists of events of `NavInputGlo`: it reports both. -/
theorem c151_runs : ∃ d ins es, Course .lenient (exGloA ++ exGloB) d ins es ∧ (∀ pl, NavIn.sfrbx pl ∈ ins → AllWords pl) ∧
    (∃ i e, Eff.nav (.eph i e) ∈ es ∧ e.gnssID = 0) ∧ (∃ i g, Eff.nav (.geph i g) ∈ es) := by
  have h0 : (exRunL (exGloA ++ exGloB)).map (fun x => (x.2.any (exIsEph 0), x.2.any exIsGlo)) = some (true, true) := by decide +kernel
  have hw : exAllWords (navLife [exSched] (exGloA ++ exGloB)) = true := by decide +kernel
  cases hx : exRunL (exGloA ++ exGloB) with
  | none => rw [hx] at h0; cases h0
  | some x =>
    obtain ⟨d, es⟩ := x
    rw [hx] at h0
    obtain ⟨p, q⟩ := Prod.mk.inj (Option.some.inj h0)
    exact ⟨d, _, es, .start (exRunL_life hx) (by intro i s; simp [exGloA, exGloB]), exAllWords_spec hw, exIsEph_spec p, exIsGlo_spec q⟩

/-- `c151_galileo` applies to the run of the events of `NavInputGal`. -/
theorem c151_runs_gal : ∃ d ins es, Course .lenient exGalLife d ins es ∧ (∀ pl, NavIn.sfrbx pl ∈ ins → AllWords pl) ∧
    (∃ i e, Eff.nav (.eph i e) ∈ es ∧ e.gnssID = 2) := by
  have h0 : (exRunL exGalLife).map (fun x => x.2.any (exIsEph 2)) = some true := by decide +kernel
  have hw : exAllWords (navLife [exSched] exGalLife) = true := by decide +kernel
  cases hx : exRunL exGalLife with
  | none => rw [hx] at h0; cases h0
  | some x =>
    obtain ⟨d, es⟩ := x
    rw [hx] at h0
    exact ⟨d, _, es, .start (exRunL_life hx) (by intro i s; simp [exGalLife]), exAllWords_spec hw, exIsEph_spec (Option.some.inj h0)⟩

end Dev
end Ublox
