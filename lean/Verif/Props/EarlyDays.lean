import Verif.Spec.EarlyDays
import Verif.Lemmas.NavStrict
import Verif.Props.Provenance

/-!
# C152: until the end of 2037, ordinary builds decode everything a receiver sends without undefined behaviour
-/

namespace Ublox.Nav
open Data

attribute [local irreducible] gpsU gpsS gpsU32 gpsS32

/-- An entry whose date is before 2038. -/
structure Early (e : Eph) : Prop where
  week : e.week ≤ 3025
  toes : e.toes ≤ 1048560

theorem early_fresh : Early Eph.fresh := ⟨by decide, by decide⟩

theorem early_ident {e : Eph} (h : Early e) (s g : Byte) : Early { e with sat := s, gnssID := g } := ⟨h.week, h.toes⟩

theorem early_upd {d : List Byte} {e : Eph} (h : Early e) (hw : gpsId d = 1 → gpsU d 3 1 10 ≤ 977) : Early (gpsUpd d e) := by
  have l2 := gpsU_lt d 10 1 16
  by_cases c1 : gpsId d = 1
  · rw [gpsUpd_1 c1]
    have l1 := hw c1
    have a : (upd1 d e).week = gpsU d 3 1 10 + 2048 := rfl
    have c : (upd1 d e).toes = e.toes := by cases e; rfl
    exact ⟨by omega, by rw [c]; exact h.toes⟩
  by_cases c2 : gpsId d = 2
  · rw [gpsUpd_2 c2]
    have a : (upd2 d e).toes = gpsU d 10 1 16 * 16 := rfl
    have b : (upd2 d e).week = e.week := by cases e; rfl
    exact ⟨by rw [b]; exact h.week, by omega⟩
  by_cases c3 : gpsId d = 3
  · rw [gpsUpd_3 c3]
    have a : (upd3 d e).toes = e.toes := by cases e; rfl
    have b : (upd3 d e).week = e.week := by cases e; rfl
    exact ⟨by rw [b]; exact h.week, by rw [a]; exact h.toes⟩
  · rw [gpsUpd_other (by tauto)]; exact h

/-- Reference times that GLONASS can be dated with. -/
def Datable (t : UTCTime) : Prop := 0 ≤ t.sec ∧ t.sec ≤ 2147000000

theorem early_res {t : UTCTime} {d : List Byte} {e : Eph} {o : GpsOut} (he : Early e) (ht : Datable t) (h : GpsRes t d e o) :
    Early o.eph ∧ Datable o.gpsTime := by
  rcases h with ⟨a, b, -⟩ | ⟨-, -, toe, toc, h1, -, b⟩
  · rw [a, b]; exact ⟨he, ht⟩
  · have hw := he.week
    have hs := he.toes
    rw [fromGPS_sec e.week e.toes (by omega) hs] at h1
    have h1 := Except.ok.inj h1
    rw [b]
    refine ⟨⟨hw, hs⟩, ?_⟩
    show Datable toe
    rw [← h1]
    unfold Datable
    dsimp only
    omega

theorem early_step {n n' : Nav} {op : NavOp} {c : List NavCall} (G : Byte → Prop) (hop : op.WF) (hd : ∀ s, G s → Early (n.cur s))
    (ht : Datable n.gpsTime) (h : n.step .lenient op = .ok (n', c)) (hset : ∀ t, op = .setTime t → Datable t)
    (hgps : ∀ j m, op = .sfrbx j m → m.gnssId = 0 → G m.svId ∧ (gpsId m.dwrd = 1 → gpsU m.dwrd 3 1 10 ≤ 977))
    (hgal : ∀ s, G s → ¬ IsGalileo s op) : (∀ s, G s → Early (n'.cur s)) ∧ Datable n'.gpsTime := by
  cases op with
  | setTime t =>
    obtain ⟨e1, -⟩ := Prod.mk.inj (Except.ok.inj h)
    rw [← e1]; exact ⟨hd, hset t rfl⟩
  | addEphCb =>
    obtain ⟨e1, -⟩ := Prod.mk.inj (Except.ok.inj h)
    rw [← e1]; exact ⟨hd, ht⟩
  | addGephCb =>
    obtain ⟨e1, -⟩ := Prod.mk.inj (Except.ok.inj h)
    rw [← e1]; exact ⟨hd, ht⟩
  | sfrbx junk m =>
    refine ⟨fun s hs => ?_, ?_⟩
    · by_cases hu : Unrelated s (.sfrbx junk m)
      · rw [cur_of_entry (unrelated_step hu h)]; exact hd s hs
      · have hg : m.gnssId ≠ GLONASS := fun hg => hu (.inl hg)
        have hsv : m.svId = s := by
          by_contra hne; exact hu (.inr hne)
        subst hsv
        by_cases h0 : m.gnssId = 0
        · obtain ⟨o, hres, h1, -, -⟩ := gps_step h0 hop h
          rw [h1]
          exact (early_res (early_upd (early_ident (hd m.svId hs) m.svId 0) (hgps _ _ rfl h0).2) ht hres).1
        · obtain ⟨r, hr, -, nx⟩ := step_eph hg h
          have hcur : n'.cur m.svId = r.eph := by unfold Nav.cur; rw [nx.own]; rfl
          rw [hcur]
          unfold ephStep at hr
          dsimp only at hr
          rw [if_neg h0, if_neg (fun h2 => hgal _ hs ⟨h2, rfl⟩)] at hr
          have hr := Except.ok.inj hr
          rw [← hr]
          exact early_ident (hd _ hs) _ _
    · by_cases hg : m.gnssId = GLONASS
      · obtain ⟨r, -, -, nx⟩ := step_glo hg h
        rw [nx.time]; exact ht
      · by_cases h0 : m.gnssId = 0
        · obtain ⟨o, hres, -, -, h1⟩ := gps_step h0 hop h
          rw [h1]
          exact (early_res (early_upd (early_ident (hd m.svId (hgps _ _ rfl h0).1) m.svId 0) (hgps _ _ rfl h0).2) ht hres).2
        · obtain ⟨r, hr, -, nx⟩ := step_eph hg h
          rw [nx.time]
          unfold ephStep at hr
          dsimp only at hr
          rw [if_neg h0] at hr
          split at hr
          · rw [bind_ok] at hr
            obtain ⟨o, ho, hr⟩ := hr
            have hr := Except.ok.inj hr
            rw [← hr]; exact ht
          · have hr := Except.ok.inj hr
            rw [← hr]; exact ht

theorem latest_word {k : Nat} {l : List (List Byte)} {d : List Byte} (h : latestW k l = some d) : d ∈ l ∧ wType d = k := by
  obtain ⟨h1, h2⟩ := List.mem_filter.1 (List.mem_of_getLast? h)
  exact ⟨h1, by simpa using h2⟩

theorem dates_fit {d0 d1 d4 : List Byte} (h : galWeek d0 ≤ 2520) : DatesFit d0 d1 d4 := by
  have h1 : galToe d1 ≤ 982980 := by
    have := bitsVal_lt (wordBit d1) 16 14
    unfold galToe wU; omega
  have h4 : galToc d4 ≤ 982980 := by
    have := bitsVal_lt (wordBit d4) 54 14
    unfold galToc wU; omega
  have hw : toeWeek d0 d1 ≤ 2521 := by
    unfold toeWeek
    split
    · omega
    · split <;> omega
  unfold DatesFit
  omega

/-- One more operation. -/
theorem early_next {ops : List NavOp} {op : NavOp} {n : Nav} {cs : List (List NavCall)} (hwf : ∀ o ∈ ops ++ [op], o.WF)
    (he : EarlyDays (ops ++ [op])) (ht : Datable n.gpsTime) (hrun : Nav.init.run .lenient ops = .ok (n, cs)) :
    ∃ r, n.step .lenient op = .ok r := by
  cases op with
  | setTime t => exact ⟨_, rfl⟩
  | addEphCb => exact ⟨_, rfl⟩
  | addGephCb => exact ⟨_, rfl⟩
  | sfrbx junk m =>
    have hlast : NavOp.sfrbx junk m ∈ ops ++ [NavOp.sfrbx junk m] := by simp
    cases h : n.step .lenient (.sfrbx junk m) with
    | ok r => exact ⟨r, rfl⟩
    | error u =>
      exfalso
      rcases c61_lenient_partial ops n cs junk m u (fun o ho => hwf o (by simp [ho])) (hwf _ hlast) hrun h with
        ⟨-, -, h1⟩ | ⟨h1, h2, ⟨h3, -⟩ | ⟨-, d0, d1, d4, e0, -, -, h3⟩⟩ | ⟨h1, -, op, ho, hi⟩
      · exact h1 ht
      · exact (he.galWeek junk m hlast h1 h2).1 h3
      · obtain ⟨hm, ht⟩ := latest_word e0
        obtain ⟨j', m', h4, h5, h6, h7, h8⟩ := Dev.pagesOf_mem (Dev.sinceWord2_mem _ hm)
        rw [← h8] at ht
        have := (he.galWeek j' m' h4 h5 h7).2 ht
        rw [h8] at this
        exact h3 (dates_fit this)
      · exact he.apart junk m hlast h1 op (by simp [ho]) hi

/-- **C152.** In builds where flowing off the end of a function is harmless, no message of any constellation, in whatever order
and mixture, leads to undefined behaviour before the end of 2037. -/
theorem c152 (ops : List NavOp) (hwf : ∀ op ∈ ops, op.WF) (he : EarlyDays ops) : ∃ r, Nav.init.run .lenient ops = .ok r := by
  have main : ∀ pre post, ops = pre ++ post → ∃ n cs, Nav.init.run .lenient pre = .ok (n, cs) ∧ Datable n.gpsTime ∧
      ∀ s, (∃ j m, NavOp.sfrbx j m ∈ ops ∧ m.gnssId = 0 ∧ m.svId = s) → Early (n.cur s) := by
    intro pre
    induction pre using List.reverseRec with
    | nil => exact fun _ _ => ⟨Nav.init, [], rfl, ⟨by decide, by decide⟩, fun s _ => early_fresh⟩
    | append_singleton pre op ih =>
      intro post e
      obtain ⟨n, cs, h1, h2, h3⟩ := ih (op :: post) (by rw [e]; simp)
      have hsub : ∀ o ∈ pre ++ [op], o ∈ ops := fun o ho => by rw [e]; exact List.mem_append_left _ ho
      have hop : op ∈ ops := hsub op (by simp)
      have he' : EarlyDays (pre ++ [op]) :=
        ⟨fun t h => he.clock t (hsub _ h), fun j m h => he.gpsWeek j m (hsub _ h), fun j m h => he.galWeek j m (hsub _ h),
          fun j m h h0 o ho => he.apart j m (hsub _ h) h0 o (hsub _ ho)⟩
      obtain ⟨⟨n', c⟩, h4⟩ := early_next (fun o ho => hwf o (hsub o ho)) he' h2 h1
      obtain ⟨i1, i2⟩ := early_step (fun s => ∃ j m, NavOp.sfrbx j m ∈ ops ∧ m.gnssId = 0 ∧ m.svId = s) (hwf op hop) h3 h2 h4
        (fun t ht => he.clock t (by rw [← ht]; exact hop))
        (fun j m hm h0 => ⟨⟨j, m, by rw [← hm]; exact hop, h0, rfl⟩, he.gpsWeek j m (by rw [← hm]; exact hop) h0⟩)
        (fun s ⟨j, m, hj, h0, hs⟩ => by rw [← hs]; exact he.apart j m hj h0 op hop)
      exact ⟨n', cs ++ [c], run_append.mpr ⟨n, cs, [c], h1, run_cons.mpr ⟨n', c, [], h4, run_nil.mpr ⟨rfl, rfl⟩, rfl⟩, rfl⟩, i2, i1⟩
  obtain ⟨n, cs, h, -⟩ := main ops [] (by simp)
  exact ⟨_, h⟩

/-- The hypotheses are met by a mixture of all three, in which ephemerides of all three are reported … -/
def earlyOps : List NavOp :=
  [.addEphCb, .addGephCb, .setTime ⟨1700000000, 0⟩, gps 7 gps1, gloMsg 3 8 glo1, gal 8 gal2, gps 7 gps2, gal 8 gal3, gal 8 gal4,
    gloMsg 3 8 glo2, gps 7 gps3, gal 8 gal5, gloMsg 3 8 glo3, gal 8 gal6, gal 8 gal0, gal 8 gal1, gloMsg 3 8 glo4]

/-- A check that suffices. -/
def earlyCheck (ops : List NavOp) : Bool := ops.all fun
  | .setTime t => decide (0 ≤ t.sec ∧ t.sec ≤ 2147000000)
  | .sfrbx _ m => decide ((m.gnssId = 0 → gpsId m.dwrd = 1 → gpsU m.dwrd 3 1 10 ≤ 977) ∧ (m.gnssId = 2 → m.svId ≠ 0 ∧ (wType m.dwrd = 0 → galWeek m.dwrd ≤ 2520))) &&
      (decide (m.gnssId ≠ 0) || ops.all fun | .sfrbx _ m' => decide (¬ (m'.gnssId = 2 ∧ m'.svId = m.svId)) | _ => true)
  | _ => true

theorem earlyCheck_ok {ops : List NavOp} (h : earlyCheck ops = true) : EarlyDays ops := by
  have h := List.all_eq_true.1 h
  refine ⟨fun t ht => ?_, fun j m hm h0 h1 => ?_, fun j m hm h2 _ => ?_, fun j m hm h0 op hop hi => ?_⟩
  · exact of_decide_eq_true (h _ ht)
  · have := h _ hm
    dsimp only at this
    rw [Bool.and_eq_true] at this
    exact (of_decide_eq_true this.1).1 h0 h1
  · have := h _ hm
    dsimp only at this
    rw [Bool.and_eq_true] at this
    exact (of_decide_eq_true this.1).2 h2
  · have := h _ hm
    dsimp only at this
    rw [Bool.and_eq_true, Bool.or_eq_true] at this
    rcases this.2 with h1 | h1
    · exact of_decide_eq_true h1 h0
    · have := List.all_eq_true.1 h1 _ hop
      cases op with
      | sfrbx j' m' => exact of_decide_eq_true this hi
      | setTime t => exact hi
      | addEphCb => exact hi
      | addGephCb => exact hi

theorem early_runs : (∀ op ∈ earlyOps, op.WF) ∧ EarlyDays earlyOps ∧
    (callsAfter .lenient earlyOps).map (·.map List.length) = .ok [0, 0, 0, 0, 0, 0, 0, 0, 0, 0, 1, 0, 0, 0, 0, 1, 1] := by
  refine ⟨fun op hop => ?_, earlyCheck_ok (by decide +kernel), by decide +kernel⟩
  have h : ∀ op ∈ earlyOps, (match op with | .sfrbx j m => decide (j.length = 30 ∧ m.dwrd.length = 40) | _ => true) = true :=
    List.all_eq_true.1 (by decide +kernel)
  have := h op hop
  cases op with
  | sfrbx j m => exact of_decide_eq_true (p := j.length = 30 ∧ m.dwrd.length = 40) this
  | _ => trivial

/-- … and the dates cannot be left out: GPS week 3071 (November 2038), reported under satellite 7, makes the next GLONASS string
overflow. -/
theorem early_needed : callsAfter .lenient [.addEphCb, gps 7 (gps1.set 10 244 |>.set 11 63), gps 7 gps2, gps 7 gps3, gloMsg 3 8 glo1] =
    .error .overflow := by decide +kernel

end Ublox.Nav
