import Verif.Lemmas.NavIso

/-! Helper lemmas: as long as nothing undefined has happened, entries stay in the range in which dating cannot overflow. -/

namespace Ublox.Nav

attribute [local irreducible] gpsU gpsS gpsU32 gpsS32

theorem getBitRt_lt {buf : List Byte} {p n v : Nat} (h : getBitRt buf p n = .ok v) (h1 : 1 ≤ n := by decide)
    (h2 : n ≤ 32 := by decide) : v < 2 ^ n := by
  rw [c35_getBitRt n p buf h1 h2] at h
  split at h
  · injection h with h; subst h; exact bitsVal_lt _ _ _
  · cases h

/-- Members that enter the conversion to UTC. -/
structure Dated (e : Eph) : Prop where
  week : e.week ≤ 3071
  toes : e.toes ≤ 1048560
  tocs : e.tocs ≤ 1048560

theorem galInav_notgood {b : List Byte} {e e' : Eph} (h : galInav b e = .ok (e', false)) :
    e'.week = e.week ∧ e'.tocs = e.tocs ∧ e'.toes ≤ 982980 := by
  unfold galInav at h
  iterate 6
    rw [bind_ok] at h
    obtain ⟨_, -, h⟩ := h
  rw [bind_ok] at h
  obtain ⟨toes, ht, h⟩ := h
  have ht := getBitRt_lt ht
  iterate 33
    rw [bind_ok] at h
    obtain ⟨_, -, h⟩ := h
  dsimp only at h
  split at h
  · injection h with h; injection h with h; subst h; exact ⟨rfl, rfl, by dsimp only; omega⟩
  split at h
  · injection h with h; injection h with h; subst h; exact ⟨rfl, rfl, by dsimp only; omega⟩
  split at h
  · injection h with h; injection h with h; subst h; exact ⟨rfl, rfl, by dsimp only; omega⟩
  · iterate 4
      rw [bind_ok] at h
      obtain ⟨_, -, h⟩ := h
    injection h with h; injection h with _ h; cases h

theorem decodeGalileo_dated {d row : List Byte} {e : Eph} {o : GalOut}
    (h : decodeGalileo .strict d row e = .ok o) (hd : Dated e) : Dated o.eph ∧ o.reports = [] := by
  have triv : ∀ {row : List Byte} {b : Bool}, (Except.ok ⟨row, e, [], b⟩ : M GalOut) = .ok o → Dated o.eph ∧ o.reports = [] := by
    intro row b h; injection h with h; subst h; exact ⟨hd, rfl⟩
  unfold decodeGalileo at h
  iterate 5
    rw [bind_ok] at h
    obtain ⟨_, -, h⟩ := h
  split at h
  · exact triv h
  split at h
  · exact triv h
  iterate 4
    rw [bind_ok] at h
    obtain ⟨_, -, h⟩ := h
  split at h
  · exact triv h
  rw [bind_ok] at h
  obtain ⟨_, -, h⟩ := h
  split at h
  · exact triv h
  split at h
  · exact absurd h (by simp)
  unfold galAccept at h
  iterate 5
    rw [bind_ok] at h
    obtain ⟨_, -, h⟩ := h
  split at h
  · exact triv h
  rw [bind_ok] at h
  obtain ⟨⟨e1, g⟩, h1, h⟩ := h
  dsimp only at h
  cases g with
  | false =>
    rw [if_pos (by decide)] at h
    injection h with h; subst h
    obtain ⟨a, b, c⟩ := galInav_notgood h1
    exact ⟨⟨by rw [a]; exact hd.week, by dsimp only; omega, by rw [b]; exact hd.tocs⟩, rfl⟩
  | true =>
    rw [if_neg (by decide)] at h
    cases h

theorem dated_fresh : Dated Eph.fresh := ⟨by decide, by decide, by decide⟩

theorem dated_ident {e : Eph} (h : Dated e) (s g : Byte) : Dated { e with sat := s, gnssID := g } :=
  ⟨h.week, h.toes, h.tocs⟩

theorem dated_upd {d : List Byte} {e : Eph} (h : Dated e) : Dated (gpsUpd d e) := by
  have l1 := gpsU_lt d 3 1 10
  have l2 := gpsU_lt d 10 1 16
  have l3 := gpsU_lt d 8 9 16
  by_cases c1 : gpsId d = 1
  · rw [gpsUpd_1 c1]
    have a : (upd1 d e).week = gpsU d 3 1 10 + 2048 := rfl
    have b : (upd1 d e).tocs = gpsU d 8 9 16 * 16 := rfl
    have c : (upd1 d e).toes = e.toes := by cases e; rfl
    exact ⟨by omega, by rw [c]; exact h.toes, by omega⟩
  by_cases c2 : gpsId d = 2
  · rw [gpsUpd_2 c2]
    have a : (upd2 d e).toes = gpsU d 10 1 16 * 16 := rfl
    have b : (upd2 d e).week = e.week := by cases e; rfl
    have c : (upd2 d e).tocs = e.tocs := by cases e; rfl
    exact ⟨by rw [b]; exact h.week, by omega, by rw [c]; exact h.tocs⟩
  by_cases c3 : gpsId d = 3
  · rw [gpsUpd_3 c3]
    have a : (upd3 d e).toes = e.toes := by cases e; rfl
    have b : (upd3 d e).week = e.week := by cases e; rfl
    have c : (upd3 d e).tocs = e.tocs := by cases e; rfl
    exact ⟨by rw [b]; exact h.week, by rw [a]; exact h.toes, by rw [c]; exact h.tocs⟩
  · rw [gpsUpd_other (by tauto)]; exact h

theorem dated_finish {e : Eph} {t : UTCTime} (hd : Dated e) : ∃ o, gpsFinish t e = .ok o := by
  unfold gpsFinish
  split
  · rw [fromGPS_sec e.week e.toes (by have := hd.week; omega) hd.toes, ok_bind,
      fromGPS_sec e.week e.tocs (by have := hd.week; omega) hd.tocs, ok_bind]
    exact ⟨_, rfl⟩
  · exact ⟨_, rfl⟩

theorem dated_res {t : UTCTime} {d : List Byte} {e : Eph} {o : GpsOut} (hd : Dated e) (h : GpsRes t d e o) :
    Dated o.eph := by
  rcases h with ⟨a, -⟩ | ⟨-, -, toe, toc, -, -, b⟩
  · rw [a]; exact hd
  · rw [b]; exact ⟨hd.week, hd.toes, hd.tocs⟩

theorem dated_step {n n' : Nav} {op : NavOp} {c : List NavCall} (hop : op.WF) (hd : ∀ s, Dated (n.cur s))
    (h : n.step .strict op = .ok (n', c)) : ∀ s, Dated (n'.cur s) := by
  intro s
  cases op with
  | setTime t => injection h with h; injection h with h _; subst h; exact hd s
  | addEphCb => injection h with h; injection h with h _; subst h; exact hd s
  | addGephCb => injection h with h; injection h with h _; subst h; exact hd s
  | sfrbx junk m =>
    by_cases hu : Unrelated s (.sfrbx junk m)
    · rw [cur_of_entry (unrelated_step hu h)]; exact hd s
    · have hg : m.gnssId ≠ GLONASS := fun hg => hu (.inl hg)
      have hsv : m.svId = s := by
        by_contra hne; exact hu (.inr hne)
      subst hsv
      by_cases h0 : m.gnssId = 0
      · obtain ⟨o, hres, h1, -, -⟩ := gps_step h0 hop h
        rw [h1]
        exact dated_res (dated_upd (dated_ident (hd m.svId) m.svId 0)) hres
      · obtain ⟨r, hr, -, nx⟩ := step_eph hg h
        have hcur : n'.cur m.svId = r.eph := by unfold Nav.cur; rw [nx.own]; rfl
        rw [hcur]
        unfold ephStep at hr
        dsimp only at hr
        rw [if_neg h0] at hr
        split at hr
        · rw [bind_ok] at hr
          obtain ⟨o, ho, hr⟩ := hr
          injection hr with hr; subst hr
          exact (decodeGalileo_dated ho (dated_ident (hd m.svId) _ _)).1
        · rw [bind_ok] at hr
          obtain ⟨o, ho, hr⟩ := hr
          cases ho

theorem dated_run {ops : List NavOp} : ∀ {n n' : Nav} {cs : List (List NavCall)},
    (∀ op ∈ ops, op.WF) → (∀ s, Dated (n.cur s)) → n.run .strict ops = .ok (n', cs) → ∀ s, Dated (n'.cur s) := by
  induction ops with
  | nil => intro n n' cs _ hd h; rw [run_nil] at h; rw [h.1]; exact hd
  | cons op ops ih =>
    intro n n' cs hwf hd h
    rw [run_cons] at h
    obtain ⟨n1, c, cs', h1, h2, -⟩ := h
    exact ih (fun o ho => hwf o (by simp [ho])) (dated_step (hwf op (by simp)) hd h1) h2

end Ublox.Nav
