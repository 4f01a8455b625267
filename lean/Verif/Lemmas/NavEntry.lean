import Verif.Lemmas.NavGps

/-! Helper lemmas: the per-satellite tables, and each message as a step on one entry. -/

namespace Ublox.Nav

theorem findLast_gen {α : Type} (f : α → Byte) (s : Byte) : ∀ (l : List α) (i : Nat) (r : Option Nat),
    (findLast s (l.map f) i r = r ∧ ∀ x ∈ l, f x ≠ s) ∨
    ∃ pre x post, l = pre ++ x :: post ∧ f x = s ∧ (∀ y ∈ post, f y ≠ s) ∧
      findLast s (l.map f) i r = some (i + pre.length) := by
  intro l
  induction l with
  | nil => intro i r; left; exact ⟨rfl, by simp⟩
  | cons a l ih =>
    intro i r
    simp only [List.map_cons, findLast]
    by_cases ha : f a = s
    · simp only [ha, if_true]
      rcases ih (i + 1) (some i) with ⟨h1, h2⟩ | ⟨pre, x, post, h1, h2, h3, h4⟩
      · right; exact ⟨[], a, l, rfl, ha, h2, by rw [h1]; simp⟩
      · right; exact ⟨a :: pre, x, post, by rw [h1]; rfl, h2, h3, by rw [h4]; simp; omega⟩
    · simp only [ha, if_false]
      rcases ih (i + 1) r with ⟨h1, h2⟩ | ⟨pre, x, post, h1, h2, h3, h4⟩
      · left; exact ⟨h1, by intro x hx; rcases List.mem_cons.mp hx with rfl | hx
                            · exact ha
                            · exact h2 x hx⟩
      · right; exact ⟨a :: pre, x, post, by rw [h1]; rfl, h2, h3, by rw [h4]; simp; omega⟩

theorem last_none {α : Type} (f : α → Byte) (s : Byte) (l : List α) (h : ∀ x ∈ l, f x ≠ s) :
    (l.filter (f · = s)).getLast? = none := by
  rw [List.filter_eq_nil_iff.mpr (by simpa using h)]; rfl

theorem last_split {α : Type} (f : α → Byte) (s : Byte) (pre : List α) (x : α) (post : List α) (hx : f x = s)
    (h : ∀ y ∈ post, f y ≠ s) : ((pre ++ x :: post).filter (f · = s)).getLast? = some x := by
  have hp : post.filter (f · = s) = [] := List.filter_eq_nil_iff.mpr (by simpa using h)
  simp [List.filter_append, hx, hp]

theorem last_other {α : Type} (f : α → Byte) (s s' : Byte) (pre : List α) (x x' : α) (post : List α) (hx : f x = s)
    (hx' : f x' = s) (hs : s' ≠ s) :
    ((pre ++ x :: post).filter (f · = s')).getLast? = ((pre ++ x' :: post).filter (f · = s')).getLast? := by
  have h1 : ¬ f x = s' := by rw [hx]; exact fun h => hs h.symm
  have h2 : ¬ f x' = s' := by rw [hx']; exact fun h => hs h.symm
  simp [List.filter_append, h1, h2]

theorem set_mid {α : Type} (pre : List α) (x x' : α) (post : List α) :
    (pre ++ x :: post).set pre.length x' = pre ++ x' :: post := by
  simp

/-- Where a message for satellite `s` lands: the table is `pre ++ x :: post`, `x` is the entry used. -/
structure Slot {α : Type} (f : α → Byte) (s : Byte) (l : List α) (x : α) (pre post : List α) : Prop where
  old : ∀ s', s' ≠ s → ∀ x', f x' = s →
    ((pre ++ x' :: post).filter (f · = s')).getLast? = (l.filter (f · = s')).getLast?
  new : ∀ x', f x' = s → ((pre ++ x' :: post).filter (f · = s)).getLast? = some x'

theorem slot_found {α : Type} (f : α → Byte) (s : Byte) (pre : List α) (x : α) (post : List α) (hx : f x = s)
    (h : ∀ y ∈ post, f y ≠ s) : Slot f s (pre ++ x :: post) x pre post :=
  ⟨fun s' hs x' hx' => last_other f s s' pre x' x post hx' hx hs, fun x' hx' => last_split f s pre x' post hx' h⟩

theorem slot_new {α : Type} (f : α → Byte) (s : Byte) (l : List α) (x : α) : Slot f s l x l [] :=
  ⟨fun s' hs x' hx' => by
      have h2 : ¬ f x' = s' := by rw [hx']; exact fun h => hs h.symm
      simp [List.filter_append, h2],
   fun x' hx' => last_split f s l x' [] hx' (by simp)⟩

/-- Result of one non-GLONASS message on the entry and page-store row of its satellite. -/
structure EphOut where
  eph : Eph
  gpsTime : UTCTime
  row : List Byte
  reports : List Eph
  ret : Option Bool
  deriving DecidableEq

/-- One non-GLONASS message, seen from its own satellite. -/
def ephStep (md : Mode) (junk : List Byte) (t : UTCTime) (row : List Byte) (m : Sfrbx) (e0 : Eph) : M EphOut :=
  let e := { e0 with sat := m.svId, gnssID := m.gnssId }
  if m.gnssId = 0 then do
    let o ← decodeGPS junk t m.dwrd e
    .ok ⟨o.eph, o.gpsTime, row, o.reports, some o.ret⟩
  else if m.gnssId = 2 then do
    let o ← decodeGalileo md m.dwrd row e
    .ok ⟨o.eph, t, o.row, o.reports, some o.ret⟩
  else do
    offEnd md
    .ok ⟨e, t, row, [], none⟩

theorem gpsFinish_sat {t : UTCTime} {e : Eph} {o : GpsOut} (h : gpsFinish t e = .ok o) : o.eph.sat = e.sat := by
  unfold gpsFinish at h
  split at h
  · simp only [bind_ok] at h
    obtain ⟨a, -, b, -, h⟩ := h
    injection h with h; subst h; rfl
  · injection h with h; subst h; rfl

theorem decodeGPS_sat {junk d : List Byte} {t : UTCTime} {e : Eph} {o : GpsOut} (h : decodeGPS junk t d e = .ok o) :
    o.eph.sat = e.sat := by
  simp only [decodeGPS, bind_ok] at h
  obtain ⟨sf, -, b5, -, h⟩ := h
  split at h
  · injection h with h; subst h; rfl
  · split at h
    · simp only [bind_ok] at h
      obtain ⟨e1, h1, h⟩ := h
      rw [gpsFinish_sat h]
      simp only [sub1, bind_ok, Except.ok.injEq] at h1
      obtain ⟨_, _, _, _, _, _, _, _, _, _, _, _, _, _, _, _, _, _, _, _, _, _, _, _, rfl⟩ := h1
      rfl
    · simp only [bind_ok] at h
      obtain ⟨e1, h1, h⟩ := h
      rw [gpsFinish_sat h]
      simp only [sub2, bind_ok, Except.ok.injEq] at h1
      obtain ⟨_, _, _, _, _, _, _, _, _, _, _, _, _, _, _, _, _, _, _, _, rfl⟩ := h1
      rfl
    · simp only [bind_ok] at h
      obtain ⟨e1, h1, h⟩ := h
      rw [gpsFinish_sat h]
      simp only [sub3, bind_ok, Except.ok.injEq] at h1
      obtain ⟨_, _, _, _, _, _, _, _, _, _, _, _, _, _, _, _, _, _, rfl⟩ := h1
      rfl
    · injection h with h; subst h; rfl

/-- What a Galileo decode never touches: the satellite number and the GPS collection state. -/
def SameGps (e e' : Eph) : Prop :=
  e'.sat = e.sat ∧ e'.gnssID = e.gnssID ∧ e'.got1 = e.got1 ∧ e'.got2 = e.got2 ∧ e'.got3 = e.got3 ∧
    e'.iode1 = e.iode1 ∧ e'.iode2 = e.iode2 ∧ e'.iode3 = e.iode3

theorem galInav_same {b : List Byte} {e e' : Eph} {g : Bool} (h : galInav b e = .ok (e', g)) : SameGps e e' := by
  unfold galInav at h
  iterate 40
    rw [bind_ok] at h
    obtain ⟨_, -, h⟩ := h
  dsimp only at h
  split at h
  · injection h with h; injection h with h; subst h; exact ⟨rfl, rfl, rfl, rfl, rfl, rfl, rfl, rfl⟩
  split at h
  · injection h with h; injection h with h; subst h; exact ⟨rfl, rfl, rfl, rfl, rfl, rfl, rfl, rfl⟩
  split at h
  · injection h with h; injection h with h; subst h; exact ⟨rfl, rfl, rfl, rfl, rfl, rfl, rfl, rfl⟩
  · iterate 4
      rw [bind_ok] at h
      obtain ⟨_, -, h⟩ := h
    injection h with h; injection h with h; subst h; exact ⟨rfl, rfl, rfl, rfl, rfl, rfl, rfl, rfl⟩

theorem decodeGalileo_same {md : Mode} {d row : List Byte} {e : Eph} {o : GalOut}
    (h : decodeGalileo md d row e = .ok o) : SameGps e o.eph ∧ ∀ r ∈ o.reports, SameGps e r := by
  have hr : SameGps e e := ⟨rfl, rfl, rfl, rfl, rfl, rfl, rfl, rfl⟩
  have triv : ∀ {row : List Byte} {b : Bool}, (Except.ok ⟨row, e, [], b⟩ : M GalOut) = .ok o →
      SameGps e o.eph ∧ ∀ r ∈ o.reports, SameGps e r := by
    intro row b h; injection h with h; subst h; exact ⟨hr, by simp⟩
  unfold decodeGalileo at h
  iterate 5
    rw [bind_ok] at h
    obtain ⟨_, -, h⟩ := h
  split at h
  · exact triv h
  split at h
  · exact triv h
  iterate 4
    rw [bind_ok] at h
    obtain ⟨_, -, h⟩ := h
  split at h
  · exact triv h
  rw [bind_ok] at h
  obtain ⟨_, -, h⟩ := h
  split at h
  · exact triv h
  split at h
  · exact absurd h (by simp)
  unfold galAccept at h
  iterate 5
    rw [bind_ok] at h
    obtain ⟨_, -, h⟩ := h
  split at h
  · exact triv h
  rw [bind_ok] at h
  obtain ⟨⟨e1, g⟩, h1, h⟩ := h
  have := galInav_same h1
  dsimp only at h
  split at h
  · injection h with h; subst h; exact ⟨this, by simp⟩
  · rw [bind_ok] at h
    obtain ⟨_, -, h⟩ := h
    injection h with h; subst h; exact ⟨this, by simpa using this⟩

theorem ephStep_sat {md : Mode} {junk : List Byte} {t : UTCTime} {row : List Byte} {m : Sfrbx} {e : Eph} {o : EphOut}
    (h : ephStep md junk t row m e = .ok o) : o.eph.sat = m.svId := by
  unfold ephStep at h
  dsimp only at h
  split at h
  · rw [bind_ok] at h
    obtain ⟨a, h1, h⟩ := h
    injection h with h; subst h
    exact decodeGPS_sat h1
  split at h
  · rw [bind_ok] at h
    obtain ⟨a, h1, h⟩ := h
    injection h with h; subst h
    exact (decodeGalileo_same h1).1.1
  · rw [bind_ok] at h
    obtain ⟨a, h1, h⟩ := h
    injection h with h; subst h
    rfl

/-- The new parser state after a non-GLONASS message. -/
structure EphNext (n : Nav) (m : Sfrbx) (r : EphOut) (n' : Nav) : Prop where
  own : n'.entry m.svId = some r.eph
  other : ∀ s, s ≠ m.svId → n'.entry s = n.entry s
  geph : n'.geph = n.geph
  cbs : n'.ephCbs = n.ephCbs ∧ n'.gephCbs = n.gephCbs
  time : n'.gpsTime = r.gpsTime
  row : n'.gal m.svId.toNat = r.row
  rows : ∀ k, k ≠ m.svId.toNat → n'.gal k = n.gal k

theorem convertEph_aux (md : Mode) (junk : List Byte) (n : Nav) (m : Sfrbx) (pre post : List Eph) (x : Eph)
    (slot : Slot Eph.sat m.svId n.eph x pre post) :
    (∀ r, ephStep md junk n.gpsTime (n.gal m.svId.toNat) m x = .ok r →
      ∃ n', (match (pre ++ x :: post)[pre.length]? with
        | none => .error .oobRead
        | some e0 =>
          let e := { e0 with sat := m.svId, gnssID := m.gnssId }
          if m.gnssId = 0 then do
            let o ← decodeGPS junk n.gpsTime m.dwrd e
            .ok ⟨{ n with eph := (pre ++ x :: post).set pre.length o.eph, gpsTime := o.gpsTime },
              ephCalls n.ephCbs o.reports, some o.ret⟩
          else if m.gnssId = 2 then do
            let o ← decodeGalileo md m.dwrd (n.gal m.svId.toNat) e
            .ok ⟨{ n with eph := (pre ++ x :: post).set pre.length o.eph,
                          gal := fun s => if s = m.svId.toNat then o.row else n.gal s },
                 ephCalls n.ephCbs o.reports, some o.ret⟩
          else do
            offEnd md
            .ok ⟨{ n with eph := (pre ++ x :: post).set pre.length e }, [], none⟩ : M NavOut) =
        .ok ⟨n', ephCalls n.ephCbs r.reports, r.ret⟩ ∧ EphNext n m r n') ∧
    (∀ u, ephStep md junk n.gpsTime (n.gal m.svId.toNat) m x = .error u →
      (match (pre ++ x :: post)[pre.length]? with
        | none => .error .oobRead
        | some e0 =>
          let e := { e0 with sat := m.svId, gnssID := m.gnssId }
          if m.gnssId = 0 then do
            let o ← decodeGPS junk n.gpsTime m.dwrd e
            .ok ⟨{ n with eph := (pre ++ x :: post).set pre.length o.eph, gpsTime := o.gpsTime },
              ephCalls n.ephCbs o.reports, some o.ret⟩
          else if m.gnssId = 2 then do
            let o ← decodeGalileo md m.dwrd (n.gal m.svId.toNat) e
            .ok ⟨{ n with eph := (pre ++ x :: post).set pre.length o.eph,
                          gal := fun s => if s = m.svId.toNat then o.row else n.gal s },
                 ephCalls n.ephCbs o.reports, some o.ret⟩
          else do
            offEnd md
            .ok ⟨{ n with eph := (pre ++ x :: post).set pre.length e }, [], none⟩ : M NavOut) = .error u) := by
  have hg : (pre ++ x :: post)[pre.length]? = some x := by simp
  rw [hg]
  dsimp only
  refine ⟨fun r hr => ?_, fun u hu => ?_⟩
  · have hsat := ephStep_sat hr
    unfold ephStep at hr
    dsimp only at hr
    by_cases c0 : m.gnssId = 0
    · rw [if_pos c0] at hr ⊢
      rw [bind_ok] at hr
      obtain ⟨a, h1, h⟩ := hr
      injection h with h; subst h
      rw [h1, ok_bind, set_mid]
      exact ⟨_, rfl, slot.new _ hsat, fun s hs => slot.old s hs _ hsat, rfl, ⟨rfl, rfl⟩, rfl, rfl, fun _ _ => rfl⟩
    · rw [if_neg c0] at hr ⊢
      by_cases c2 : m.gnssId = 2
      · rw [if_pos c2] at hr ⊢
        rw [bind_ok] at hr
        obtain ⟨a, h1, h⟩ := hr
        injection h with h; subst h
        rw [h1, ok_bind, set_mid]
        exact ⟨_, rfl, slot.new _ hsat, fun s hs => slot.old s hs _ hsat, rfl, ⟨rfl, rfl⟩, rfl, if_pos rfl,
          fun _ hk => if_neg hk⟩
      · rw [if_neg c2] at hr ⊢
        rw [bind_ok] at hr
        obtain ⟨a, h1, h⟩ := hr
        injection h with h; subst h
        rw [h1, ok_bind, set_mid]
        exact ⟨_, rfl, slot.new _ hsat, fun s hs => slot.old s hs _ hsat, rfl, ⟨rfl, rfl⟩, rfl, rfl, fun _ _ => rfl⟩
  · unfold ephStep at hu
    dsimp only at hu
    by_cases c0 : m.gnssId = 0
    · rw [if_pos c0] at hu ⊢
      rw [bind_err] at hu ⊢
      rcases hu with hu | ⟨a, -, hu⟩
      · exact .inl hu
      · simp at hu
    · rw [if_neg c0] at hu ⊢
      by_cases c2 : m.gnssId = 2
      · rw [if_pos c2] at hu ⊢
        rw [bind_err] at hu ⊢
        rcases hu with hu | ⟨a, -, hu⟩
        · exact .inl hu
        · simp at hu
      · rw [if_neg c2] at hu ⊢
        rw [bind_err] at hu ⊢
        rcases hu with hu | ⟨a, -, hu⟩
        · exact .inl hu
        · simp at hu

/-- The entry a message for satellite `s` works on. -/
def Nav.cur (n : Nav) (s : Byte) : Eph := (n.entry s).getD Eph.fresh

/-- A non-GLONASS message is a step on the entry of its satellite and nothing else. -/
theorem convertEph_spec (md : Mode) (junk : List Byte) (n : Nav) (m : Sfrbx) :
    (∀ r, ephStep md junk n.gpsTime (n.gal m.svId.toNat) m (n.cur m.svId) = .ok r →
      ∃ n', convertEph md junk n m = .ok ⟨n', ephCalls n.ephCbs r.reports, r.ret⟩ ∧ EphNext n m r n') ∧
    (∀ u, ephStep md junk n.gpsTime (n.gal m.svId.toNat) m (n.cur m.svId) = .error u →
      convertEph md junk n m = .error u) := by
  rcases findLast_gen Eph.sat m.svId n.eph 0 none with ⟨h1, h2⟩ | ⟨pre, x, post, h1, h2, h3, h4⟩
  · have hc : n.cur m.svId = Eph.fresh := by
      unfold Nav.cur Nav.entry; rw [last_none _ _ _ h2]; rfl
    rw [hc]
    have := convertEph_aux md junk n m n.eph [] Eph.fresh (slot_new _ _ _ _)
    unfold convertEph
    rw [h1]
    exact this
  · have hc : n.cur m.svId = x := by
      unfold Nav.cur Nav.entry; rw [h1, last_split _ _ _ _ _ h2 h3]; rfl
    rw [hc]
    have slot := slot_found Eph.sat m.svId pre x post h2 h3
    rw [← h1] at slot
    have := convertEph_aux md junk n m pre post x slot
    unfold convertEph
    rw [h4, Nat.zero_add]
    rw [← h1] at this
    exact this

/-! ## GLONASS -/

theorem gloFrame_sat {md : Mode} {t : UTCTime} {k : Nat} {b : List Byte} {g g' : GEph}
    (h : gloFrame md t k b g = .ok g') : g'.sat = g.sat := by
  unfold gloFrame at h
  split at h
  · unfold gloFrame1 at h
    iterate 8
      rw [bind_ok] at h
      obtain ⟨_, -, h⟩ := h
    injection h with h; subst h; rfl
  · unfold gloFrame2 at h
    iterate 7
      rw [bind_ok] at h
      obtain ⟨_, -, h⟩ := h
    injection h with h; subst h; rfl
  · unfold gloFrame3 at h
    iterate 5
      rw [bind_ok] at h
      obtain ⟨_, -, h⟩ := h
    injection h with h; subst h; rfl
  · unfold gloFrame4 at h
    iterate 5
      rw [bind_ok] at h
      obtain ⟨_, -, h⟩ := h
    injection h with h; subst h; rfl

theorem decodeGlonass_sat {md : Mode} {t : UTCTime} {gn sv fr : Byte} {d : List Byte} {g : GEph} {o : GloOut}
    (hg : g.sat = sv) (h : decodeGlonass md t gn sv fr d g = .ok o) :
    o.geph.sat = sv ∧ ∀ r ∈ o.reports, r.sat = sv := by
  have triv : ∀ {b : Bool}, (Except.ok ⟨g, [], b⟩ : M GloOut) = .ok o → o.geph.sat = sv ∧ ∀ r ∈ o.reports, r.sat = sv := by
    intro b h; injection h with h; subst h; exact ⟨hg, by simp⟩
  unfold decodeGlonass at h
  split at h
  · exact triv h
  split at h
  · exact triv h
  iterate 2
    rw [bind_ok] at h
    obtain ⟨_, -, h⟩ := h
  split at h
  · exact triv h
  iterate 2
    rw [bind_ok] at h
    obtain ⟨_, -, h⟩ := h
  rw [bind_ok] at h
  obtain ⟨⟨g3, done⟩, h3, h⟩ := h
  have hs : g3.sat = sv := by
    unfold gloString at h3
    rw [bind_ok] at h3
    obtain ⟨num, -, h3⟩ := h3
    split at h3
    · injection h3 with h3; injection h3 with h3; subst h3
      dsimp only; split <;> exact hg
    · rw [bind_ok] at h3
      obtain ⟨g1, h1, h3⟩ := h3
      have := gloFrame_sat h1
      have e : g1.sat = sv := by
        rw [this]; dsimp only; split <;> exact hg
      split at h3
      · injection h3 with h3; injection h3 with h3; subst h3; exact e
      · injection h3 with h3; injection h3 with h3; subst h3; exact e
  dsimp only at h
  split at h
  · injection h with h; subst h; exact ⟨hs, by simp⟩
  · injection h with h; subst h; exact ⟨rfl, by simp⟩

/-- The entry a GLONASS message for satellite `s` works on. -/
def Nav.gcur (n : Nav) (s : Byte) : GEph := (n.gentry s).getD { GEph.fresh with sat := s }

/-- The new parser state after a GLONASS message. -/
structure GloNext (n : Nav) (m : Sfrbx) (r : GloOut) (n' : Nav) : Prop where
  own : n'.gentry m.svId = some r.geph
  other : ∀ s, s ≠ m.svId → n'.gentry s = n.gentry s
  eph : n'.eph = n.eph
  cbs : n'.ephCbs = n.ephCbs ∧ n'.gephCbs = n.gephCbs
  time : n'.gpsTime = n.gpsTime
  rows : n'.gal = n.gal

theorem convertGlo_aux (md : Mode) (n : Nav) (m : Sfrbx) (pre post : List GEph) (x : GEph) (hx : x.sat = m.svId)
    (slot : Slot GEph.sat m.svId n.geph x pre post) :
    (∀ r, decodeGlonass md n.gpsTime m.gnssId m.svId m.freqId m.dwrd x = .ok r →
      ∃ n', (match (pre ++ x :: post)[pre.length]? with
        | none => .error .oobRead
        | some g => do
          let o ← decodeGlonass md n.gpsTime m.gnssId m.svId m.freqId m.dwrd g
          .ok ⟨{ n with geph := (pre ++ x :: post).set pre.length o.geph }, gephCalls n.gephCbs o.reports,
            some o.ret⟩ : M NavOut) =
        .ok ⟨n', gephCalls n.gephCbs r.reports, some r.ret⟩ ∧ GloNext n m r n') ∧
    (∀ u, decodeGlonass md n.gpsTime m.gnssId m.svId m.freqId m.dwrd x = .error u →
      (match (pre ++ x :: post)[pre.length]? with
        | none => .error .oobRead
        | some g => do
          let o ← decodeGlonass md n.gpsTime m.gnssId m.svId m.freqId m.dwrd g
          .ok ⟨{ n with geph := (pre ++ x :: post).set pre.length o.geph }, gephCalls n.gephCbs o.reports,
            some o.ret⟩ : M NavOut) = .error u) := by
  have hg : (pre ++ x :: post)[pre.length]? = some x := by simp
  rw [hg]
  dsimp only
  refine ⟨fun r hr => ?_, fun u hu => ?_⟩
  · have hsat := (decodeGlonass_sat hx hr).1
    rw [hr, ok_bind, set_mid]
    exact ⟨_, rfl, slot.new _ hsat, fun s hs => slot.old s hs _ hsat, rfl, ⟨rfl, rfl⟩, rfl, rfl⟩
  · rw [hu]; rfl

/-- A GLONASS message is a step on the GLONASS entry of its satellite and nothing else. -/
theorem convertGlo_spec (md : Mode) (n : Nav) (m : Sfrbx) :
    (∀ r, decodeGlonass md n.gpsTime m.gnssId m.svId m.freqId m.dwrd (n.gcur m.svId) = .ok r →
      ∃ n', convertGlo md n m = .ok ⟨n', gephCalls n.gephCbs r.reports, some r.ret⟩ ∧ GloNext n m r n') ∧
    (∀ u, decodeGlonass md n.gpsTime m.gnssId m.svId m.freqId m.dwrd (n.gcur m.svId) = .error u →
      convertGlo md n m = .error u) := by
  rcases findLast_gen GEph.sat m.svId n.geph 0 none with ⟨h1, h2⟩ | ⟨pre, x, post, h1, h2, h3, h4⟩
  · have hc : n.gcur m.svId = { GEph.fresh with sat := m.svId } := by
      unfold Nav.gcur Nav.gentry; rw [last_none _ _ _ h2]; rfl
    rw [hc]
    have := convertGlo_aux md n m n.geph [] { GEph.fresh with sat := m.svId } rfl (slot_new _ _ _ _)
    unfold convertGlo
    rw [h1]
    exact this
  · have hc : n.gcur m.svId = x := by
      unfold Nav.gcur Nav.gentry; rw [h1, last_split _ _ _ _ _ h2 h3]; rfl
    rw [hc]
    have slot := slot_found GEph.sat m.svId pre x post h2 h3
    rw [← h1] at slot
    have := convertGlo_aux md n m pre post x h2 slot
    unfold convertGlo
    rw [h4, Nat.zero_add]
    rw [← h1] at this
    exact this

/-- Every stored entry found under a number carries that number. -/
theorem Nav.entry_sat {n : Nav} {s : Byte} {e : Eph} (h : n.entry s = some e) : e.sat = s := by
  have := List.mem_of_getLast? h
  simp only [List.mem_filter] at this
  simpa using this.2

theorem Nav.gentry_sat {n : Nav} {s : Byte} {g : GEph} (h : n.gentry s = some g) : g.sat = s := by
  have := List.mem_of_getLast? h
  simp only [List.mem_filter] at this
  simpa using this.2

theorem Nav.gcur_sat (n : Nav) (s : Byte) : (n.gcur s).sat = s := by
  unfold Nav.gcur
  cases h : n.gentry s with
  | none => rfl
  | some g => exact Nav.gentry_sat h

/-! ## Runs -/

theorem step_eph {md : Mode} {junk : List Byte} {n n' : Nav} {m : Sfrbx} {c : List NavCall} (hg : m.gnssId ≠ GLONASS)
    (h : n.step md (.sfrbx junk m) = .ok (n', c)) :
    ∃ r, ephStep md junk n.gpsTime (n.gal m.svId.toNat) m (n.cur m.svId) = .ok r ∧
      c = ephCalls n.ephCbs r.reports ∧ EphNext n m r n' := by
  simp only [Nav.step, convertUBX, if_neg hg] at h
  rw [bind_ok] at h
  obtain ⟨o, h1, h⟩ := h
  injection h with h; injection h with ha hb; subst ha; subst hb
  have spec := convertEph_spec md junk n m
  cases hr : ephStep md junk n.gpsTime (n.gal m.svId.toNat) m (n.cur m.svId) with
  | error u => rw [spec.2 u hr] at h1; simp at h1
  | ok r =>
    obtain ⟨n1, e1, nx⟩ := spec.1 r hr
    rw [e1] at h1
    injection h1 with h1; subst h1
    exact ⟨r, rfl, rfl, nx⟩

theorem step_glo {md : Mode} {junk : List Byte} {n n' : Nav} {m : Sfrbx} {c : List NavCall} (hg : m.gnssId = GLONASS)
    (h : n.step md (.sfrbx junk m) = .ok (n', c)) :
    ∃ r, decodeGlonass md n.gpsTime m.gnssId m.svId m.freqId m.dwrd (n.gcur m.svId) = .ok r ∧
      c = gephCalls n.gephCbs r.reports ∧ GloNext n m r n' := by
  simp only [Nav.step, convertUBX, if_pos hg] at h
  rw [bind_ok] at h
  obtain ⟨o, h1, h⟩ := h
  injection h with h; injection h with ha hb; subst ha; subst hb
  have spec := convertGlo_spec md n m
  cases hr : decodeGlonass md n.gpsTime m.gnssId m.svId m.freqId m.dwrd (n.gcur m.svId) with
  | error u => rw [spec.2 u hr] at h1; simp at h1
  | ok r =>
    obtain ⟨n1, e1, nx⟩ := spec.1 r hr
    rw [e1] at h1
    injection h1 with h1; subst h1
    exact ⟨r, rfl, rfl, nx⟩

theorem run_nil {md : Mode} {n n' : Nav} {cs : List (List NavCall)} :
    n.run md [] = .ok (n', cs) ↔ n' = n ∧ cs = [] := by
  simp only [Nav.run, Except.ok.injEq, Prod.mk.injEq]
  constructor <;> (rintro ⟨a, b⟩; exact ⟨a.symm, b.symm⟩)

theorem run_cons {md : Mode} {n n' : Nav} {op : NavOp} {ops : List NavOp} {cs : List (List NavCall)} :
    n.run md (op :: ops) = .ok (n', cs) ↔
      ∃ n1 c cs', n.step md op = .ok (n1, c) ∧ n1.run md ops = .ok (n', cs') ∧ cs = c :: cs' := by
  simp only [Nav.run, bind_ok]
  constructor
  · rintro ⟨⟨n1, c⟩, h1, ⟨n2, cs'⟩, h2, h⟩
    injection h with h; injection h with ha hb; subst ha; subst hb
    exact ⟨n1, c, cs', h1, h2, rfl⟩
  · rintro ⟨n1, c, cs', h1, h2, rfl⟩
    exact ⟨(n1, c), h1, (n', cs'), h2, rfl⟩

theorem run_append {md : Mode} {n n' : Nav} {a b : List NavOp} {cs : List (List NavCall)} :
    n.run md (a ++ b) = .ok (n', cs) ↔
      ∃ n1 c1 c2, n.run md a = .ok (n1, c1) ∧ n1.run md b = .ok (n', c2) ∧ cs = c1 ++ c2 := by
  induction a generalizing n cs with
  | nil =>
    simp only [List.nil_append, run_nil]
    constructor
    · intro h; exact ⟨n, [], cs, ⟨rfl, rfl⟩, h, rfl⟩
    · rintro ⟨n1, c1, c2, ⟨rfl, rfl⟩, h, rfl⟩; exact h
  | cons op a ih =>
    simp only [List.cons_append, run_cons, ih]
    constructor
    · rintro ⟨n1, c, cs', h1, ⟨n2, c1, c2, h2, h3, rfl⟩, rfl⟩
      exact ⟨n2, c :: c1, c2, ⟨n1, c, c1, h1, h2, rfl⟩, h3, rfl⟩
    · rintro ⟨n2, c1, c2, ⟨n1, c, cs', h1, h2, rfl⟩, h3, rfl⟩
      exact ⟨n1, c, cs' ++ c2, h1, ⟨n2, cs', c2, h2, h3, rfl⟩, rfl⟩

theorem run_length {md : Mode} {n n' : Nav} {ops : List NavOp} {cs : List (List NavCall)}
    (h : n.run md ops = .ok (n', cs)) : cs.length = ops.length := by
  induction ops generalizing n cs with
  | nil => rw [run_nil] at h; rw [h.2]; rfl
  | cons op ops ih =>
    rw [run_cons] at h
    obtain ⟨n1, c, cs', -, h2, rfl⟩ := h
    simp [ih h2]

end Ublox.Nav
