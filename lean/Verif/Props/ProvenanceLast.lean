import Verif.Props.Provenance

/-!
# C151: an ephemeris reported is made of the latest messages received
-/

namespace Ublox
namespace Dev

open Nav (Nav NavCall Mode Sfrbx NavOp CarriesGps CarriesGlo CarriesGal Consistent greportTo reportTo iode1Of iode2Of heard timed
  gloBit gloNum gloMark usable wType GoodPage)

/-! ### Lists -/

theorem last_split {α : Type} {p : α → Bool} {l : List α} {w : α} (h : (l.filter p).getLast? = some w) :
    ∃ a b, l = a ++ w :: b ∧ p w = true ∧ ∀ x ∈ b, p x = false := by
  induction l using List.reverseRecOn with
  | nil => cases h
  | append_singleton l y ih =>
    rw [List.filter_append] at h
    by_cases hy : p y = true
    · rw [List.filter_cons_of_pos hy, List.filter_nil, List.getLast?_append_of_ne_nil _ (by simp)] at h
      have : y = w := by simpa using h
      subst this
      exact ⟨l, [], rfl, hy, by simp⟩
    · rw [List.filter_cons_of_neg hy, List.filter_nil, List.append_nil] at h
      obtain ⟨a, b, e, hw, hb⟩ := ih h
      refine ⟨a, b ++ [y], by rw [e, List.append_assoc]; rfl, hw, fun x hx => ?_⟩
      rcases List.mem_append.1 hx with hx | hx
      · exact hb x hx
      · rw [List.mem_singleton.1 hx]; simpa using hy

theorem filterMap_split {α β : Type} {f : α → Option β} {l : List α} {a b : List β} {w : β} (h : l.filterMap f = a ++ w :: b) :
    ∃ l1 x l2, l = l1 ++ x :: l2 ∧ f x = some w ∧ l1.filterMap f = a ∧ l2.filterMap f = b := by
  obtain ⟨k1, k2, e, h1, h2⟩ := List.filterMap_eq_append_iff.1 h
  obtain ⟨m1, x, m2, e2, h3, h4, h5⟩ := List.filterMap_eq_cons_iff.1 h2
  refine ⟨k1 ++ m1, x, m2, by rw [e, e2, List.append_assoc], h4, ?_, h5⟩
  rw [List.filterMap_append, h1, List.filterMap_eq_nil_iff.2 h3, List.append_nil]

/-- A split of what the decoder did is a split of what was received. -/
theorem sameIn_split {ins : List NavIn} {l1 l2 : List NavOp} {j : List Byte} {m : Sfrbx}
    (h : List.Forall₂ SameIn ins (l1 ++ .sfrbx j m :: l2)) :
    ∃ a q b, ins = a ++ .sfrbx q :: b ∧ List.Forall₂ SameIn a l1 ∧ SameIn (.sfrbx q) (.sfrbx j m) ∧ List.Forall₂ SameIn b l2 := by
  obtain ⟨a, r, h1, h2, e⟩ := forall2_append_left h.flip
  obtain ⟨x, b, h3, h4, e2⟩ := List.forall₂_cons_left_iff.1 h2
  subst e e2
  have h3' : SameIn x (.sfrbx j m) := h3
  cases x with
  | addEph => cases h3'
  | addGeph => cases h3'
  | sfrbx q => exact ⟨a, q, b, rfl, h1.flip, h3', h4.flip⟩

theorem sameIn_sfrbx {q : List Byte} {op : NavOp} (h : SameIn (.sfrbx q) op) : ∃ j m, op = .sfrbx j m := by
  cases h with
  | sfrbx _ buf hl hp => exact ⟨_, _, rfl⟩

/-! ### GPS -/

/-- The GPS subframes received for satellite `s`. -/
def gpsOf (s : Byte) : NavOp → Option (List Byte)
  | .sfrbx _ m => if m.gnssId = 0 ∧ m.svId = s then some m.dwrd else none
  | _ => none

theorem pending_suffix {s : Byte} (ops : List NavOp) : ∀ (cs : List (List NavCall)) (P Q : List (List Byte)), ops.length = cs.length →
    P <:+ Q → (ops.zip cs).foldl (Nav.pendStep s) P <:+ Q ++ ops.filterMap (gpsOf s) := by
  induction ops with
  | nil => intro cs P Q _ h; simpa using h
  | cons op ops ih =>
    intro cs P Q hl h
    cases cs with
    | nil => cases hl
    | cons c cs =>
      have hl' : ops.length = cs.length := by simpa using hl
      rw [List.zip_cons_cons, List.foldl_cons]
      have other : gpsOf s op = none → Nav.pendStep s P (op, c) = P →
          (ops.zip cs).foldl (Nav.pendStep s) (Nav.pendStep s P (op, c)) <:+ Q ++ (op :: ops).filterMap (gpsOf s) := by
        intro h1 h2
        rw [List.filterMap_cons_none h1, h2]
        exact ih cs P Q hl' h
      cases op with
      | setTime t => exact other rfl rfl
      | addEphCb => exact other rfl rfl
      | addGephCb => exact other rfl rfl
      | sfrbx j m =>
        by_cases hc : m.gnssId = 0 ∧ m.svId = s
        · rw [List.filterMap_cons_some (show gpsOf s (.sfrbx j m) = some m.dwrd from if_pos hc)]
          have e : Nav.pendStep s P (.sfrbx j m, c) = if c = [] then P ++ [m.dwrd] else [] := if_pos hc
          rw [e, show Q ++ m.dwrd :: ops.filterMap (gpsOf s) = (Q ++ [m.dwrd]) ++ ops.filterMap (gpsOf s) by simp]
          refine ih cs _ _ hl' ?_
          by_cases hn : c = []
          · rw [if_pos hn]
            obtain ⟨t, rfl⟩ := h
            exact ⟨t, by simp⟩
          · rw [if_neg hn]; exact List.nil_suffix
        · exact other (if_neg hc) (if_neg hc)

theorem latest_suffix {k : Nat} {P Q : List (List Byte)} {w : List Byte} (h : P <:+ Q) (hl : Nav.latest k P = some w) :
    Nav.latest k Q = some w := by
  obtain ⟨t, rfl⟩ := h
  unfold Nav.latest at hl ⊢
  rw [List.filter_append, List.getLast?_append_of_ne_nil _ (by intro e; rw [e] at hl; cases hl)]
  exact hl

/-- **C151**, GPS: whatever a device went through, when it reports a GPS ephemeris the parameters reported are exactly the ones in
the latest subframes 1, 2 and 3 received from that satellite (the message just received included) - unless it was also given
messages of a Galileo satellite under the same number (see C51) - and the issues of data in subframes 1 and 2 are equal. -/
theorem c151_gps_latest {md : Mode} {evs : List Ev} {d : Dev} {ins : List NavIn} {es : List Eff} (h : Course md evs d ins es)
    (hall : ∀ pl, NavIn.sfrbx pl ∈ ins → AllWords pl) {i : Nat} {e : Nav.Eph} (hx : Eff.nav (.eph i e) ∈ es) (hgps : e.gnssID = 0) :
    ∃ before pl after pl1 pl2 pl3, ins = before ++ .sfrbx pl :: after ∧ About 0 e.sat pl ∧ i < ephRegs before ∧
      LastOf (GpsPart e.sat 1) pl1 (before ++ [.sfrbx pl]) ∧ LastOf (GpsPart e.sat 2) pl2 (before ++ [.sfrbx pl]) ∧
      LastOf (GpsPart e.sat 3) pl3 (before ++ [.sfrbx pl]) ∧ iode1Of (wordsIn pl1) = iode2Of (wordsIn pl2) ∧
      ((∀ q, NavIn.sfrbx q ∈ before → ¬ About 2 e.sat q) → CarriesGps e e.sat (wordsIn pl1) (wordsIn pl2) (wordsIn pl3)) := by
  obtain ⟨before, pl, after, A, j, m, n1, n2, c1, r, rfl, hF, hS, h1, h2, h3⟩ := course_call h hx
  obtain ⟨hne, hsat, hg, -⟩ := eph_call h2 h3
  have hg0 : m.gnssId = 0 := by rw [← hg, hgps]
  have hpl : AllWords pl := hall pl (List.mem_append_right _ List.mem_cons_self)
  have hF' : List.Forall₂ SameIn (before ++ [.sfrbx pl]) (A ++ [.sfrbx j m]) := List.rel_append hF (.cons hS .nil)
  have hall' : ∀ q, NavIn.sfrbx q ∈ before ++ [.sfrbx pl] → AllWords q := fun q hq => by
    refine hall q ?_
    rcases List.mem_append.1 hq with hq | hq
    · exact List.mem_append_left _ hq
    · rw [List.mem_singleton.1 hq]; exact List.mem_append_right _ List.mem_cons_self
  obtain ⟨e', d1, d2, d3, hr, l1, l2, l3, hio, hcar⟩ := Nav.c49_consistent_partial md A n1 n2 c1 j m r (wf_all hF)
    (wf_all (.cons hS .nil) _ List.mem_cons_self) h1 hg0 h2 hne
  rw [hr] at h3
  unfold reportTo at h3
  obtain ⟨i', hi, he⟩ := List.mem_map.1 h3
  cases he
  rw [List.mem_range, ephRegs_eq hF] at hi
  have hsuf : Nav.pending m.svId A c1 ++ [m.dwrd] <:+ (A ++ [NavOp.sfrbx j m]).filterMap (gpsOf m.svId) := by
    have e1 : gpsOf m.svId (NavOp.sfrbx j m) = some m.dwrd := if_pos ⟨hg0, rfl⟩
    rw [List.filterMap_append, List.filterMap_cons_some e1, List.filterMap_nil]
    obtain ⟨t, ht⟩ := pending_suffix (s := m.svId) A c1 [] [] (Nav.allowed_run A h1).1.symm List.suffix_rfl
    exact ⟨t, by rw [List.nil_append] at ht; rw [← ht]; unfold Nav.pending; simp⟩
  have find : ∀ k w, Nav.latest k (Nav.pending m.svId A c1 ++ [m.dwrd]) = some w → ∃ q,
      LastOf (GpsPart e.sat k) q (before ++ [.sfrbx pl]) ∧ w = wordsIn q := by
    intro k w hl
    obtain ⟨a, b, hab, hk, hb⟩ := last_split (latest_suffix hsuf hl)
    have hk : Nav.gpsId w = k := of_decide_eq_true hk
    obtain ⟨o1, x, o2, ho, hw, -, ho2⟩ := filterMap_split hab
    cases x with
    | setTime t => cases hw
    | addEphCb => cases hw
    | addGephCb => cases hw
    | sfrbx j' m' =>
      dsimp only [gpsOf] at hw
      by_cases hc : m'.gnssId = 0 ∧ m'.svId = m.svId
      · rw [if_pos hc] at hw
        have hw := Option.some.inj hw
        rw [ho] at hF'
        obtain ⟨i1, q, i2, hi, -, hq, hF2⟩ := sameIn_split hF'
        obtain ⟨ab, ew⟩ := gps_words hq (hall' q (by rw [hi]; exact List.mem_append_right _ List.mem_cons_self)) hc.1
        refine ⟨q, ⟨i1, i2, hi, ⟨by rw [hsat, ← hc.2]; exact ab, by rw [← ew, hw]; exact hk⟩, fun r hr hp => ?_⟩, by rw [← ew, hw]⟩
        obtain ⟨y, hy, hsy⟩ := forall2_mem_left hF2 hr
        obtain ⟨j2, m2, rfl⟩ := sameIn_sfrbx hsy
        have har : AllWords r := hall' r (by rw [hi]; exact List.mem_append_right _ (List.mem_cons_of_mem _ hr))
        obtain ⟨p0, p1, -⟩ := op_payload hsy har.1
        have g0 : m2.gnssId = 0 := Option.some.inj (p0.symm.trans hp.about.1)
        have gs : m2.svId = m.svId := (Option.some.inj (p1.symm.trans hp.about.2)).trans hsat
        have hin : m2.dwrd ∈ b := by
          rw [← ho2]
          exact List.mem_filterMap.2 ⟨_, hy, if_pos ⟨g0, gs⟩⟩
        have := hb _ hin
        rw [(gps_words hsy har g0).2] at this
        exact of_decide_eq_false this hp.num
      · rw [if_neg hc] at hw; cases hw
  obtain ⟨q1, p1, rfl⟩ := find 1 d1 l1
  obtain ⟨q2, p2, rfl⟩ := find 2 d2 l2
  obtain ⟨q3, p3, rfl⟩ := find 3 d3 l3
  refine ⟨before, pl, after, q1, q2, q3, rfl, ?_, hi, p1, p2, p3, hio, fun hno => ?_⟩
  · rw [hsat]; exact (gps_words hS hpl hg0).1
  · rw [hsat]
    refine hcar fun op hop hgal => ?_
    obtain ⟨x, hx, hsx⟩ := forall2_mem_left hF.flip hop
    cases op with
    | setTime t => exact hgal
    | addEphCb => exact hgal
    | addGephCb => exact hgal
    | sfrbx j' m' =>
      have hsx' : SameIn x (.sfrbx j' m') := hsx
      cases x with
      | addEph => cases hsx'
      | addGeph => cases hsx'
      | sfrbx q =>
        refine hno q hx ?_
        rw [hsat, ← hgal.2]
        exact (gal_words hsx' (hall q (List.mem_append_left _ hx)) hgal.1).1

/-! ### Galileo -/

theorem sinceWord2_snoc (l : List (List Byte)) (d : List Byte) :
    Nav.sinceWord2 (l ++ [d]) = if wType d = 2 then [d] else Nav.sinceWord2 l ++ [d] := by
  unfold Nav.sinceWord2
  rw [List.foldl_append]; rfl

theorem sinceWord2_split (l : List (List Byte)) (h : ∃ x ∈ Nav.sinceWord2 l, wType x = 2) :
    ∃ a d b, l = a ++ d :: b ∧ wType d = 2 ∧ (∀ x ∈ b, wType x ≠ 2) ∧ Nav.sinceWord2 l = d :: b := by
  induction l using List.reverseRecOn with
  | nil => obtain ⟨x, hx, -⟩ := h; cases hx
  | append_singleton l y ih =>
    rw [sinceWord2_snoc] at h ⊢
    by_cases hy : wType y = 2
    · rw [if_pos hy]
      exact ⟨l, y, [], rfl, hy, by simp, rfl⟩
    · rw [if_neg hy] at h ⊢
      obtain ⟨x, hx, hx2⟩ := h
      rcases List.mem_append.1 hx with hx | hx
      · obtain ⟨a, d, b, e, h1, h2, h3⟩ := ih ⟨x, hx, hx2⟩
        refine ⟨a, d, b ++ [y], by rw [e, List.append_assoc]; rfl, h1, fun z hz => ?_, by rw [h3]; rfl⟩
        rcases List.mem_append.1 hz with hz | hz
        · exact h2 z hz
        · rw [List.mem_singleton.1 hz]; exact hy
      · rw [List.mem_singleton.1 hx] at hx2; exact absurd hx2 hy

open Classical in
/-- The page accepted by one operation. -/
noncomputable def pageOf (s : Byte) : NavOp → Option (List Byte)
  | .sfrbx _ m => if m.gnssId = 2 ∧ m.svId = s ∧ GoodPage m.dwrd then some m.dwrd else none
  | _ => none

theorem pagesOf_eq (s : Byte) (ops : List NavOp) : Nav.pagesOf s ops = ops.filterMap (pageOf s) := by
  unfold Nav.pagesOf
  congr 1

theorem pageOf_some {s : Byte} {op : NavOp} {d : List Byte} (h : pageOf s op = some d) :
    ∃ j m, op = .sfrbx j m ∧ m.gnssId = 2 ∧ m.svId = s ∧ GoodPage m.dwrd ∧ m.dwrd = d := by
  cases op with
  | setTime t => cases h
  | addEphCb => cases h
  | addGephCb => cases h
  | sfrbx j m =>
    dsimp only [pageOf] at h
    by_cases hc : m.gnssId = 2 ∧ m.svId = s ∧ GoodPage m.dwrd
    · rw [if_pos hc] at h
      exact ⟨j, m, rfl, hc.1, hc.2.1, hc.2.2, Option.some.inj h⟩
    · rw [if_neg hc] at h; cases h

/-- A page split out of the pages accepted is a message received, and the pages after it are all there was after it. -/
theorem page_split {s : Byte} {ins : List NavIn} {ops : List NavOp} (hF : List.Forall₂ SameIn ins ops)
    (hall : ∀ q, NavIn.sfrbx q ∈ ins → AllWords q) {a b : List (List Byte)} {w : List Byte}
    (h : ops.filterMap (pageOf s) = a ++ w :: b) :
    ∃ i1 q i2 o2, ins = i1 ++ .sfrbx q :: i2 ∧ GalPart s (wType w) q ∧ w.take 32 = (wordsIn q).take 32 ∧ List.Forall₂ SameIn i2 o2 ∧
      o2.filterMap (pageOf s) = b ∧ ∀ k, (∀ x ∈ b, wType x ≠ k) → ∀ r, NavIn.sfrbx r ∈ i2 → ¬ GalPart s k r := by
  obtain ⟨o1, x, o2, ho, hw, -, ho2⟩ := filterMap_split h
  obtain ⟨j', m', rfl, g2, gs, gd, rfl⟩ := pageOf_some hw
  rw [ho] at hF
  obtain ⟨i1, q, i2, hi, -, hq, hF2⟩ := sameIn_split hF
  have hq' : AllWords q := hall q (by rw [hi]; exact List.mem_append_right _ List.mem_cons_self)
  obtain ⟨ab, ew⟩ := gal_words hq hq' g2
  refine ⟨i1, q, i2, o2, hi, ⟨by rw [← gs]; exact ab, goodPage_take ew gd, (wType_take ew).symm⟩, ew, hF2, ho2, fun k hb r hr hp => ?_⟩
  obtain ⟨y, hy, hsy⟩ := forall2_mem_left hF2 hr
  obtain ⟨j2, m2, rfl⟩ := sameIn_sfrbx hsy
  have har : AllWords r := hall r (by rw [hi]; exact List.mem_append_right _ (List.mem_cons_of_mem _ hr))
  obtain ⟨p0, p1, -⟩ := op_payload hsy har.1
  have g0 : m2.gnssId = 2 := Option.some.inj (p0.symm.trans hp.about.1)
  have g1 : m2.svId = s := Option.some.inj (p1.symm.trans hp.about.2)
  have ew2 := (gal_words hsy har g0).2
  have hin : m2.dwrd ∈ b := by
    rw [← ho2]
    exact List.mem_filterMap.2 ⟨_, hy, if_pos ⟨g0, g1, goodPage_take ew2.symm hp.good⟩⟩
  exact hb _ hin ((wType_take ew2).trans hp.type)

/-- **C151**, Galileo: whatever a device went through, when it reports a Galileo ephemeris the parameters reported are exactly the
ones in the latest word 2 received from that satellite in a page with a correct CRC and in the latest words 0, 1, 3, 4, 5 received
after it in such pages (the message just received included); a word 6 was received after it, too; word 0 bears the time, and words
1 to 4 the same issue of data. -/
theorem c151_galileo_latest {md : Mode} {evs : List Ev} {d : Dev} {ins : List NavIn} {es : List Eff} (h : Course md evs d ins es)
    (hall : ∀ pl, NavIn.sfrbx pl ∈ ins → AllWords pl) {i : Nat} {e : Nav.Eph} (hx : Eff.nav (.eph i e) ∈ es) (hgal : e.gnssID = 2) :
    ∃ before pl after old new, ∃ w : Nat → List Byte, ins = before ++ .sfrbx pl :: after ∧
      (∃ k, k ≤ 6 ∧ GalPart e.sat k pl) ∧ i < ephRegs before ∧
      before ++ [.sfrbx pl] = old ++ .sfrbx (w 2) :: new ∧ GalPart e.sat 2 (w 2) ∧
      (∀ r, NavIn.sfrbx r ∈ new → ¬ GalPart e.sat 2 r) ∧
      (∀ k, k ≤ 6 → k ≠ 2 → LastOf (GalPart e.sat k) (w k) new) ∧
      Consistent (wordsIn (w 0)) (wordsIn (w 1)) (wordsIn (w 2)) (wordsIn (w 3)) (wordsIn (w 4)) ∧
      CarriesGal e e.sat (wordsIn (w 0)) (wordsIn (w 1)) (wordsIn (w 2)) (wordsIn (w 3)) (wordsIn (w 4)) (wordsIn (w 5)) := by
  obtain ⟨before, pl, after, A, j, m, n1, n2, c1, r, rfl, hF, hS, h1, h2, h3⟩ := course_call h hx
  obtain ⟨hne, hsat, hg, -⟩ := eph_call h2 h3
  have hg2 : m.gnssId = 2 := by rw [← hg, hgal]
  have hpl : AllWords pl := hall pl (List.mem_append_right _ List.mem_cons_self)
  have hF' : List.Forall₂ SameIn (before ++ [.sfrbx pl]) (A ++ [.sfrbx j m]) := List.rel_append hF (.cons hS .nil)
  have hall' : ∀ q, NavIn.sfrbx q ∈ before ++ [.sfrbx pl] → AllWords q := fun q hq => by
    refine hall q ?_
    rcases List.mem_append.1 hq with hq | hq
    · exact List.mem_append_left _ hq
    · rw [List.mem_singleton.1 hq]; exact List.mem_append_right _ List.mem_cons_self
  obtain ⟨hgood, e', d0, d1, d2, d3, d4, d5, d6, hl, hcons, hr, hcar⟩ := Nav.c58_consistent md A n1 n2 c1 j m r (wf_all hF)
    (wf_all (.cons hS .nil) _ List.mem_cons_self) h1 hg2 h2 hne
  rw [hr] at h3
  unfold reportTo at h3
  obtain ⟨i', hi, he⟩ := List.mem_map.1 h3
  cases he
  rw [List.mem_range, ephRegs_eq hF] at hi
  obtain ⟨l0, l1, l2, l3, l4, l5, l6⟩ := hl
  obtain ⟨h2in, h2ty⟩ := List.mem_filter.1 (List.mem_of_getLast? l2)
  obtain ⟨a, dd, b, hab, hd2, hb2, hsw⟩ := sinceWord2_split _ ⟨_, h2in, of_decide_eq_true h2ty⟩
  have hdd : dd = d2 := by
    rw [hsw] at l2
    unfold Nav.latestW at l2
    rw [List.filter_cons_of_pos (p := fun x => decide (wType x = 2)) (decide_eq_true hd2), List.filter_eq_nil_iff.2 (fun x hx => by simpa using hb2 x hx)] at l2
    exact Option.some.inj l2
  subst hdd
  rw [pagesOf_eq] at hab
  obtain ⟨i1, q2, i2, o2, hins, p2, t2, hF2, ho2, hlast2⟩ := page_split hF' hall' hab
  rw [← hsat] at p2 hlast2
  rw [hd2] at p2
  have hall2 : ∀ q, NavIn.sfrbx q ∈ i2 → AllWords q := fun q hq => hall' q (by
    rw [hins]; exact List.mem_append_right _ (List.mem_cons_of_mem _ hq))
  have find : ∀ k w, k ≠ 2 → Nav.latestW k (Nav.sinceWord2 (Nav.pagesOf m.svId (A ++ [.sfrbx j m]))) = some w →
      ∃ q, LastOf (GalPart e.sat k) q i2 ∧ w.take 32 = (wordsIn q).take 32 := by
    intro k w hk2 hlw
    rw [hsw] at hlw
    unfold Nav.latestW at hlw
    rw [List.filter_cons_of_neg (p := fun x => decide (wType x = k)) (by simp only [decide_eq_true_eq]; omega), ← ho2] at hlw
    obtain ⟨a', b', hab', hk, hb'⟩ := last_split hlw
    have hk : wType w = k := of_decide_eq_true hk
    obtain ⟨j1, q, j2, -, hj, pq, tq, -, -, hl'⟩ := page_split hF2 hall2 hab'
    rw [hk, ← hsat] at pq
    rw [← hsat] at hl'
    exact ⟨q, ⟨j1, j2, hj, pq, hl' k fun x hx => of_decide_eq_false (hb' x hx)⟩, tq⟩
  obtain ⟨q0, p0, t0⟩ := find 0 d0 (by decide) l0
  obtain ⟨q1, p1, t1⟩ := find 1 d1 (by decide) l1
  obtain ⟨q3, p3, t3⟩ := find 3 d3 (by decide) l3
  obtain ⟨q4, p4, t4⟩ := find 4 d4 (by decide) l4
  obtain ⟨q5, p5, t5⟩ := find 5 d5 (by decide) l5
  obtain ⟨q6, p6, t6⟩ := find 6 d6 (by decide) l6
  obtain ⟨ab, ew⟩ := gal_words hS hpl hg2
  refine ⟨before, pl, after, i1, i2, fun k => match k with | 0 => q0 | 1 => q1 | 2 => q2 | 3 => q3 | 4 => q4 | 5 => q5 | _ => q6, rfl,
    ⟨wType m.dwrd, hgood.type, by rw [hsat]; exact ab, goodPage_take ew hgood, (wType_take ew).symm⟩, hi, hins, p2, hlast2 2 hb2,
    fun k hk hk2 => ?_, consistent_take hcons t0 t1 t2 t3 t4, ?_⟩
  · match k, hk, hk2 with
    | 0, _, _ => exact p0
    | 1, _, _ => exact p1
    | 2, _, h => exact absurd rfl h
    | 3, _, _ => exact p3
    | 4, _, _ => exact p4
    | 5, _, _ => exact p5
    | 6, _, _ => exact p6
  · rw [hsat]
    exact carriesGal_take hcar t0 t1 t2 t3 t4 t5

end Dev

/-! ### GLONASS: once set, the reference time stays set -/

namespace Nav

theorem fromGPS_pos {w x : Int} {t : UTCTime} (h : UTCTime.fromGPS w x = .ok t) (hw : 0 ≤ w) (hx : -(2 ^ 31) ≤ x) : 0 < t.sec := by
  unfold UTCTime.fromGPS at h
  rw [bind_ok] at h
  obtain ⟨a, ha, h⟩ := h
  rw [bind_ok] at h
  obtain ⟨b, hb, h⟩ := h
  unfold UTCTime.int32 at ha hb
  split at ha
  · split at hb
    · have ha := Except.ok.inj ha
      have hb := Except.ok.inj hb
      rw [← Except.ok.inj h]
      have hd : -2147484 ≤ x.tdiv 1000 := by
        rcases Int.le_total 0 x with h | h
        · have := Int.tdiv_nonneg h (show (0 : Int) ≤ 1000 by decide)
          omega
        · have e : x.tdiv 1000 = -((-x).tdiv 1000) := by rw [Int.neg_tdiv, neg_neg]
          rw [e, Int.tdiv_eq_ediv_of_nonneg (by omega)]
          omega
      have hp : 0 ≤ a := by rw [← ha]; unfold UTCTime.SEC_IN_WEEK; omega
      unfold UTCTime.wrapNsec UTCTime.GPS_UTC_OFFSET UTCTime.E9
      dsimp only
      split
      · dsimp only; omega
      · split <;> dsimp only <;> omega
    · cases hb
  · cases ha

theorem gps_ref_pos {junk d : List Byte} {t : UTCTime} {e : Eph} {o : GpsOut} (h : decodeGPS junk t d e = .ok o) :
    o.gpsTime = t ∨ 0 < o.gpsTime.sec := by
  have fin : ∀ {e1 : Eph}, gpsFinish t e1 = .ok o → o.gpsTime = t ∨ 0 < o.gpsTime.sec := by
    intro e1 h
    rcases gpsFinish_cases h with ⟨-, h⟩ | ⟨-, toe, toc, ht, -, h⟩
    · rw [h]; exact .inl rfl
    · rw [h]
      exact .inr (fromGPS_pos ht (Int.natCast_nonneg _) (by
        have := Int.le_bmod (x := ((e1.toes * 1000 : Nat) : Int)) (m := 2 ^ 32) (by decide)
        norm_num at this ⊢
        exact this))
  unfold decodeGPS at h
  dsimp only at h
  rw [bind_ok] at h
  obtain ⟨sf, -, h⟩ := h
  rw [bind_ok] at h
  obtain ⟨b5, -, h⟩ := h
  split at h
  · have := Except.ok.inj h
    rw [← this]; exact .inl rfl
  · split at h
    · rw [bind_ok] at h
      obtain ⟨e1, h1, h⟩ := h
      exact fin h
    · rw [bind_ok] at h
      obtain ⟨e1, h1, h⟩ := h
      exact fin h
    · rw [bind_ok] at h
      obtain ⟨e1, h1, h⟩ := h
      exact fin h
    · have := Except.ok.inj h
      rw [← this]; exact .inl rfl

theorem ref_stays {md : Mode} {n n' : Nav} {op : NavOp} {c : List NavCall} (h : n.step md op = .ok (n', c)) (hs : ∀ t, op ≠ .setTime t)
    (h0 : n.gpsTime ≠ ⟨0, 0⟩) : n'.gpsTime ≠ ⟨0, 0⟩ := by
  cases op with
  | setTime t => exact absurd rfl (hs t)
  | addEphCb =>
    obtain ⟨e1, e2⟩ := Prod.mk.inj (Except.ok.inj h)
    rw [← e1]; exact h0
  | addGephCb =>
    obtain ⟨e1, e2⟩ := Prod.mk.inj (Except.ok.inj h)
    rw [← e1]; exact h0
  | sfrbx junk m =>
    by_cases hg : m.gnssId = GLONASS
    · obtain ⟨r, -, hc, nx⟩ := step_glo hg h
      rw [nx.time]; exact h0
    · obtain ⟨r, hr, hc, nx⟩ := step_eph hg h
      rw [nx.time]
      unfold ephStep at hr
      dsimp only at hr
      split at hr
      · rw [bind_ok] at hr
        obtain ⟨o, ho, hr⟩ := hr
        rw [← Except.ok.inj hr]
        rcases gps_ref_pos ho with h1 | h1
        · show o.gpsTime ≠ _
          rw [h1]; exact h0
        · show o.gpsTime ≠ _
          intro e; rw [e] at h1; exact absurd h1 (by decide)
      · split at hr
        · rw [bind_ok] at hr
          obtain ⟨o, ho, hr⟩ := hr
          rw [← Except.ok.inj hr]
          exact h0
        · rw [bind_ok] at hr
          obtain ⟨o, ho, hr⟩ := hr
          rw [← Except.ok.inj hr]
          exact h0

theorem timed_set {md : Mode} (ops : List NavOp) : ∀ {n n' : Nav} {cs : List (List NavCall)}, n.run md ops = .ok (n', cs) → NoSet ops →
    ((timed md n ops).Pairwise fun x y => x.2 ≠ ⟨0, 0⟩ → y.2 ≠ ⟨0, 0⟩) ∧
    (n.gpsTime ≠ ⟨0, 0⟩ → ∀ x ∈ timed md n ops, x.2 ≠ ⟨0, 0⟩) ∧ (timed md n ops).map (·.1) = ops := by
  induction ops with
  | nil => intro n n' cs _ _; exact ⟨.nil, fun _ x hx => (by cases hx), rfl⟩
  | cons op ops ih =>
    intro n n' cs h hs
    obtain ⟨n2, c, cs', h1, h2, rfl⟩ := run_cons.mp h
    obtain ⟨i1, i2, i3⟩ := ih h2 (fun t ht => hs t (List.mem_cons_of_mem _ ht))
    have st := ref_stays h1 (fun t e => hs t (by rw [e]; exact List.mem_cons_self))
    rw [timed_cons _ h1]
    refine ⟨List.Pairwise.cons (fun y hy h0 => i2 (st h0) y hy) i1, fun h0 x hx => ?_, by rw [List.map_cons, i3]⟩
    rcases List.mem_cons.1 hx with rfl | hx
    · exact h0
    · exact i2 (st h0) x hx

theorem split_set (l : List (NavOp × UTCTime)) (h : l.Pairwise fun x y => x.2 ≠ ⟨0, 0⟩ → y.2 ≠ ⟨0, 0⟩) :
    ∃ a b, l = a ++ b ∧ (∀ x ∈ a, x.2 = ⟨0, 0⟩) ∧ ∀ x ∈ b, x.2 ≠ ⟨0, 0⟩ := by
  induction l with
  | nil => exact ⟨[], [], rfl, fun _ hx => (by cases hx), fun _ hx => (by cases hx)⟩
  | cons x l ih =>
    obtain ⟨hx, hl⟩ := List.pairwise_cons.1 h
    by_cases h0 : x.2 = ⟨0, 0⟩
    · obtain ⟨a, b, rfl, ha, hb⟩ := ih hl
      refine ⟨x :: a, b, rfl, fun y hy => ?_, hb⟩
      rcases List.mem_cons.1 hy with rfl | hy
      · exact h0
      · exact ha y hy
    · refine ⟨[], x :: l, rfl, fun _ hx => (by cases hx), fun y hy => ?_⟩
      rcases List.mem_cons.1 hy with rfl | hy
      · exact h0
      · exact hx y hy h0

end Nav

namespace Dev

open Nav (Nav NavCall Mode Sfrbx NavOp CarriesGps CarriesGlo CarriesGal Consistent greportTo reportTo iode1Of iode2Of heard timed
  gloBit gloNum gloMark usable wType GoodPage)

/-- **C151**, GLONASS: whatever a device went through, when it reports a GLONASS ephemeris the message just received is string 4
of that satellite, with check bits that allow using it; the strings received before it end in a part (`new`) in which all usable
strings of that satellite have the same time mark as this one; and the parameters reported are exactly the ones in this string and
in the latest usable strings 1, 2 and 3 of the satellite in that part. -/
theorem c151_glonass_latest {md : Mode} {evs : List Ev} {d : Dev} {ins : List NavIn} {es : List Eff} (h : Course md evs d ins es)
    (hall : ∀ pl, NavIn.sfrbx pl ∈ ins → AllWords pl) {i : Nat} {g : Nav.GEph} (hx : Eff.nav (.geph i g) ∈ es) :
    ∃ old new pl4 after pl1 pl2 pl3 mark f, ins = (old ++ new) ++ .sfrbx pl4 :: after ∧ i < gephRegs (old ++ new) ∧
      (∀ q, NavIn.sfrbx q ∈ new → About 6 g.sat q → usable (gloBit (wordsIn q)) = true → gloMark (wordsIn q) = mark) ∧
      LastOf (GloPart g.sat mark 1) pl1 new ∧ LastOf (GloPart g.sat mark 2) pl2 new ∧ LastOf (GloPart g.sat mark 3) pl3 new ∧
      GloPart g.sat mark 4 pl4 ∧ pl4[3]? = some f ∧
      CarriesGlo g g.sat f (wordsIn pl1) (wordsIn pl2) (wordsIn pl3) (wordsIn pl4) := by
  obtain ⟨before, pl, after, A, j, m, n1, n2, c1, r, rfl, hF, hS, h1, h2, h3⟩ := course_call h hx
  have hne : r ≠ [] := by rintro rfl; cases h3
  have hg6 : m.gnssId = 6 := by
    rcases (Nav.allowed_step h2).1 with ha | ⟨e, -, -, -, ha⟩ | ⟨g', -, -, h6, -⟩
    · exact absurd ha hne
    · rw [ha] at h3; obtain ⟨_, -, e⟩ := List.mem_map.1 h3; cases e
    · exact h6
  have hpl : AllWords pl := hall pl (List.mem_append_right _ List.mem_cons_self)
  obtain ⟨hu, h4, suf, x1, x2, x3, g', hsuf, l1, l2, l3, hr, hcar⟩ := Nav.c53_single_frame md A n1 n2 c1 j m r (wf_all hF)
    (wf_all (.cons hS .nil) _ List.mem_cons_self) h1 hg6 h2 hne
  rw [hr] at h3
  unfold greportTo at h3
  obtain ⟨i', hi, he⟩ := List.mem_map.1 h3
  cases he
  rw [List.mem_range, gephRegs_eq hF] at hi
  have hsat : g.sat = m.svId := hcar.sat
  obtain ⟨pre, htm, hmark, -⟩ := hsuf
  obtain ⟨pw, -, hfst⟩ := Nav.timed_set A h1 (noSet hF)
  rw [htm] at pw hfst
  obtain ⟨z, nw, hz, hz0, hnw⟩ := Nav.split_set suf (List.pairwise_append.1 pw).2.1
  have hheard : heard m.svId suf = heard m.svId nw := by
    rw [hz, Nav.heard_append]
    have : heard m.svId z = [] := by
      refine List.filterMap_eq_nil_iff.2 fun x hx => ?_
      cases hh : Nav.heard1 m.svId x with
      | none => rfl
      | some y =>
        obtain ⟨x', hx', j', m', -, -, -, h0, -⟩ := Nav.mem_heard.1 (List.mem_filterMap.2 ⟨x, List.mem_singleton.2 rfl, hh⟩)
        rw [List.mem_singleton.1 hx'] at h0
        exact absurd (hz0 x hx) h0
    rw [this, List.nil_append]
  rw [hheard] at hmark l1 l2 l3
  rw [hz, ← List.append_assoc, List.map_append] at hfst
  rw [← hfst] at hF
  obtain ⟨old, new, -, hN, e⟩ := forall2_append_left hF.flip
  subst e
  have hN := hN.flip
  have hallN : ∀ q, NavIn.sfrbx q ∈ new → AllWords q := fun q hq => hall q (List.mem_append_left _ (List.mem_append_right _ hq))
  /- every usable string of the satellite in the last part is heard -/
  have hin : ∀ q op, SameIn (.sfrbx q) op → AllWords q → About 6 g.sat q → usable (gloBit (wordsIn q)) = true →
      ∀ x : NavOp × UTCTime, x.1 = op → x.2 ≠ ⟨0, 0⟩ → ∃ y, Nav.heard1 m.svId x = some y ∧ y.2.take 16 = (wordsIn q).take 16 := by
    intro q op hq haw hab hus x hx1 hx2
    obtain ⟨j', m', rfl⟩ := sameIn_sfrbx hq
    obtain ⟨p0, p1, -⟩ := op_payload hq haw.1
    have g0 : m'.gnssId = 6 := Option.some.inj (p0.symm.trans hab.1)
    have g1 : m'.svId = m.svId := (Option.some.inj (p1.symm.trans hab.2)).trans hsat
    obtain ⟨-, -, t⟩ := glo_words hq haw g0
    refine ⟨(x.2, m'.dwrd), ?_, t⟩
    unfold Nav.heard1
    rw [hx1]
    exact if_pos ⟨g0, g1, hx2, by rw [Nav.usable_take t]; exact hus⟩
  have find : ∀ k x, Nav.latestG k (heard m.svId nw) = some x → ∃ q, LastOf (GloPart g.sat (gloMark m.dwrd) k) q new ∧
      x.2.take 16 = (wordsIn q).take 16 := by
    intro k x hl
    obtain ⟨a, b, hab, hk, hb⟩ := last_split hl
    have hmx : gloMark x.2 = gloMark m.dwrd := hmark x (by rw [hab]; exact List.mem_append_right _ List.mem_cons_self)
    have hk : gloNum x.2 = k := of_decide_eq_true hk
    obtain ⟨o1, y, o2, ho, hy, -, ho2⟩ := filterMap_split hab
    obtain ⟨y', hy', j', m', e1, g6, gs, -, us, rfl⟩ := Nav.mem_heard.1 (List.mem_filterMap.2 ⟨y, List.mem_singleton.2 rfl, hy⟩)
    rw [List.mem_singleton.1 hy'] at e1 hmx hk ⊢
    have hN' := hN
    rw [ho, List.map_append, List.map_cons, e1] at hN'
    obtain ⟨i1, q, i2, hi, -, hq, hF2⟩ := sameIn_split hN'
    have hq' : AllWords q := hallN q (by rw [hi]; exact List.mem_append_right _ List.mem_cons_self)
    refine ⟨q, ⟨i1, i2, hi, glo_part hq hq' g6 (gs.trans hsat.symm) us hk hmx, fun r hr hp => ?_⟩, (glo_words hq hq' g6).2.2⟩
    obtain ⟨op, hop, hsop⟩ := forall2_mem_left hF2 hr
    obtain ⟨v, hv, hv1⟩ := List.mem_map.1 hop
    have hvt := hnw v (by rw [ho]; exact List.mem_append_right _ (List.mem_cons_of_mem _ hv))
    obtain ⟨u, hu1, hu2⟩ := hin r op hsop (hallN r (by rw [hi]; exact List.mem_append_right _ (List.mem_cons_of_mem _ hr)))
      hp.about hp.checked v hv1 hvt
    have hub : u ∈ b := by rw [← ho2]; exact List.mem_filterMap.2 ⟨v, hv, hu1⟩
    exact of_decide_eq_false (hb u hub) ((Nav.gloNum_take hu2).trans hp.num)
  obtain ⟨q1, p1, t1⟩ := find 1 x1 l1
  obtain ⟨q2, p2, t2⟩ := find 2 x2 l2
  obtain ⟨q3, p3, t3⟩ := find 3 x3 l3
  obtain ⟨-, hf, t4⟩ := glo_words hS hpl hg6
  refine ⟨old, new, pl, after, q1, q2, q3, gloMark m.dwrd, m.freqId, rfl, hi, fun q hq ha hus => ?_, p1, p2, p3,
    glo_part hS hpl hg6 hsat.symm hu h4 rfl, hf, ?_⟩
  · obtain ⟨op, hop, hsop⟩ := forall2_mem_left hN hq
    obtain ⟨v, hv, hv1⟩ := List.mem_map.1 hop
    obtain ⟨u, hu1, hu2⟩ := hin q op hsop (hallN q hq) ha hus v hv1 (hnw v hv)
    rw [← Nav.gloMark_take hu2]
    exact hmark u (List.mem_filterMap.2 ⟨v, hv, hu1⟩)
  · rw [hsat]
    exact carriesGlo_take hcar t1 t2 t3 t4

/-- The three theorems apply to the runs of `Provenance`, which report ephemerides of all three constellations. -/
example : ∃ (g : Nav.GEph) (e : Nav.Eph) (a b c x y z : List Byte), e.gnssID = 0 ∧ iode1Of (wordsIn a) = iode2Of (wordsIn b) ∧
    GpsPart e.sat 3 c ∧ GloPart g.sat (gloMark (wordsIn x)) 1 x ∧ GloPart g.sat (gloMark (wordsIn x)) 2 y ∧
    GloPart g.sat (gloMark (wordsIn x)) 4 z := by
  obtain ⟨d, ins, es, hc, hw, ⟨i, e, he, h0⟩, ⟨k, g, hg⟩⟩ := c151_runs
  obtain ⟨_, _, _, a, b, c, -, -, -, -, -, ⟨_, _, -, pc, -⟩, hio, -⟩ := c151_gps_latest hc hw he h0
  obtain ⟨_, _, z, _, x, y, _, mark, _, -, -, -, ⟨_, _, -, px, -⟩, ⟨_, _, -, py, -⟩, -, pz, -, -⟩ := c151_glonass_latest hc hw hg
  exact ⟨g, e, a, b, c, x, y, z, h0, hio, pc, px.mark ▸ px, px.mark ▸ py, px.mark ▸ pz⟩

example : ∃ (e : Nav.Eph) (w : Nat → List Byte), e.gnssID = 2 ∧ (∀ k, k ≤ 6 → GalPart e.sat k (w k)) ∧
    CarriesGal e e.sat (wordsIn (w 0)) (wordsIn (w 1)) (wordsIn (w 2)) (wordsIn (w 3)) (wordsIn (w 4)) (wordsIn (w 5)) := by
  obtain ⟨d, ins, es, hc, hw, ⟨i, e, he, h0⟩⟩ := c151_runs_gal
  obtain ⟨_, _, _, _, _, w, -, -, -, -, p2, -, hl, -, hcar⟩ := c151_galileo_latest hc hw he h0
  refine ⟨e, w, h0, fun k hk => ?_, hcar⟩
  by_cases h2 : k = 2
  · rw [h2]; exact p2
  · obtain ⟨_, _, -, p, -⟩ := hl k hk h2
    exact p

end Dev
end Ublox
