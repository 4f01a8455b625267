import Verif.Spec.NavInputGlo
import Verif.Props.NavInputGal
import Verif.Props.NavEncGlo

/-!
# C118: from the transmitter's parameters to the user's callback, for GLONASS, dated by the GPS ephemeris reported last
-/

namespace Ublox

namespace Nav

/-- The decoder's reference time is the time of ephemeris of the GPS ephemeris it reports. -/
theorem gps_ref {junk d : List Byte} {t : UTCTime} {e : Eph} {o : GpsOut} (h : decodeGPS junk t d e = .ok o) :
    (o.reports = [] ∧ o.gpsTime = t) ∨ ∃ r, o.reports = [r] ∧ o.gpsTime = r.toe ∧ r.gnssID = 0 := by
  have fin : ∀ {e1 : Eph}, Same { e with gnssID := 0 } e1 → gpsFinish t e1 = .ok o →
      (o.reports = [] ∧ o.gpsTime = t) ∨ ∃ r, o.reports = [r] ∧ o.gpsTime = r.toe ∧ r.gnssID = 0 := by
    intro e1 hs h
    rcases gpsFinish_cases h with ⟨-, h⟩ | ⟨-, toe, toc, -, -, h⟩
    · rw [h]; exact .inl ⟨rfl, rfl⟩
    · rw [h]; exact .inr ⟨_, rfl, rfl, hs.2⟩
  unfold decodeGPS at h
  dsimp only at h
  rw [bind_ok] at h
  obtain ⟨sf, -, h⟩ := h
  rw [bind_ok] at h
  obtain ⟨b5, -, h⟩ := h
  split at h
  · have := Except.ok.inj h
    rw [← this]; exact .inl ⟨rfl, rfl⟩
  · split at h
    · rw [bind_ok] at h
      obtain ⟨e1, h1, h⟩ := h
      exact fin (same_sub1 h1) h
    · rw [bind_ok] at h
      obtain ⟨e1, h1, h⟩ := h
      exact fin (same_sub2 h1) h
    · rw [bind_ok] at h
      obtain ⟨e1, h1, h⟩ := h
      exact fin (same_sub3 h1) h
    · have := Except.ok.inj h
      rw [← this]; exact .inl ⟨rfl, rfl⟩

/-- A GPS ephemeris for the first callback. -/
def gpsCall : NavCall → Option Eph
  | .eph 0 e => if e.gnssID = 0 then some e else none
  | _ => none

theorem gpsCall_geph (k : Nat) (gs : List GEph) : (gephCalls k gs).filterMap gpsCall = [] := by
  refine List.filterMap_eq_nil_iff.2 fun c hc => ?_
  unfold gephCalls at hc
  obtain ⟨g, -, hc⟩ := List.mem_flatMap.1 hc
  obtain ⟨i, -, rfl⟩ := List.mem_map.1 hc
  rfl

theorem gpsCall_other {k : Nat} {e : Eph} (h : e.gnssID ≠ 0) : (reportTo k e).filterMap gpsCall = [] := by
  refine List.filterMap_eq_nil_iff.2 fun c hc => ?_
  unfold reportTo at hc
  obtain ⟨i, -, rfl⟩ := List.mem_map.1 hc
  unfold gpsCall
  split
  · rename_i heq
    cases heq
    rw [if_neg h]
  · rfl

theorem gpsCall_gps {k : Nat} {e : Eph} (h : e.gnssID = 0) : (reportTo k e).filterMap gpsCall = if 0 < k then [e] else [] := by
  unfold reportTo
  cases k with
  | zero => rfl
  | succ k =>
    rw [List.range_succ_eq_map, List.map_cons, List.filterMap_cons, if_pos (by omega)]
    have : gpsCall (.eph 0 e) = some e := if_pos h
    rw [this]
    dsimp only
    congr 1
    refine List.filterMap_eq_nil_iff.2 fun c hc => ?_
    rw [List.map_map] at hc
    obtain ⟨i, -, rfl⟩ := List.mem_map.1 hc
    rfl

/-- No `setGPSTime`. -/
def NoSet (ops : List NavOp) : Prop := ∀ t, NavOp.setTime t ∉ ops

theorem ref_step {md : Mode} {n n' : Nav} {op : NavOp} {c : List NavCall} (h : n.step md op = .ok (n', c)) (hs : ∀ t, op ≠ .setTime t) :
    n.ephCbs ≤ n'.ephCbs ∧ ((c.filterMap gpsCall = [] ∧ (0 < n.ephCbs → n'.gpsTime = n.gpsTime)) ∨
      ∃ e, c.filterMap gpsCall = [e] ∧ n'.gpsTime = e.toe ∧ 0 < n.ephCbs) := by
  have mono : n.ephCbs ≤ n'.ephCbs := by rw [(allowed_step h).2.1]; omega
  refine ⟨mono, ?_⟩
  cases op with
  | setTime t => exact absurd rfl (hs t)
  | addEphCb =>
    obtain ⟨e1, e2⟩ := Prod.mk.inj (Except.ok.inj h)
    rw [← e1, ← e2]; exact .inl ⟨rfl, fun _ => rfl⟩
  | addGephCb =>
    obtain ⟨e1, e2⟩ := Prod.mk.inj (Except.ok.inj h)
    rw [← e1, ← e2]; exact .inl ⟨rfl, fun _ => rfl⟩
  | sfrbx junk m =>
    by_cases hg : m.gnssId = GLONASS
    · obtain ⟨r, -, hc, nx⟩ := step_glo hg h
      rw [hc, gpsCall_geph]
      exact .inl ⟨rfl, fun _ => nx.time⟩
    · obtain ⟨r, hr, hc, nx⟩ := step_eph hg h
      unfold ephStep at hr
      dsimp only at hr
      split at hr
      · rw [bind_ok] at hr
        obtain ⟨o, ho, hr⟩ := hr
        have hr := Except.ok.inj hr
        rw [nx.time, hc, ← hr]
        dsimp only
        rcases gps_ref ho with ⟨h1, h2⟩ | ⟨e, h1, h2, h3⟩
        · rw [h1, h2]; exact .inl ⟨rfl, fun _ => rfl⟩
        · rw [h1, h2, ephCalls_one, gpsCall_gps h3]
          by_cases hk : 0 < n.ephCbs
          · rw [if_pos hk]; exact .inr ⟨e, rfl, rfl, hk⟩
          · rw [if_neg hk]; exact .inl ⟨rfl, fun hh => absurd hh hk⟩
      · rename_i h0
        split at hr
        · rw [bind_ok] at hr
          obtain ⟨o, ho, hr⟩ := hr
          have hr := Except.ok.inj hr
          rw [nx.time, hc, ← hr]
          dsimp only
          refine .inl ⟨?_, fun _ => rfl⟩
          rcases same_galileo ho with h1 | ⟨e, h1, h2⟩
          · rw [h1]; rfl
          · rw [h1, ephCalls_one]
            exact gpsCall_other (by rw [h2.2]; exact h0)
        · rw [bind_ok] at hr
          obtain ⟨o, ho, hr⟩ := hr
          have hr := Except.ok.inj hr
          rw [nx.time, hc, ← hr]
          exact .inl ⟨rfl, fun _ => rfl⟩

theorem ref_const {md : Mode} (ops : List NavOp) : ∀ {n n' : Nav} {cs : List (List NavCall)}, n.run md ops = .ok (n', cs) → NoSet ops →
    0 < n.ephCbs → cs.flatten.filterMap gpsCall = [] →
    n'.gpsTime = n.gpsTime ∧ 0 < n'.ephCbs ∧ ∀ x ∈ timed md n ops, x.2 = n.gpsTime := by
  induction ops with
  | nil =>
    intro n n' cs h _ h0 _
    obtain ⟨rfl, -⟩ := run_nil.mp h
    exact ⟨rfl, h0, by simp [timed]⟩
  | cons op ops ih =>
    intro n n' cs h hs h0 hc
    obtain ⟨n1, c, cs', h1, h2, rfl⟩ := run_cons.mp h
    rw [List.flatten_cons, List.filterMap_append, List.append_eq_nil_iff] at hc
    obtain ⟨m, st⟩ := ref_step h1 (fun t ht => hs t (by rw [ht]; exact List.mem_cons_self))
    have ht : n1.gpsTime = n.gpsTime := by
      rcases st with ⟨-, k⟩ | ⟨e, k, -⟩
      · exact k h0
      · rw [hc.1] at k; cases k
    obtain ⟨i1, i2, i3⟩ := ih h2 (fun t hh => hs t (List.mem_cons_of_mem _ hh)) (by omega) hc.2
    refine ⟨i1.trans ht, i2, ?_⟩
    intro x hx
    unfold timed refTimes at hx
    rw [h1, List.zip_cons_cons] at hx
    rcases List.mem_cons.1 hx with rfl | hx
    · rfl
    · exact (i3 x hx).trans ht

/-- The reference times of a stretch are the one before it and the times of the GPS ephemerides reported in it. -/
theorem ref_window {md : Mode} (ops : List NavOp) : ∀ {n n' : Nav} {cs : List (List NavCall)}, n.run md ops = .ok (n', cs) → NoSet ops →
    0 < n.ephCbs →
    (n.gpsTime :: (cs.flatten.filterMap gpsCall).map (·.toe)).getLast? = some n'.gpsTime ∧
    ∀ x ∈ timed md n ops, x.2 ∈ n.gpsTime :: (cs.flatten.filterMap gpsCall).map (·.toe) := by
  induction ops with
  | nil =>
    intro n n' cs h _ h0
    obtain ⟨rfl, rfl⟩ := run_nil.mp h
    exact ⟨rfl, by simp [timed]⟩
  | cons op ops ih =>
    intro n n' cs h hs h0
    obtain ⟨n1, c, cs', h1, h2, rfl⟩ := run_cons.mp h
    obtain ⟨m, st⟩ := ref_step h1 (fun t ht => hs t (by rw [ht]; exact List.mem_cons_self))
    obtain ⟨i1, i3⟩ := ih h2 (fun t hh => hs t (List.mem_cons_of_mem _ hh)) (by omega)
    rw [List.flatten_cons, List.filterMap_append, List.map_append]
    have hx' : ∀ x ∈ timed md n (op :: ops), x.2 = n.gpsTime ∨ x ∈ timed md n1 ops := by
      intro x hx
      unfold timed refTimes at hx
      rw [h1, List.zip_cons_cons] at hx
      rcases List.mem_cons.1 hx with rfl | hx
      · exact .inl rfl
      · exact .inr hx
    rcases st with ⟨k, k2⟩ | ⟨e, k, k2, -⟩
    · rw [k, ← k2 h0]
      refine ⟨i1, fun x hx => ?_⟩
      rcases hx' x hx with hx | hx
      · rw [hx, k2 h0]; exact List.mem_cons_self
      · exact i3 x hx
    · rw [k]
      rw [k2] at i1 i3
      refine ⟨?_, fun x hx => ?_⟩
      · show (n.gpsTime :: e.toe :: _).getLast? = _
        rw [List.getLast?_cons_cons]; exact i1
      · rcases hx' x hx with hx | hx
        · rw [hx]; exact List.mem_cons_self
        · exact List.mem_cons_of_mem _ (i3 x hx)

theorem ref_last {md : Mode} (ops : List NavOp) : ∀ {n n' : Nav} {cs : List (List NavCall)} {e : Eph}, n.run md ops = .ok (n', cs) →
    NoSet ops → (cs.flatten.filterMap gpsCall).getLast? = some e → n'.gpsTime = e.toe ∧ 0 < n'.ephCbs := by
  induction ops with
  | nil =>
    intro n n' cs e h _ hl
    obtain ⟨-, rfl⟩ := run_nil.mp h
    cases hl
  | cons op ops ih =>
    intro n n' cs e h hs hl
    obtain ⟨n1, c, cs', h1, h2, rfl⟩ := run_cons.mp h
    have hs' : NoSet ops := fun t hh => hs t (List.mem_cons_of_mem _ hh)
    rw [List.flatten_cons, List.filterMap_append] at hl
    by_cases hn : cs'.flatten.filterMap gpsCall = []
    · rw [hn, List.append_nil] at hl
      obtain ⟨m, st⟩ := ref_step h1 (fun t ht => hs t (by rw [ht]; exact List.mem_cons_self))
      rcases st with ⟨k, -⟩ | ⟨e', k, k2, k3⟩
      · rw [k] at hl; cases hl
      · rw [k] at hl
        have : e' = e := Option.some.inj hl
        subst this
        obtain ⟨i1, i2, -⟩ := ref_const ops h2 hs' (by omega) hn
        exact ⟨i1.trans k2, i2⟩
    · rw [List.getLast?_append_of_ne_nil _ hn] at hl
      exact ih h2 hs' hl

theorem timed_cons {md : Mode} {n n1 : Nav} {op : NavOp} {c : List NavCall} (ops : List NavOp) (h : n.step md op = .ok (n1, c)) :
    timed md n (op :: ops) = (op, n.gpsTime) :: timed md n1 ops := by
  have : refTimes md n (op :: ops) = n.gpsTime :: refTimes md n1 ops := by
    rw [refTimes, h]
  unfold timed
  rw [this, List.zip_cons_cons]

theorem timed_append {md : Mode} (a b : List NavOp) : ∀ {n n1 : Nav} {cs : List (List NavCall)}, n.run md a = .ok (n1, cs) →
    timed md n (a ++ b) = timed md n a ++ timed md n1 b := by
  induction a with
  | nil =>
    intro n n1 cs h
    obtain ⟨rfl, -⟩ := run_nil.mp h
    rfl
  | cons op a ih =>
    intro n n1 cs h
    obtain ⟨n2, c, cs', h1, h2, rfl⟩ := run_cons.mp h
    rw [List.cons_append, timed_cons _ h1, timed_cons _ h1, ih h2]
    rfl

/-- In a completed run every operation is in the list with times. -/
theorem timed_mem {md : Mode} (ops : List NavOp) : ∀ {n n1 : Nav} {cs : List (List NavCall)}, n.run md ops = .ok (n1, cs) →
    ∀ op ∈ ops, ∃ x ∈ timed md n ops, x.1 = op := by
  induction ops with
  | nil => intro n n1 cs _ op hop; cases hop
  | cons o ops ih =>
    intro n n1 cs h op hop
    obtain ⟨n2, c, cs', h1, h2, rfl⟩ := run_cons.mp h
    rw [timed_cons _ h1]
    rcases List.mem_cons.1 hop with rfl | hop
    · exact ⟨_, List.mem_cons_self, rfl⟩
    · obtain ⟨x, hx, e⟩ := ih h2 op hop
      exact ⟨x, List.mem_cons_of_mem _ hx, e⟩

theorem mem_timed {md : Mode} {n : Nav} {ops : List NavOp} {x : NavOp × UTCTime} (h : x ∈ timed md n ops) : x.1 ∈ ops := by
  unfold timed at h
  exact (List.of_mem_zip h).1

/-- A string is in the first 16 bytes of a message. -/
theorem gloBit_take {d d' : List Byte} (h : d.take 16 = d'.take 16) {b : Nat} : gloBit d b = gloBit d' b := by
  have hk : 4 * ((85 - b) / 32) + 3 - (85 - b) % 32 / 8 < 16 := by omega
  unfold gloBit
  rw [List.getD_eq_getElem?_getD, List.getD_eq_getElem?_getD, ← List.getElem?_take_of_lt hk, h, List.getElem?_take_of_lt hk]

theorem gloMark_take {d d' : List Byte} (h : d.take 16 = d'.take 16) : gloMark d = gloMark d' := by
  have e : ∀ k, k < 16 → d.getD k 0 = d'.getD k 0 := by
    intro k hk
    rw [List.getD_eq_getElem?_getD, List.getD_eq_getElem?_getD, ← List.getElem?_take_of_lt hk, h, List.getElem?_take_of_lt hk]
  unfold gloMark
  rw [e 15 (by omega), e 14 (by omega)]

theorem gloNum_take {d d' : List Byte} (h : d.take 16 = d'.take 16) : gloNum d = gloNum d' := by
  unfold gloNum gloU
  exact bitsVal_congr fun i _ => gloBit_take h

theorem usable_take {d d' : List Byte} (h : d.take 16 = d'.take 16) : usable (gloBit d) = usable (gloBit d') := by
  rw [show gloBit d = gloBit d' from funext fun b => gloBit_take h]

/-- What follows the string is filler. -/
theorem sentString_take {fill : Nat → Bool} {rest : Nat → Byte} {mark k : Nat} {p : GloParams} {d : List Byte} (hl : d.length = 40)
    (h : d.take 16 = (sentString fill rest mark p k).take 16) :
    ∃ rest', d = sentString fill rest' mark p k := by
  refine ⟨fun i => if i < 16 then rest i else d.getD i 0, ?_⟩
  refine List.ext_getElem (by rw [hl]; exact (packString_length _ _ _).symm) fun i h1 h2 => ?_
  have i40 : i < 40 := by omega
  have : ∀ r, (sentString fill r mark p k)[i]? = some (
    if i = 15 then BitVec.ofNat 8 (mark / 256)
    else if i = 14 then BitVec.ofNat 8 (mark % 256)
    else if i < 12 then byteOf fun j =>
      if 32 * (i / 4) + 8 * (3 - i % 4) + (7 - j) ≤ 84 then
        withChecks (gfldBit fill (gloFields p k)) (85 - (32 * (i / 4) + 8 * (3 - i % 4) + (7 - j)))
      else (r i).getLsbD j
    else r i) := by
    intro r
    unfold sentString packString
    rw [List.getElem?_map, List.getElem?_range i40]
    rfl
  by_cases h16 : i < 16
  · have e1 : d[i]? = (sentString fill rest mark p k)[i]? := by
      rw [← List.getElem?_take_of_lt h16, h, List.getElem?_take_of_lt h16]
    rw [this, ] at e1
    refine Option.some.inj ?_
    rw [← List.getElem?_eq_getElem h1, ← List.getElem?_eq_getElem h2, e1, this]
    simp only [if_pos h16]
  · refine Option.some.inj ?_
    rw [← List.getElem?_eq_getElem h2, this, if_neg (by omega), if_neg (by omega), if_neg (by omega), if_neg h16,
      List.getD_eq_getElem?_getD, List.getElem?_eq_getElem h1]
    rfl

end Nav

namespace Dev

open Nav (Nav NavCall Mode Sfrbx NavOp GloParams ReportsGlo greportTo gloBit gloMark gloNum usable GLONASS ClosestTod GoodRef
  sentString timed heard)

theorem glo_op {s f : Byte} {str pl : List Byte} {op : NavOp} (hp : IsGloString s f str pl) (h : SameIn (.sfrbx pl) op) :
    ∃ d, op = .sfrbx (List.replicate 30 0) ⟨6, s, f, d⟩ ∧ d.length = 40 ∧ d.take 16 = str := by
  obtain ⟨hw, r, ch, ver, res, rfl⟩ := hp
  cases h with
  | sfrbx _ buf hl hp =>
    have hlen : (gloPayload s r f ch ver res str).length = 24 := by simp [gloPayload, hw]
    have h0 := buf_at hp (k := 0) (by omega)
    have h1 := buf_at hp (k := 1) (by omega)
    have h3 := buf_at hp (k := 3) (by omega)
    refine ⟨(buf.drop 8).take 40, ?_, by simp [hl], ?_⟩
    · unfold Sfrbx.ofBuffer
      rw [h0, h1, h3]
      rfl
    · rw [List.take_take, show min 16 40 = 16 from rfl, List.take_drop]
      rw [hlen] at hp
      show (buf.take 24).drop 8 = str
      rw [hp]; rfl

theorem notGlo_op {s : Byte} {pl j : List Byte} {m : Sfrbx} (hp : NotGlo s pl) (h : SameIn (.sfrbx pl) (.sfrbx j m)) :
    ¬ (m.gnssId = GLONASS ∧ m.svId = s) := by
  obtain ⟨h2, h3⟩ := hp
  cases h with
  | sfrbx _ buf hl hp =>
    rintro ⟨a, b⟩
    have a : buf.getD 0 0 = 6 := a
    have b : buf.getD 1 0 = s := b
    rw [buf_at hp (show 0 < pl.length by omega)] at a
    rw [buf_at hp (show 1 < pl.length by omega)] at b
    rw [List.getElem?_eq_getElem (show 0 < pl.length by omega), List.getElem?_eq_getElem (show 1 < pl.length by omega), a, b] at h3
    rcases h3 with h3 | h3 <;> exact h3 rfl

theorem noSet {ins : List NavIn} {ops : List NavOp} (hs : List.Forall₂ SameIn ins ops) : Nav.NoSet ops := by
  intro t ht
  obtain ⟨i, -, hr⟩ := forall2_mem_right hs ht
  cases hr

theorem gephRegs_eq {ins : List NavIn} {ops : List NavOp} (hs : List.Forall₂ SameIn ins ops) :
    Nav.gephCbCount ops = gephRegs ins := by
  induction hs with
  | nil => rfl
  | cons h1 _ ih =>
    unfold gephRegs Nav.gephCbCount at *
    cases h1 <;> simp [ih]

theorem gpsReports_eq (es : List Eff) : gpsReports es = (es.filterMap Eff.nav?).filterMap Nav.gpsCall := by
  unfold gpsReports
  rw [List.filterMap_filterMap]
  refine List.filterMap_congr fun e _ => ?_
  cases e with
  | nav c =>
    cases c with
    | eph i e => cases i <;> rfl
    | geph i g => rfl
  | _ => rfl

/-- The strings of satellite `s` heard in a list of operations are those of the messages told. -/
theorem heard_in {md : Mode} {n : Nav} {s : Byte} {ins : List NavIn} {ops : List NavOp} (hs : List.Forall₂ SameIn ins ops)
    {y : UTCTime × List Byte} (hy : y ∈ heard s (timed md n ops)) :
    ∃ pl j m, NavIn.sfrbx pl ∈ ins ∧ SameIn (.sfrbx pl) (.sfrbx j m) ∧ m.gnssId = GLONASS ∧ m.svId = s ∧ y.2 = m.dwrd ∧
      (NavOp.sfrbx j m, y.1) ∈ timed md n ops ∧ usable (gloBit y.2) = true := by
  obtain ⟨x, hx, j, m, e, a, b, c, hu, rfl⟩ := Nav.mem_heard.mp hy
  obtain ⟨i, hi, hr⟩ := forall2_mem_right hs (Nav.mem_timed hx)
  rw [e] at hr
  cases i with
  | addEph => cases hr
  | addGeph => cases hr
  | sfrbx pl => exact ⟨pl, j, m, hi, hr, a, b, rfl, by rw [← e]; exact hx, hu⟩

/-- The same for any decoder that was told `insA` and then `insB`. -/
theorem c118_told {md : Mode} {insA insB : List NavIn} {nA nB : Nav} {esA esB : List Eff} (hA : Told md Nav.init insA nA esA)
    (hB : Told md nA insB nB esB) (e0 : Nav.Eph) (hgps : (gpsReports esA).getLast? = some e0)
    (D : Int) (hD : D ≤ 43199) (hrefs : Nav.Refs D ((e0 :: gpsReports esB).map (·.toe))) (hpos : ∀ e ∈ e0 :: gpsReports esB, 0 < e.toe.sec)
    (eL : Nav.Eph) (heL : (e0 :: gpsReports esB).getLast? = some eL)
    (s : Byte) (h255 : s ≠ 255) (p : GloParams) (hp : p.Ok) (mark : Nat) (hmark : mark < 65536) (i1 : List NavIn)
    (pl : List Byte) (f : Byte) (fill : Nat → Bool) (rest : Nat → Byte)
    (hlast : IsGloString s f (gloString fill rest mark p 4) pl) (hin : insB = i1 ++ [.sfrbx pl])
    (htr : GloTraffic s p mark i1)
    (harr : ∀ k, 1 ≤ k → k ≤ 3 → GloArrives s p mark k i1) :
    ∃ g pre, esB.filterMap Eff.nav? = pre ++ greportTo (gephRegs (insA ++ i1)) g ∧ ReportsGlo g s f p ∧
      (0 < gephRegs (insA ++ i1) →
        (p.hour * 3600 + p.minute * 60 + p.half * 30 + D ≤ 129600 →
          ClosestTod eL.toe g.tof (p.hour * 3600 + p.minute * 60 + p.half * 30)) ∧
        (p.tb * 900 + D ≤ 129600 → ClosestTod eL.toe g.toe (p.tb * 900))) := by
  obtain ⟨oA, cA, a1, a3, a4⟩ := hA
  obtain ⟨oB, cB, b1, b3, b4⟩ := hB
  rw [hin] at b1
  obtain ⟨o1, _, k1, k2, rfl⟩ := forall2_append_left b1
  obtain ⟨opl, _, g1, k3, rfl⟩ := List.forall₂_cons_left_iff.mp k2
  cases k3
  obtain ⟨dl, rfl, hdl, hdl'⟩ := glo_op hlast g1
  obtain ⟨n1, c1, c2, r1, r2, hcs⟩ := Nav.run_append.mp b3
  -- the reference time
  rw [gpsReports_eq, a4] at hgps
  obtain ⟨T, cbs⟩ := Nav.ref_last oA a3 (noSet a1) hgps
  have hrun : Nav.init.run md (oA ++ o1) = .ok (n1, cA ++ c1) := Nav.run_append.mpr ⟨_, _, _, a3, r1, rfl⟩
  have hwf : ∀ op ∈ oA ++ o1, op.WF := wf_all (List.rel_append a1 k1)
  have hsplit : timed md Nav.init (oA ++ o1) = timed md Nav.init oA ++ timed md nA o1 := Nav.timed_append _ _ a3
  obtain ⟨rest', hd⟩ := Nav.sentString_take hdl hdl'
  obtain ⟨n', c, cs0, hstep, hc0, rfl⟩ := Nav.run_cons.mp r2
  obtain ⟨-, rfl⟩ := Nav.run_nil.mp hc0
  have hgB : gpsReports esB = c1.flatten.filterMap Nav.gpsCall := by
    obtain ⟨_, -, hc4, -⟩ := Nav.step_glo (m := ⟨6, s, f, dl⟩) rfl hstep
    rw [gpsReports_eq, b4, hcs, List.flatten_append, List.filterMap_append, List.flatten_cons, List.flatten_nil, List.append_nil,
      hc4, Nav.gpsCall_geph, List.append_nil]
  obtain ⟨T1, hT⟩ := Nav.ref_window o1 r1 (noSet k1) cbs
  rw [T, ← hgB] at T1 hT
  have hmap : ((e0 :: gpsReports esB).map (·.toe)).getLast? = some eL.toe := by rw [List.getLast?_map, heL]; rfl
  have hgT : n1.gpsTime = eL.toe := Option.some.inj (T1.symm.trans hmap)
  have hne : ∀ t : UTCTime, t ∈ (e0 :: gpsReports esB).map (·.toe) → t ≠ ⟨0, 0⟩ := by
    intro t ht h
    obtain ⟨e, he, rfl⟩ := List.mem_map.1 ht
    have := hpos e he
    rw [h] at this
    exact absurd this (by decide)
  obtain ⟨g, hg1, hg2, hg3⟩ := Nav.c55_transmitted md (oA ++ o1) n1 n' (cA ++ c1) (List.replicate 30 0) ⟨6, s, f, dl⟩ c
    (timed md Nav.init oA) (timed md nA o1) p mark fill rest' hwf (by simp) hrun hp hmark hsplit
    (by
      intro x hx j m e hm1 hm2
      obtain ⟨i, hi, hr⟩ := forall2_mem_right k1 (Nav.mem_timed hx)
      rw [e] at hr
      cases i with
      | addEph => cases hr
      | addGeph => cases hr
      | sfrbx q =>
        rcases htr q hi with hq | ⟨f', str, hq, hcase⟩
        · exact absurd ⟨hm1, hm2⟩ (notGlo_op hq hr)
        · obtain ⟨d', e', hd1, hd2⟩ := glo_op hq hr
          cases e'
          have ht : d'.take 16 = str.take 16 := by rw [hd2, List.take_of_length_le (by rw [hq.1])]
          rcases hcase with ⟨fi, re, k, k1, k4, rfl⟩ | ⟨h1, h2⟩ | h
          · obtain ⟨re', he⟩ := Nav.sentString_take hd1 hd2
            exact .inl ⟨fi, re', k, k1, k4, he⟩
          · refine .inr (.inl ⟨?_, ?_⟩)
            · rw [Nav.gloMark_take ht]; exact h1
            · rw [Nav.gloNum_take ht]; exact h2
          · refine .inr (.inr ?_)
            rw [Nav.usable_take ht]; exact h)
    (by
      intro k h1 h3
      obtain ⟨q, f', fi, re, hq, his⟩ := harr k h1 h3
      obtain ⟨op, hop, hr⟩ := forall2_mem_left k1 hq
      obtain ⟨d', rfl, hd1, hd2⟩ := glo_op his hr
      obtain ⟨x, hx, e⟩ := Nav.timed_mem o1 r1 _ hop
      obtain ⟨re', he⟩ := Nav.sentString_take hd1 hd2
      exact ⟨x, hx, _, _, fi, re', e, rfl, rfl, hne _ (hT x hx), he⟩)
    rfl h255 (hne _ (List.mem_of_getLast? T1)) hd hstep
  have hcnt : Nav.gephCbCount (oA ++ o1) = gephRegs (insA ++ i1) := gephRegs_eq (List.rel_append a1 k1)
  rw [hcnt] at hg1 hg3
  rw [hgT] at hg3
  refine ⟨g, c1.flatten, ?_, hg2, fun h0 => hg3 D hD ?_ h0⟩
  · rw [b4, hcs, hg1]
    simp
  · have hsub : ∀ t ∈ eL.toe :: (heard s (timed md nA o1)).map Prod.fst, t ∈ (e0 :: gpsReports esB).map (·.toe) := by
      intro t ht
      rcases List.mem_cons.1 ht with rfl | ht
      · exact List.mem_of_getLast? hmap
      · obtain ⟨y, hy, rfl⟩ := List.mem_map.1 ht
        obtain ⟨q, j, m, -, -, -, -, -, hx, -⟩ := heard_in k1 hy
        exact hT _ hx
    intro t ht
    exact ⟨(hrefs t (hsub t ht)).1, fun t' ht' => (hrefs t (hsub t ht)).2 t' (hsub t' ht')⟩

/-- **C118**: a device that is never configured as a base has reported a GPS ephemeris, the last one being `e0`; then it
receives, among anything else that may make further GPS ephemerides (`eL` the last of all) with times that differ by at most `D`
seconds, less than half a day, strings 1, 2 and 3 of the parameters `p` of GLONASS satellite
`s`, in any order and number, with its strings 5 and up and damaged ones between, all with one time mark (which may have been in use
before, even with other contents), and then string 4, all in good frames. With that, each of the GLONASS callbacks registered so far is called once, with
exactly those parameters, and the instants closest to the time of the last GPS ephemeris that have the transmitted times of day
(for every `D` if these are times of day at all; the fields allow up to 115410 s, then for `D` up to 14190 s). -/
theorem c118 {md : Mode} {ss : List Ubx.Sched} {evsA evsB : List Ev} {dA dB : Dev} {esA esB : List Eff}
    (hA : Life md ss evsA dA esA) (hB : run md dA evsB = .ok (dB, esB)) (hbA : ∀ i s, Ev.configBase i s ∉ evsA)
    (hbB : ∀ i s, Ev.configBase i s ∉ evsB) (e0 : Nav.Eph) (hgps : (gpsReports esA).getLast? = some e0)
    (D : Int) (hD : D ≤ 43199) (hrefs : Nav.Refs D ((e0 :: gpsReports esB).map (·.toe))) (hpos : ∀ e ∈ e0 :: gpsReports esB, 0 < e.toe.sec)
    (eL : Nav.Eph) (heL : (e0 :: gpsReports esB).getLast? = some eL)
    (s : Byte) (h255 : s ≠ 255) (p : GloParams) (hp : p.Ok) (mark : Nat) (hmark : mark < 65536) (i1 : List NavIn)
    (pl : List Byte) (f : Byte) (fill : Nat → Bool) (rest : Nat → Byte)
    (hlast : IsGloString s f (gloString fill rest mark p 4) pl) (hin : navLater ss evsA evsB = i1 ++ [.sfrbx pl])
    (htr : GloTraffic s p mark i1)
    (harr : ∀ k, 1 ≤ k → k ≤ 3 → GloArrives s p mark k i1) :
    ∃ g pre, esB.filterMap Eff.nav? = pre ++ greportTo (gephRegs (navLife ss evsA ++ i1)) g ∧ ReportsGlo g s f p ∧
      (0 < gephRegs (navLife ss evsA ++ i1) →
        (p.hour * 3600 + p.minute * 60 + p.half * 30 + D ≤ 129600 →
          ClosestTod eL.toe g.tof (p.hour * 3600 + p.minute * 60 + p.half * 30)) ∧
        (p.tb * 900 + D ≤ 129600 → ClosestTod eL.toe g.toe (p.tb * 900))) := by
  have tA := hA.track hbA
  have tB : Track dA.nav md dA evsA (ctorBytes ss ++ evsA.flatMap rxOf) [] [] :=
    ⟨tA.inv, tA.role, tA.reach, [], [], .nil, by simp, rfl, rfl⟩
  have tB := tB.run hbB hB
  obtain ⟨oB, cB, b1, b2, b3, b4⟩ := tB.nav
  have hin' : navIns (ctorBytes ss ++ evsA.flatMap rxOf) evsB = navLater ss evsA evsB := by
    unfold navLater
    congr 2
  rw [List.nil_append, hin'] at b1
  rw [List.nil_append] at b4
  exact c118_told (c112 hA hbA) ⟨oB, cB, b1, b3, b4⟩ e0 hgps D hD hrefs hpos eL heL s h255 p hp mark hmark i1 pl f fill rest hlast hin htr harr


/-! ### A concrete case -/

def exStr (fill : Bool) (k : Nat) : List Byte := gloString (fun _ => fill) (fun _ => 0x55) 77 Nav.exGlo k

def exGloPl (s : Byte) (str : List Byte) : List Byte := gloPayload s 0 8 5 2 0 str

def exGloFrame (s : Byte) (str : List Byte) : List Byte := ubxFrame 0x02 0x13 (exGloPl s str)

/-- A string with an error in it. -/
def exBadStr : List Byte := (exStr true 1).set 0 1

/-- String 3 of other parameters, with the same time mark. -/
def exOldStr : List Byte := gloString (fun _ => true) (fun _ => 0x55) 77 { Nav.exGlo with vz := 7 } 3

/-- The subframes of GPS satellite 7, with a time of ephemeris in week 2148. -/
def exGpsPl (k : Nat) : List Byte :=
  gpsPayload 7 0 0 3 2 0 (Nav.subframe (fun _ _ => true) { Nav.exParams with week := 100, toe := 6000 } k)

def exGpsFrame (k : Nat) : List Byte := ubxFrame 0x02 0x13 (exGpsPl k)

/-- Those of satellite 8, two hours later. -/
def exGps2Pl (k : Nat) : List Byte :=
  gpsPayload 8 0 0 3 2 0 (Nav.subframe (fun _ _ => true) { Nav.exParams with week := 100, toe := 6450 } k)

def exGps2Frame (k : Nat) : List Byte := ubxFrame 0x02 0x13 (exGps2Pl k)

/-- Both kinds of callback are registered, a GPS ephemeris is reported, a string of other parameters arrives. -/
def exGloA : List Ev :=
  [.ephCb, .gephCb, .rx (exGpsFrame 2 ++ exGpsFrame 1 ++ exGpsFrame 3), .rx (exGloFrame 3 exOldStr)]

/-- Then a frame in pieces, with a damaged string, a string of another satellite and a GPS ephemeris of two hours later between, and another
callback. -/
def exGloB : List Ev :=
  [.rx (exGloFrame 3 (exStr true 2) ++ exGloFrame 3 exBadStr ++ exGloFrame 4 (exStr true 4)), .rx ((exGloFrame 3 (exStr false 3)).take 13),
   .gephCb, .rx ((exGloFrame 3 (exStr false 3)).drop 13 ++ exGps2Frame 1 ++ exGps2Frame 2 ++ exGps2Frame 3), .rx (exGloFrame 3 (exStr true 1) ++ exGloFrame 3 (exStr true 2)),
   .rx (exGloFrame 3 (exStr true 4))]

def exGloMid : List NavIn :=
  [.sfrbx (exGloPl 3 (exStr true 2)), .sfrbx (exGloPl 3 exBadStr), .sfrbx (exGloPl 4 (exStr true 4)), .addGeph,
   .sfrbx (exGloPl 3 (exStr false 3)), .sfrbx (exGps2Pl 1), .sfrbx (exGps2Pl 2), .sfrbx (exGps2Pl 3),
   .sfrbx (exGloPl 3 (exStr true 1)), .sfrbx (exGloPl 3 (exStr true 2))]

theorem exGloA_in : navLife [exSched] exGloA =
    [.addEph, .addGeph, .sfrbx (exGpsPl 2),
     .sfrbx (exGpsPl 1),
     .sfrbx (exGpsPl 3), .sfrbx (exGloPl 3 exOldStr)] := by
  decide +kernel

theorem exGloB_in : navLater [exSched] exGloA exGloB = exGloMid ++ [.sfrbx (exGloPl 3 (exStr true 4))] := by
  decide +kernel

/-- The two runs. -/
def exTwo : Option ((Dev × List Eff) × (Dev × List Eff)) :=
  match exRunL exGloA with
  | none => none
  | some (d, es) =>
    match run .lenient d exGloB with
    | .ok x => some ((d, es), x)
    | .error _ => none

theorem exTwo_shows : exTwo.map (fun x => ((gpsReports x.1.2).map (fun e => (e.toe, e.sat)),
    (gpsReports x.2.2).map (fun e => (e.toe, e.sat)))) = some ([(⟨1615171218, 0⟩, 7)], [(⟨1615178418, 0⟩, 8)]) := by
  decide +kernel

theorem exGlo_ok : Nav.exGlo.Ok := by constructor <;> (try unfold Nav.InSM) <;> decide

theorem exStr_is (s : Byte) (fi : Bool) (k : Nat) :
    IsGloString s 8 (gloString (fun _ => fi) (fun _ => 0x55) 77 Nav.exGlo k) (exGloPl s (exStr fi k)) := by
  refine ⟨?_, 0, 5, 2, 0, rfl⟩
  unfold gloString sentString
  rw [List.length_take, Nav.packString_length]
  rfl

theorem exGlo_traffic : GloTraffic 3 Nav.exGlo 77 exGloMid := by
  have hw : ∀ fi k, 1 ≤ k → k ≤ 4 → ∃ f str, IsGloString 3 f str (exGloPl 3 (exStr fi k)) ∧
      ((∃ fill rest k, 1 ≤ k ∧ k ≤ 4 ∧ str = gloString fill rest 77 Nav.exGlo k) ∨
       (gloMark str = 77 ∧ (gloNum str = 0 ∨ 5 ≤ gloNum str)) ∨ usable (gloBit str) = false) :=
    fun fi k h1 h4 => ⟨8, _, exStr_is 3 fi k, .inl ⟨_, _, k, h1, h4, rfl⟩⟩
  intro pl hpl
  unfold exGloMid at hpl
  simp only [List.mem_cons, NavIn.sfrbx.injEq, List.not_mem_nil, or_false, reduceCtorEq, false_or] at hpl
  rcases hpl with rfl | rfl | rfl | rfl | rfl | rfl | rfl | rfl | rfl
  · exact .inr (hw true 2 (by decide) (by decide))
  · exact .inr ⟨8, exBadStr, ⟨by decide +kernel, 0, 5, 2, 0, rfl⟩, .inr (.inr (by decide +kernel))⟩
  · exact .inl ⟨by decide +kernel, .inr (by decide +kernel)⟩
  · exact .inr (hw false 3 (by decide) (by decide))
  · exact .inl ⟨by decide +kernel, .inl (by decide +kernel)⟩
  · exact .inl ⟨by decide +kernel, .inl (by decide +kernel)⟩
  · exact .inl ⟨by decide +kernel, .inl (by decide +kernel)⟩
  · exact .inr (hw true 1 (by decide) (by decide))
  · exact .inr (hw true 2 (by decide) (by decide))

theorem exGlo_arrives (k : Nat) (h1 : 1 ≤ k) (h3 : k ≤ 3) : GloArrives 3 Nav.exGlo 77 k exGloMid := by
  have : k = 1 ∨ k = 2 ∨ k = 3 := by omega
  rcases this with rfl | rfl | rfl
  · exact ⟨_, 8, _, _, by unfold exGloMid; simp, exStr_is 3 true 1⟩
  · exact ⟨_, 8, _, _, by unfold exGloMid; simp, exStr_is 3 true 2⟩
  · exact ⟨_, 8, _, _, by unfold exGloMid; simp, exStr_is 3 false 3⟩

theorem map_one {l : List Nav.Eph} {t : UTCTime} {v : Byte} (h : l.map (fun e => (e.toe, e.sat)) = [(t, v)]) :
    ∃ e, l = [e] ∧ e.toe = t := by
  rw [List.map_eq_cons_iff] at h
  obtain ⟨e, l', rfl, he, hl⟩ := h
  rw [List.map_eq_nil_iff] at hl
  subst hl
  exact ⟨e, rfl, (Prod.mk.inj he).1⟩

/-- All hypotheses of `c118` are met there, with reference times that differ by two hours: both GLONASS callbacks are called for
satellite 3, the times closest to that of the GPS ephemeris reported last. -/
example : ∃ dA esA dB esB g pre eL, Life .lenient [exSched] exGloA dA esA ∧ run .lenient dA exGloB = .ok (dB, esB) ∧
    (gpsReports esB).getLast? = some eL ∧ eL.toe = ⟨1615178418, 0⟩ ∧ esB.filterMap Eff.nav? = pre ++ greportTo 2 g ∧
    ReportsGlo g 3 8 Nav.exGlo ∧ ClosestTod eL.toe g.tof (10 * 3600 + 20 * 60 + 30) := by
  have hs := exTwo_shows
  have x1 : exTwo.isSome = true := by
    cases h : exTwo with
    | none => rw [h] at hs; cases hs
    | some x => rfl
  obtain ⟨⟨⟨dA, esA⟩, ⟨dB, esB⟩⟩, hx⟩ := Option.isSome_iff_exists.mp x1
  rw [hx] at hs
  obtain ⟨x2, x3⟩ := Prod.mk.inj (Option.some.inj hs)
  obtain ⟨e0, y2, ht⟩ := map_one x2
  obtain ⟨eL, y3, htL⟩ := map_one x3
  dsimp only at y2 y3
  unfold exTwo at hx
  cases hA : exRunL exGloA with
  | none => rw [hA] at hx; cases hx
  | some y =>
    obtain ⟨d, es⟩ := y
    rw [hA] at hx
    dsimp only at hx
    cases hB : run .lenient d exGloB with
    | error u => rw [hB] at hx; cases hx
    | ok z =>
      rw [hB] at hx
      obtain ⟨p1, p2⟩ := Prod.mk.inj (Option.some.inj hx)
      obtain ⟨rfl, rfl⟩ := Prod.mk.inj p1
      subst p2
      have hcnt : gephRegs (navLife [exSched] exGloA ++ exGloMid) = 2 := by rw [exGloA_in]; decide +kernel
      obtain ⟨g, pre, h1, h2, h3⟩ := c118 (exRunL_life hA) hB (by intro i s; simp [exGloA]) (by intro i s; simp [exGloB]) e0
        (by rw [y2]; rfl) 7200 (by decide)
        (by
          rw [y3]
          intro a ha
          simp only [List.map_cons, List.map_nil, List.mem_cons, List.not_mem_nil, or_false, ht, htL] at ha
          rcases ha with rfl | rfl
          · refine ⟨⟨by decide, by decide⟩, fun b hb => ?_⟩
            simp only [List.map_cons, List.map_nil, List.mem_cons, List.not_mem_nil, or_false, ht, htL] at hb
            rcases hb with rfl | rfl <;> decide
          · refine ⟨⟨by decide, by decide⟩, fun b hb => ?_⟩
            simp only [List.map_cons, List.map_nil, List.mem_cons, List.not_mem_nil, or_false, ht, htL] at hb
            rcases hb with rfl | rfl <;> decide)
        (by
          rw [y3]
          intro e he
          simp only [List.mem_cons, List.not_mem_nil, or_false] at he
          rcases he with rfl | rfl
          · rw [ht]; decide
          · rw [htL]; decide)
        eL (by rw [y3]; rfl) 3 (by decide) Nav.exGlo exGlo_ok 77 (by decide) exGloMid _ 8 _ _
        (exStr_is 3 true 4) exGloB_in exGlo_traffic exGlo_arrives
      rw [hcnt] at h1 h3
      exact ⟨d, es, dB, esB, g, pre, eL, exRunL_life hA, hB, by rw [y3]; rfl, htL, h1, h2, (h3 (by omega)).1 (by decide)⟩

end Dev
end Ublox
