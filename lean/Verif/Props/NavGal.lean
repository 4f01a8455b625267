import Verif.Lemmas.NavGalSkip
import Verif.Props.NavGlo
import Verif.Props.Crc

/-!
# Galileo ephemerides (C57, C58, C59) and SFRBX messages in general (C61, C62)

Operations and messages: `Verif/Model/Nav.lean`; what a page says and when it is to be accepted: `Verif/Spec/NavGal.lean`.
-/

namespace Ublox.Nav

open Data

/-! ## C57 -/

/-- C57: a Galileo page that is not two nominal halves in even/odd order with a correct CRC (and a word type 0..6) makes no
callback, and nothing that happens afterwards depends on it: whatever state the parser is in and whatever follows, the
callbacks are those of a run without the page. -/
theorem c57_rejected (md : Mode) (n : Nav) (junk : List Byte) (m : Sfrbx) (ops : List NavOp)
    (hm : (NavOp.sfrbx junk m).WF) (hgal : m.gnssId = 2) (hbad : ¬ GoodPage m.dwrd) :
    (n.run md (.sfrbx junk m :: ops)).map (·.2) = (n.run md ops).map (fun r => [] :: r.2) := by
  obtain ⟨n', h1, h2⟩ := bad_step (md := md) (n := n) (junk := junk) hgal (by rw [hm.2]; omega) hbad
  exact (sameEph_bisim md).skip h1 h2

/-- C57: what the page store holds for a satellite is exactly the data words of the accepted pages: for each word type the
128 bits of the latest accepted page of that type (since the latest word 2), and a flag for each type that is there. -/
theorem c57_stored (md : Mode) (s : Byte) (ops : List NavOp) (n : Nav) (cs : List (List NavCall))
    (hwf : ∀ op ∈ ops, op.WF) (hrun : Nav.init.run md ops = .ok (n, cs)) :
    (∀ k d, k ≤ 6 → latestW k (sinceWord2 (pagesOf s ops)) = some d →
      ∀ i, i < 128 → bitAt (n.gal s.toNat) (128 * k + i) = wordBit d i) ∧
    (∀ k, k ≤ 6 → ((n.gal s.toNat).getD 112 0).getLsbD k = (latestW k (sinceWord2 (pagesOf s ops))).isSome) := by
  have h := galcoll_run md s ops n cs hwf hrun
  refine ⟨h.bits, fun k hk => ?_⟩
  rw [h.flag k (by omega), decide_eq_true hk, Bool.true_and]

/-- C57 with C28: a good page whose 196 protected bits or CRC are hit by a burst of at most 24 bits is rejected. -/
theorem c57_burst (d d' e : List Byte) (hg : GoodPage d) (hl : e.length = 28)
    (hd : galFrame d' = xorBytes (galFrame d) e) (k : Nat) (hne : ∃ i, bitAt e i = true)
    (hb : ∀ i, bitAt e i = true → k ≤ i ∧ i < k + 24) : ¬ GoodPage d' := by
  intro h
  have := h.crc
  rw [hd] at this
  exact c28_burst (galFrame d) e (by rw [hl]; exact (packBits_length _ _).symm) hg.crc k hne hb this

/-- C57 with C28: … or an odd number of bit errors … -/
theorem c57_odd (d d' e : List Byte) (hg : GoodPage d) (hl : e.length = 28)
    (hd : galFrame d' = xorBytes (galFrame d) e)
    (hodd : ((List.range (8 * e.length)).filter (bitAt e)).length % 2 = 1) : ¬ GoodPage d' := by
  intro h
  have := h.crc
  rw [hd] at this
  exact c28_odd (galFrame d) e (by rw [hl]; exact (packBits_length _ _).symm) hg.crc hodd this

/-- C57 with C28: … or two bit errors. -/
theorem c57_two (d d' e : List Byte) (hg : GoodPage d) (hl : e.length = 28)
    (hd : galFrame d' = xorBytes (galFrame d) e) (i j : Nat) (hij : i < j)
    (hb : ∀ k, bitAt e k = true ↔ (k = i ∨ k = j)) : ¬ GoodPage d' := by
  intro h
  have := h.crc
  rw [hd] at this
  exact c28_two (galFrame d) e (by rw [hl]; exact (packBits_length _ _).symm) hg.crc
    (by rw [show (galFrame d).length = 28 from packBits_length _ _]; omega) i j hij hb this

/-- For concrete pages: goodness by evaluating the decoder (on satellite 0). -/
theorem goodPage_of_eval {d : List Byte} (hd : 32 ≤ d.length)
    (h : decodeGalileo .lenient d (List.replicate 380 0) Eph.fresh = .error .oobWrite) : GoodPage d := by
  obtain ⟨_, _, _, _, h3⟩ := decodeGalileo_eq (md := .lenient) (row := List.replicate 380 0) hd Eph.fresh
  by_cases hg : GoodPage d
  · exact hg
  · rw [h3 hg] at h; cases h

theorem badPage_of_eval {d : List Byte} (hd : 32 ≤ d.length)
    (h : (decodeGalileo .lenient d (List.replicate 380 0) Eph.fresh).isOk = true) : ¬ GoodPage d := by
  obtain ⟨_, _, _, h2, _⟩ := decodeGalileo_eq (md := .lenient) (row := List.replicate 380 0) hd Eph.fresh
  intro hg
  rw [h2 hg rfl] at h; cases h

/-- Concrete pages: seven good ones, and `gal1` with one bit flipped. -/
theorem good_pages : GoodPage gal0 ∧ GoodPage gal1 ∧ GoodPage gal2 ∧ GoodPage gal3 ∧ GoodPage gal4 ∧ GoodPage gal5 ∧
    GoodPage gal6 ∧ ¬ GoodPage gal1bad :=
  ⟨goodPage_of_eval (by decide) (by decide +kernel), goodPage_of_eval (by decide) (by decide +kernel),
   goodPage_of_eval (by decide) (by decide +kernel), goodPage_of_eval (by decide) (by decide +kernel),
   goodPage_of_eval (by decide) (by decide +kernel), goodPage_of_eval (by decide) (by decide +kernel),
   goodPage_of_eval (by decide) (by decide +kernel), badPage_of_eval (by decide) (by decide +kernel)⟩

/-- A concrete case of C57: the flipped page does not complete the ephemeris, the correct one does. -/
example : (callsAfter .lenient (.addEphCb :: [gal2, gal3, gal4, gal5, gal6, gal0, gal1bad, gal1].map (gal 7))).map
    (·.map List.length) = .ok [0, 0, 0, 0, 0, 0, 0, 0, 1] := by decide +kernel

/-! ## C58 -/

/-- C58: every callback made on a Galileo message of satellite `s` is made on an accepted page, when all seven words 0..6
have been accepted since the latest word 2 (inclusive), word 0 has time field 2, and words 1..4 have the same issue of
data; every registered callback gets, once, exactly the ephemeris in the latest of those words. -/
theorem c58_consistent (md : Mode) (ops : List NavOp) (n n' : Nav) (cs : List (List NavCall)) (junk : List Byte)
    (m : Sfrbx) (c : List NavCall) (hwf : ∀ op ∈ ops, op.WF) (hm : (NavOp.sfrbx junk m).WF)
    (hrun : Nav.init.run md ops = .ok (n, cs)) (hgal : m.gnssId = 2)
    (hstep : n.step md (.sfrbx junk m) = .ok (n', c)) (hc : c ≠ []) :
    GoodPage m.dwrd ∧
    ∃ e d0 d1 d2 d3 d4 d5 d6,
      (let H := sinceWord2 (pagesOf m.svId (ops ++ [.sfrbx junk m]))
       latestW 0 H = some d0 ∧ latestW 1 H = some d1 ∧ latestW 2 H = some d2 ∧ latestW 3 H = some d3 ∧
       latestW 4 H = some d4 ∧ latestW 5 H = some d5 ∧ latestW 6 H = some d6) ∧
      Consistent d0 d1 d2 d3 d4 ∧ c = reportTo (ephCbCount ops) e ∧ CarriesGal e m.svId d0 d1 d2 d3 d4 d5 := by
  have hcoll := galcoll_run md m.svId ops n cs hwf hrun
  obtain ⟨r, hr, hcall, nx⟩ := step_eph (by rw [hgal]; decide) hstep
  have hcb : n.ephCbs = ephCbCount ops := by
    rw [(run_ephCbs hrun).1]; show 0 + _ = _; omega
  have hlen : 32 ≤ m.dwrd.length := by rw [hm.2]; omega
  by_cases hg : GoodPage m.dwrd
  · refine ⟨hg, ?_⟩
    rw [sinceWord2_page m.svId ops junk m ⟨hgal, rfl, hg⟩]
    obtain ⟨-, -, -, hcase⟩ := gal_good hgal hlen hg hcoll hr
    rcases hcase with ⟨a, -, -⟩ | ⟨x, a, -, -, b1, b2, -, b3⟩
    · rw [hcall, a] at hc; exact absurd rfl hc
    · exact ⟨x, _, _, _, _, _, _, _, ⟨wordOf_eq (b1 0 (by omega)), wordOf_eq (b1 1 (by omega)), wordOf_eq (b1 2 (by omega)),
        wordOf_eq (b1 3 (by omega)), wordOf_eq (b1 4 (by omega)), wordOf_eq (b1 5 (by omega)), wordOf_eq (b1 6 (by omega))⟩,
        b2, by rw [hcall, a, ephCalls_one, hcb], b3⟩
  · rw [gal_bad _ hgal hlen hg] at hr
    have hr := Except.ok.inj hr
    rw [hcall, ← hr] at hc
    exact absurd rfl hc

/-- C58, completeness: an accepted page which completes words 0..6 since the latest word 2, consistently, is reported.
(In builds where flowing off the end of a function is harmless; otherwise see C61.) -/
theorem c58_reported (ops : List NavOp) (n : Nav) (cs : List (List NavCall)) (junk : List Byte) (m : Sfrbx)
    (d0 d1 d2 d3 d4 d5 d6 : List Byte)
    (hwf : ∀ op ∈ ops, op.WF) (hm : (NavOp.sfrbx junk m).WF)
    (hrun : Nav.init.run .lenient ops = .ok (n, cs)) (hgal : m.gnssId = 2) (hs : m.svId ≠ 0) (hg : GoodPage m.dwrd)
    (h0 : latestW 0 (sinceWord2 (pagesOf m.svId (ops ++ [.sfrbx junk m]))) = some d0)
    (h1 : latestW 1 (sinceWord2 (pagesOf m.svId (ops ++ [.sfrbx junk m]))) = some d1)
    (h2 : latestW 2 (sinceWord2 (pagesOf m.svId (ops ++ [.sfrbx junk m]))) = some d2)
    (h3 : latestW 3 (sinceWord2 (pagesOf m.svId (ops ++ [.sfrbx junk m]))) = some d3)
    (h4 : latestW 4 (sinceWord2 (pagesOf m.svId (ops ++ [.sfrbx junk m]))) = some d4)
    (h5 : latestW 5 (sinceWord2 (pagesOf m.svId (ops ++ [.sfrbx junk m]))) = some d5)
    (h6 : latestW 6 (sinceWord2 (pagesOf m.svId (ops ++ [.sfrbx junk m]))) = some d6)
    (hcons : Consistent d0 d1 d2 d3 d4) (hfit : DatesFit d0 d1 d4) :
    ∃ n' e, n.step .lenient (.sfrbx junk m) = .ok (n', reportTo (ephCbCount ops) e) ∧
      CarriesGal e m.svId d0 d1 d2 d3 d4 d5 := by
  have hcoll := galcoll_run .lenient m.svId ops n cs hwf hrun
  have hlen : 32 ≤ m.dwrd.length := by rw [hm.2]; omega
  have hcb : n.ephCbs = ephCbCount ops := by
    rw [(run_ephCbs hrun).1]; show 0 + _ = _; omega
  rw [sinceWord2_page m.svId ops junk m ⟨hgal, rfl, hg⟩] at h0 h1 h2 h3 h4 h5 h6
  have w : ∀ {k d}, latestW k (addPage (sinceWord2 (pagesOf m.svId ops)) m.dwrd) = some d →
      wordOf (addPage (sinceWord2 (pagesOf m.svId ops)) m.dwrd) k = d := by
    intro k d h; unfold wordOf; rw [h]; rfl
  have comp : Complete (addPage (sinceWord2 (pagesOf m.svId ops)) m.dwrd) := by
    intro k hk
    match k, hk with
    | 0, _ => rw [h0]; rfl
    | 1, _ => rw [h1]; rfl
    | 2, _ => rw [h2]; rfl
    | 3, _ => rw [h3]; rfl
    | 4, _ => rw [h4]; rfl
    | 5, _ => rw [h5]; rfl
    | 6, _ => rw [h6]; rfl
    | k + 7, hk => omega
  have cons : ConsistentP (addPage (sinceWord2 (pagesOf m.svId ops)) m.dwrd) := by
    unfold ConsistentP; rw [w h0, w h1, w h2, w h3, w h4]; exact hcons
  have hgg : m.gnssId ≠ GLONASS := by rw [hgal]; decide
  cases hstep : n.step .lenient (.sfrbx junk m) with
  | error u =>
    obtain ⟨-, h⟩ := gal_err hgal hlen hcoll (step_eph_err hgg hstep)
    rcases h with ⟨h, -⟩ | ⟨-, -, -, ⟨-, h⟩ | ⟨h, -⟩⟩
    · exact absurd h hs
    · rw [w h0, w h1, w h4] at h; exact absurd hfit h
    · cases h
  | ok p =>
    obtain ⟨n', c⟩ := p
    obtain ⟨r, hr, hcall, nx⟩ := step_eph hgg hstep
    obtain ⟨-, -, -, hcase⟩ := gal_good hgal hlen hg hcoll hr
    rcases hcase with ⟨-, -, a⟩ | ⟨x, a, -, -, -, -, -, b⟩
    · exact absurd ⟨comp, cons⟩ a
    · rw [w h0, w h1, w h2, w h3, w h4, w h5] at b
      exact ⟨n', x, by rw [hcall, a, ephCalls_one, hcb], b⟩

/-- C58, the date: if time of week and time of ephemeris are within a week, the time of ephemeris reported is the one
closest to the transmission time of word 0 (in Galileo time; week 1024 is added to get GPS weeks). -/
theorem c58_toe_closest (d0 d1 : List Byte) (h0 : galTow d0 < 604800) (h1 : galToe d1 < 604800) :
    let t := (galWeek d0 : Int) * 604800 + galTow d0
    let toe := toeWeek d0 d1 * 604800 + galToe d1
    toe - t ≤ 302400 ∧ t - toe ≤ 302400 := by
  intro t toe
  have ha : toe = toeWeek d0 d1 * 604800 + galToe d1 := rfl
  have hb : t = (galWeek d0 : Int) * 604800 + galTow d0 := rfl
  clear_value toe t
  unfold toeWeek at ha
  split at ha
  · omega
  · split at ha <;> omega

/-- A concrete case of C58: the values reported, to two callbacks, with another satellite's pages in between. -/
example : shown (·.iodc) .lenient ([.addEphCb, .addEphCb] ++ [gal2, gal3, gal4, gal5].map (gal 7) ++ [gal2, gal3].map (gal 8) ++
      [gal6, gal0, gal1].map (gal 7)) = some [(iodNav gal1 : Int), (iodNav gal1 : Int)] ∧
    shown (·.deltaN.raw) .lenient (.addEphCb :: [gal2, gal3, gal4, gal5, gal6, gal0, gal1].map (gal 7)) = some [1111] := by
  decide +kernel

/-- The hypotheses of `c58_reported` are met by it. -/
example : Consistent gal0 gal1 gal2 gal3 gal4 ∧ DatesFit gal0 gal1 gal4 ∧
    [gal0, gal1, gal2, gal3, gal4, gal5, gal6].map wType = [0, 1, 2, 3, 4, 5, 6] := by
  refine ⟨?_, by decide +kernel, by decide +kernel⟩
  unfold Consistent; decide +kernel

/-! ## C59 -/

/-- C59 (partial): after any history, the only Galileo message that accesses memory outside the page store is an accepted
page under satellite number 0. -/
theorem c59_memory_partial (md : Mode) (ops : List NavOp) (n : Nav) (cs : List (List NavCall)) (junk : List Byte) (m : Sfrbx)
    (u : UB) (hwf : ∀ op ∈ ops, op.WF) (hm : (NavOp.sfrbx junk m).WF) (hrun : Nav.init.run md ops = .ok (n, cs))
    (hgal : m.gnssId = 2) (h : n.step md (.sfrbx junk m) = .error u) :
    u = .overflow ∨ u = .missingReturn ∨ (u = .oobWrite ∧ m.svId = 0 ∧ GoodPage m.dwrd) := by
  have hcoll := galcoll_run md m.svId ops n cs hwf hrun
  obtain ⟨hg, h⟩ := gal_err hgal (by rw [hm.2]; omega) hcoll (step_eph_err (by rw [hgal]; decide) h)
  rcases h with ⟨h, hu⟩ | ⟨-, -, -, ⟨h, -⟩ | ⟨-, h⟩⟩
  · exact .inr (.inr ⟨hu, h, hg⟩)
  · exact .inl h
  · exact .inr (.inl h)

/-- C59 is false: every accepted page under satellite number 0 is written before the beginning of the page store, in any
state. -/
theorem c59_satellite0_refuted (md : Mode) (n : Nav) (junk : List Byte) (m : Sfrbx) (hm : (NavOp.sfrbx junk m).WF)
    (hgal : m.gnssId = 2) (h0 : m.svId = 0) (hg : GoodPage m.dwrd) : n.step md (.sfrbx junk m) = .error .oobWrite := by
  have hgg : m.gnssId ≠ GLONASS := by rw [hgal]; decide
  obtain ⟨buf, hh, -, g2, -⟩ := decodeGalileo_eq (md := md) (row := n.gal m.svId.toNat) (d := m.dwrd) (by rw [hm.2]; omega)
    { n.cur m.svId with sat := m.svId, gnssID := m.gnssId }
  have : ephStep md junk n.gpsTime (n.gal m.svId.toNat) m (n.cur m.svId) = .error .oobWrite := by
    rw [ephStep_gal hgal, g2 hg h0]; rfl
  unfold Nav.step convertUBX
  dsimp only
  rw [if_neg hgg, (convertEph_spec md junk n m).2 _ this]; rfl

/-- Such a message exists. -/
example : callsAfter .lenient [gal 0 gal0] = .error .oobWrite := by decide +kernel

/-! ## C61 -/

/-- C61 (partial): with C++ semantics, after any history without undefined behaviour, an SFRBX message can only be undefined
in these ways: it is of a constellation other than GPS, Galileo, GLONASS (missing return statement); a usable GLONASS
string 1..4 (missing return statement, or overflow if the reference time is before 1970 or after 2038); an accepted Galileo
page under satellite number 0 (write outside the page store) or one that completes an ephemeris (missing return statement
in the debug output, or overflow in a date after 2047).  GPS messages are always defined. -/
theorem c61_causes_partial (ops : List NavOp) (n : Nav) (cs : List (List NavCall)) (junk : List Byte) (m : Sfrbx) (u : UB)
    (hwf : ∀ op ∈ ops, op.WF) (hm : (NavOp.sfrbx junk m).WF) (hrun : Nav.init.run .strict ops = .ok (n, cs))
    (h : n.step .strict (.sfrbx junk m) = .error u) :
    (m.gnssId ≠ 0 ∧ m.gnssId ≠ 2 ∧ m.gnssId ≠ GLONASS ∧ u = .missingReturn) ∨
    (m.gnssId = GLONASS ∧ usable (gloBit m.dwrd) = true ∧ 1 ≤ gloNum m.dwrd ∧ gloNum m.dwrd ≤ 4 ∧
      (u = .missingReturn ∨ u = .overflow ∧ ¬ (0 ≤ n.gpsTime.sec ∧ n.gpsTime.sec ≤ 2147000000))) ∨
    (m.gnssId = 2 ∧ GoodPage m.dwrd ∧ (m.svId = 0 ∧ u = .oobWrite ∨
      m.svId ≠ 0 ∧ Complete (sinceWord2 (pagesOf m.svId (ops ++ [.sfrbx junk m]))) ∧ (u = .missingReturn ∨ u = .overflow))) := by
  by_cases hglo : m.gnssId = GLONASS
  · right; left
    refine ⟨hglo, ?_⟩
    have : decodeGlonass .strict n.gpsTime m.gnssId m.svId m.freqId m.dwrd (n.gcur m.svId) = .error u := by
      unfold Nav.step convertUBX at h
      dsimp only at h
      rw [if_pos hglo] at h
      cases hr : decodeGlonass .strict n.gpsTime m.gnssId m.svId m.freqId m.dwrd (n.gcur m.svId) with
      | ok r =>
        obtain ⟨n', e, -⟩ := (convertGlo_spec .strict n m).1 r hr
        rw [e] at h; cases h
      | error v =>
        rw [(convertGlo_spec .strict n m).2 v hr] at h
        injection h with h; rw [h]
    obtain ⟨hs, h1, h2, h3⟩ := glo_err (by rw [hm.2]; omega) this
    refine ⟨hs.2.2, h1, h2, ?_⟩
    rcases h3 with ⟨h3, -, h4⟩ | ⟨-, h3⟩
    · exact .inr ⟨h3, h4⟩
    · exact .inl h3
  · by_cases hgps : m.gnssId = 0
    · obtain ⟨r, hr⟩ := c60_gps_defined ops n cs junk m hwf hm hrun hgps
      rw [hr] at h; cases h
    · by_cases hgal : m.gnssId = 2
      · right; right
        have hcoll := galcoll_run .strict m.svId ops n cs hwf hrun
        obtain ⟨hg, h⟩ := gal_err hgal (by rw [hm.2]; omega) hcoll (step_eph_err hglo h)
        refine ⟨hgal, hg, ?_⟩
        rw [sinceWord2_page m.svId ops junk m ⟨hgal, rfl, hg⟩]
        rcases h with ⟨h, hu⟩ | ⟨h1, h2, -, ⟨h, -⟩ | ⟨-, h⟩⟩
        · exact .inl ⟨h, hu⟩
        · exact .inr ⟨h1, h2, .inr h⟩
        · exact .inr ⟨h1, h2, .inl h⟩
      · left
        refine ⟨hgps, hgal, hglo, ?_⟩
        have := step_eph_err hglo h
        unfold ephStep at this
        dsimp only at this
        rw [if_neg hgps, if_neg hgal] at this
        injection this with this; exact this.symm

/-- C61 is false: a message of any other constellation (Beidou, SBAS, QZSS, …) is undefined in every state. -/
theorem c61_other_refuted (n : Nav) (junk : List Byte) (m : Sfrbx) (h0 : m.gnssId ≠ 0) (h2 : m.gnssId ≠ 2)
    (h6 : m.gnssId ≠ GLONASS) : n.step .strict (.sfrbx junk m) = .error .missingReturn := by
  have : ephStep .strict junk n.gpsTime (n.gal m.svId.toNat) m (n.cur m.svId) = .error .missingReturn := by
    unfold ephStep
    dsimp only
    rw [if_neg h0, if_neg h2]; rfl
  unfold Nav.step convertUBX
  dsimp only
  rw [if_neg h6, (convertEph_spec .strict junk n m).2 _ this]; rfl

/-- C61 is false: every usable GLONASS string 1..4 is undefined once the reference time is set. -/
theorem c61_glonass_refuted (n : Nav) (junk : List Byte) (m : Sfrbx) (hm : (NavOp.sfrbx junk m).WF)
    (h6 : m.gnssId = GLONASS) (h255 : m.svId ≠ 255) (hT : n.gpsTime ≠ ⟨0, 0⟩) (hu : usable (gloBit m.dwrd) = true)
    (hk : 1 ≤ gloNum m.dwrd ∧ gloNum m.dwrd ≤ 4) : ∃ u, n.step .strict (.sfrbx junk m) = .error u := by
  have hs : Seen n.gpsTime m.svId m.dwrd := ⟨h255, hT, hu⟩
  have hb : ∃ u, gloBody .strict n.gpsTime m.dwrd (markUpd (gloMark m.dwrd) (n.gcur m.svId)) = .error u := by
    unfold gloBody
    split
    · cases UTCTime.fromGlonassTimeOfDay n.gpsTime ((frameTod m.dwrd * 1000 : Nat) : Int) <;> exact ⟨_, rfl⟩
    · cases UTCTime.fromGlonassTimeOfDay n.gpsTime ((ephTod m.dwrd * 1000 : Nat) : Int) <;> exact ⟨_, rfl⟩
    · exact ⟨_, rfl⟩
    · exact ⟨_, rfl⟩
  obtain ⟨u, hb⟩ := hb
  have : decodeGlonass .strict n.gpsTime m.gnssId m.svId m.freqId m.dwrd (n.gcur m.svId) = .error u := by
    rw [decodeGlonass_seen (by rw [hm.2]; omega) _ hs, if_neg (by omega), hb]; rfl
  refine ⟨u, ?_⟩
  unfold Nav.step convertUBX
  dsimp only
  rw [if_pos h6, (convertGlo_spec .strict n m).2 _ this]; rfl

/-- C61 is false: concrete messages and histories for each cause. -/
theorem c61_witnesses_refuted :
    callsAfter .strict [.sfrbx (List.replicate 30 0) ⟨3, 5, 0, gps1⟩] = .error .missingReturn ∧
    callsAfter .strict [.setTime ⟨1700000000, 0⟩, gloMsg 3 8 glo1] = .error .missingReturn ∧
    callsAfter .lenient [.setTime ⟨4000000000, 0⟩, gloMsg 3 8 glo1] = .error .overflow ∧
    callsAfter .strict ([gal2, gal3, gal4, gal5, gal6, gal0, gal1].map (gal 7)) = .error .missingReturn ∧
    callsAfter .lenient ([gal2, gal3, gal4, gal5, gal6, gal0over, gal1].map (gal 7)) = .error .overflow ∧
    callsAfter .strict [gal 0 gal0] = .error .oobWrite := by
  decide +kernel

/-- C61 in builds where flowing off the end of a function is harmless (partial): after any history, a message can only be
undefined if it is a GLONASS string with a reference time before 1970 or after 2038, an accepted Galileo page under satellite
number 0 or with dates after 2047, or a GPS message under the number of a Galileo satellite. -/
theorem c61_lenient_partial (ops : List NavOp) (n : Nav) (cs : List (List NavCall)) (junk : List Byte) (m : Sfrbx) (u : UB)
    (hwf : ∀ op ∈ ops, op.WF) (hm : (NavOp.sfrbx junk m).WF) (hrun : Nav.init.run .lenient ops = .ok (n, cs))
    (h : n.step .lenient (.sfrbx junk m) = .error u) :
    (m.gnssId = GLONASS ∧ u = .overflow ∧ ¬ (0 ≤ n.gpsTime.sec ∧ n.gpsTime.sec ≤ 2147000000)) ∨
    (m.gnssId = 2 ∧ GoodPage m.dwrd ∧ (m.svId = 0 ∧ u = .oobWrite ∨ u = .overflow ∧
      ∃ d0 d1 d4, latestW 0 (sinceWord2 (pagesOf m.svId (ops ++ [.sfrbx junk m]))) = some d0 ∧
        latestW 1 (sinceWord2 (pagesOf m.svId (ops ++ [.sfrbx junk m]))) = some d1 ∧
        latestW 4 (sinceWord2 (pagesOf m.svId (ops ++ [.sfrbx junk m]))) = some d4 ∧ ¬ DatesFit d0 d1 d4)) ∨
    (m.gnssId = 0 ∧ u = .overflow ∧ ∃ op ∈ ops, IsGalileo m.svId op) := by
  by_cases hglo : m.gnssId = GLONASS
  · left
    cases hr : decodeGlonass .lenient n.gpsTime m.gnssId m.svId m.freqId m.dwrd (n.gcur m.svId) with
    | ok r =>
      obtain ⟨n', e, -⟩ := (convertGlo_spec .lenient n m).1 r hr
      unfold Nav.step convertUBX at h
      dsimp only at h
      rw [if_pos hglo, e] at h; cases h
    | error v =>
      obtain ⟨hs, h1, h2, h3⟩ := glo_err (by rw [hm.2]; omega) hr
      unfold Nav.step convertUBX at h
      dsimp only at h
      rw [if_pos hglo, (convertGlo_spec .lenient n m).2 v hr] at h
      injection h with h
      rcases h3 with ⟨h3, -, h4⟩ | ⟨h3, -⟩
      · exact ⟨hglo, by rw [← h, h3], h4⟩
      · cases h3
  · by_cases hgps : m.gnssId = 0
    · right; right
      refine ⟨hgps, (gps_step_err hgps hm h).1, ?_⟩
      by_contra hne
      obtain ⟨r, hr⟩ := c60_gps_defined_lenient .lenient ops n cs junk m hwf hm hrun hgps
        (fun op ho hi => hne ⟨op, ho, hi⟩)
      rw [hr] at h; cases h
    · by_cases hgal : m.gnssId = 2
      · right; left
        have hcoll := galcoll_run .lenient m.svId ops n cs hwf hrun
        obtain ⟨hg, h⟩ := gal_err hgal (by rw [hm.2]; omega) hcoll (step_eph_err hglo h)
        refine ⟨hgal, hg, ?_⟩
        rw [sinceWord2_page m.svId ops junk m ⟨hgal, rfl, hg⟩]
        rcases h with ⟨h, hu⟩ | ⟨h1, h2, -, ⟨h, h3⟩ | ⟨h, -⟩⟩
        · exact .inl ⟨h, hu⟩
        · exact .inr ⟨h, _, _, _, wordOf_eq (h2 0 (by omega)), wordOf_eq (h2 1 (by omega)), wordOf_eq (h2 4 (by omega)), h3⟩
        · cases h
      · have := step_eph_err hglo h
        unfold ephStep at this
        dsimp only at this
        rw [if_neg hgps, if_neg hgal] at this
        cases this

/-! ## C62 -/

theorem convert_eph {md : Mode} {junk : List Byte} {n : Nav} {m : Sfrbx} {o : NavOut} (hg : m.gnssId ≠ GLONASS)
    (h : convertUBX md junk n m = .ok o) :
    ∃ r, ephStep md junk n.gpsTime (n.gal m.svId.toNat) m (n.cur m.svId) = .ok r ∧
      o.calls = ephCalls n.ephCbs r.reports ∧ o.ret = r.ret := by
  unfold convertUBX at h
  rw [if_neg hg] at h
  cases hr : ephStep md junk n.gpsTime (n.gal m.svId.toNat) m (n.cur m.svId) with
  | error u => rw [(convertEph_spec md junk n m).2 u hr] at h; cases h
  | ok r =>
    obtain ⟨n', e, -⟩ := (convertEph_spec md junk n m).1 r hr
    rw [e] at h
    have h := Except.ok.inj h
    exact ⟨r, rfl, by rw [← h], by rw [← h]⟩

theorem ephCalls_ne {k : Nat} {es : List Eph} (hk : 0 < k) : ephCalls k es ≠ [] ↔ es ≠ [] := by
  cases es with
  | nil => simp [ephCalls]
  | cons e es =>
    have : List.range k ≠ [] := by simp; omega
    simp [ephCalls, this]

theorem gephCalls_ne {k : Nat} {es : List GEph} (hk : 0 < k) : gephCalls k es ≠ [] ↔ es ≠ [] := by
  cases es with
  | nil => simp [gephCalls]
  | cons e es =>
    have : List.range k ≠ [] := by simp; omega
    simp [gephCalls, this]

/-- C62 for Galileo: with a callback registered, `convertUBX` returns true iff a callback was made. -/
theorem c62_galileo (md : Mode) (ops : List NavOp) (n : Nav) (cs : List (List NavCall)) (junk : List Byte) (m : Sfrbx)
    (o : NavOut) (hwf : ∀ op ∈ ops, op.WF) (hm : (NavOp.sfrbx junk m).WF) (hrun : Nav.init.run md ops = .ok (n, cs))
    (hgal : m.gnssId = 2) (hcb : 0 < n.ephCbs) (h : convertUBX md junk n m = .ok o) :
    (o.ret = some true ∨ o.ret = some false) ∧ (o.ret = some true ↔ o.calls ≠ []) := by
  have hcoll := galcoll_run md m.svId ops n cs hwf hrun
  have hlen : 32 ≤ m.dwrd.length := by rw [hm.2]; omega
  obtain ⟨r, hr, hc, hret⟩ := convert_eph (by rw [hgal]; decide) h
  rw [hc, hret, ephCalls_ne hcb]
  by_cases hg : GoodPage m.dwrd
  · obtain ⟨-, -, -, hcase⟩ := gal_good hgal hlen hg hcoll hr
    rcases hcase with ⟨a, b, -⟩ | ⟨x, a, b, -⟩
    · rw [a, b]; simp
    · rw [a, b]; simp
  · rw [gal_bad _ hgal hlen hg] at hr
    have hr := Except.ok.inj hr
    rw [← hr]; simp

/-- C62 for GLONASS (partial): with a callback registered, `convertUBX` returns true iff a callback was made or the string
failed its check (the latter must not be). -/
theorem c62_glonass_partial (md : Mode) (n : Nav) (junk : List Byte) (m : Sfrbx)
    (o : NavOut) (hm : (NavOp.sfrbx junk m).WF)
    (hglo : m.gnssId = GLONASS) (hcb : 0 < n.gephCbs) (h : convertUBX md junk n m = .ok o) :
    o.ret = some true ↔ o.calls ≠ [] ∨ (m.svId ≠ 255 ∧ n.gpsTime ≠ ⟨0, 0⟩ ∧ usable (gloBit m.dwrd) = false) := by
  have hlen : 16 ≤ m.dwrd.length := by rw [hm.2]; omega
  unfold convertUBX at h
  rw [if_pos hglo] at h
  cases hr : decodeGlonass md n.gpsTime m.gnssId m.svId m.freqId m.dwrd (n.gcur m.svId) with
  | error u => rw [(convertGlo_spec md n m).2 u hr] at h; cases h
  | ok r =>
    obtain ⟨n', e, -⟩ := (convertGlo_spec md n m).1 r hr
    rw [e] at h
    have h := Except.ok.inj h
    rw [← h]
    dsimp only
    rw [gephCalls_ne hcb]
    by_cases hs : Seen n.gpsTime m.svId m.dwrd
    · rw [decodeGlonass_seen hlen _ hs] at hr
      rw [hs.2.2]
      split at hr
      · have hr := Except.ok.inj hr
        rw [← hr]; simp
      · rw [bind_ok] at hr
        obtain ⟨g1, -, hr⟩ := hr
        split at hr
        · have hr := Except.ok.inj hr
          rw [← hr]; simp
        · have hr := Except.ok.inj hr
          rw [← hr]; simp
    · unfold decodeGlonass at hr
      by_cases h1 : m.svId = 255
      · rw [if_pos h1] at hr
        have hr := Except.ok.inj hr
        rw [← hr]; simp [h1]
      rw [if_neg h1] at hr
      by_cases h2 : n.gpsTime = ⟨0, 0⟩
      · rw [if_pos ((eq_zero n.gpsTime).mpr h2)] at hr
        have hr := Except.ok.inj hr
        rw [← hr]; simp [h2]
      rw [if_neg (fun hh => h2 ((eq_zero n.gpsTime).mp hh))] at hr
      have h3 : usable (gloBit m.dwrd) = false := by
        cases hu : usable (gloBit m.dwrd) with
        | false => rfl
        | true => exact absurd ⟨h1, h2, hu⟩ hs
      obtain ⟨buf, b1, b2, b3⟩ := swap_holds m.dwrd 4 (by omega)
      rw [b1, ok_bind, gloTest_ok buf (by rw [b2.1]; omega), ok_bind, b2.str, h3] at hr
      simp only [Bool.not_false, if_true] at hr
      have hr := Except.ok.inj hr
      rw [← hr]
      exact ⟨fun _ => .inr ⟨h1, h2, h3⟩, fun _ => rfl⟩

/-- C62 is false for GPS: `convertUBX` never returns true when an ephemeris is reported; it returns true exactly for subframes
with an impossible number. -/
theorem c62_gps_refuted (md : Mode) (n : Nav) (junk : List Byte) (m : Sfrbx) (o : NavOut) (hm : (NavOp.sfrbx junk m).WF)
    (hgps : m.gnssId = 0) (h : convertUBX md junk n m = .ok o) :
    (o.ret = some true ↔ (gpsId m.dwrd < 1 ∨ 5 < gpsId m.dwrd)) ∧ (o.ret = some true → o.calls = []) := by
  obtain ⟨r, hr, hc, hret⟩ := convert_eph (by rw [hgps]; decide) h
  rw [hc, hret]
  unfold ephStep at hr
  dsimp only at hr
  rw [if_pos hgps, decodeGPS_eq hm.2 hm.1, gpsStep_eq, bind_ok] at hr
  obtain ⟨g, h1, hr⟩ := hr
  have hr := Except.ok.inj hr
  rw [← hr]
  dsimp only
  by_cases hid : gpsId m.dwrd = 1 ∨ gpsId m.dwrd = 2 ∨ gpsId m.dwrd = 3
  · rw [if_pos hid] at h1
    rcases gpsFinish_cases h1 with ⟨-, a⟩ | ⟨-, toe, toc, -, -, a⟩
    · rw [a]
      dsimp only
      refine ⟨⟨fun h => ?_, fun h => ?_⟩, fun h => ?_⟩
      · cases h
      · omega
      · cases h
    · rw [a]
      dsimp only
      refine ⟨⟨fun h => ?_, fun h => ?_⟩, fun h => ?_⟩
      · cases h
      · omega
      · cases h
  · rw [if_neg hid] at h1
    have h1 := Except.ok.inj h1
    rw [← h1]
    dsimp only
    refine ⟨by simp, fun _ => rfl⟩

/-- The return value of the last `convertUBX` of a run. -/
def retAfter (md : Mode) (ops : List NavOp) (m : Sfrbx) : Option (Option Bool × Nat) :=
  match Nav.init.run md ops with
  | .ok (n, _) => match convertUBX md (List.replicate 30 0) n m with
    | .ok o => some (o.ret, o.calls.length)
    | .error _ => none
  | .error _ => none

/-- C62 is false: concrete cases (returned value, number of callbacks made): a reported GPS ephemeris, a GPS subframe with
number 7, a GLONASS string with bad check bits; and a Galileo ephemeris, for which it holds. -/
theorem c62_witnesses_refuted :
    retAfter .strict [.addEphCb, gps 7 gps1, gps 7 gps2] ⟨0, 7, 0, gps3⟩ = some (some false, 1) ∧
    retAfter .strict [.addEphCb] ⟨0, 7, 0, gpsBad⟩ = some (some true, 0) ∧
    retAfter .strict [.addGephCb, .setTime ⟨1700000000, 0⟩] ⟨6, 3, 8, glo2bad⟩ = some (some true, 0) ∧
    retAfter .lenient (.addEphCb :: [gal2, gal3, gal4, gal5, gal6, gal0].map (gal 7)) ⟨2, 7, 0, gal1⟩ = some (some true, 1) := by
  decide +kernel

end Ublox.Nav
