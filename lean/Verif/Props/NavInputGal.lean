import Verif.Spec.NavInputGal
import Verif.Props.NavInputGps
import Verif.Props.NavEncGal
import Mathlib.Tactic.IntervalCases

/-!
# C117: from the transmitter's parameters to the user's callback, for Galileo
-/

namespace Ublox
namespace Dev

open Nav (Nav NavCall Mode Sfrbx NavOp GalParams GalTime GoodPage SentPage ReportsGal reportTo galBit galFrame wordBit wType
  SendsGal ArrivesGal)

/-- The decoder looks at the first 32 bytes only. -/
theorem galBit_take {d d' : List Byte} (h : d.take 32 = d'.take 32) {q : Nat} (hq : q < 256) : galBit d q = galBit d' q := by
  have hk : 4 * (q / 32) + 3 - q % 32 / 8 < 32 := by omega
  unfold galBit
  rw [List.getD_eq_getElem?_getD, List.getD_eq_getElem?_getD, ← List.getElem?_take_of_lt hk, h, List.getElem?_take_of_lt hk]

theorem galFrame_take {d d' : List Byte} (h : d.take 32 = d'.take 32) : galFrame d = galFrame d' := by
  unfold galFrame
  refine ext_bitAt (by simp [Nav.packBits]) fun i hi => ?_
  rw [Nav.packBits_length] at hi
  rw [Nav.bitAt_packBits _ _ _ (by omega), Nav.bitAt_packBits _ _ _ (by omega), galBit_take h (q := i - 4) (by omega),
    galBit_take h (q := 128 + (i - 118)) (by omega)]

theorem wordBit_take {d d' : List Byte} (h : d.take 32 = d'.take 32) {i : Nat} (hi : i < 128) : wordBit d i = wordBit d' i := by
  unfold wordBit
  rw [galBit_take h (q := 2 + i) (by omega), galBit_take h (q := 130 + (i - 112)) (by omega)]

theorem sentPage_take {p : GalParams} {t : GalTime} {k : Nat} {d d' : List Byte} (h : d.take 32 = d'.take 32) (hl : d'.length = 40)
    (hs : SentPage p t k d) : SentPage p t k d' where
  length := hl
  nominal := by rw [← galBit_take h (by omega), ← galBit_take h (by omega)]; exact hs.nominal
  order := by rw [← galBit_take h (by omega), ← galBit_take h (by omega)]; exact hs.order
  crc := by rw [← galFrame_take h]; exact hs.crc
  word := by
    obtain ⟨f, hf⟩ := hs.word
    exact ⟨f, fun i hi => by rw [← wordBit_take h hi]; exact hf i hi⟩

theorem wType_take {d d' : List Byte} (h : d.take 32 = d'.take 32) : wType d = wType d' := by
  unfold wType Nav.wU
  exact bitsVal_congr fun i hi => wordBit_take h (by omega)

theorem goodPage_take {d d' : List Byte} (h : d.take 32 = d'.take 32) (hg : GoodPage d) : GoodPage d' where
  nominal := by rw [← galBit_take h (by omega), ← galBit_take h (by omega)]; exact hg.nominal
  order := by rw [← galBit_take h (by omega), ← galBit_take h (by omega)]; exact hg.order
  crc := by rw [← galFrame_take h]; exact hg.crc
  type := by rw [← wType_take h]; exact hg.type

theorem take_padded {w : List Byte} (hw : w.length = 32) : (padded w).take 32 = w := by
  unfold padded; rw [← hw]; simp

theorem gal_op {s : Byte} {w pl : List Byte} {op : NavOp} (hp : IsGalPage s w pl) (h : SameIn (.sfrbx pl) op) :
    ∃ x d, op = .sfrbx (List.replicate 30 0) ⟨2, s, x, d⟩ ∧ d.length = 40 ∧ d.take 32 = w := by
  obtain ⟨hw, r, x, ch, ver, res, rfl⟩ := hp
  cases h with
  | sfrbx _ buf hl hp =>
    have hlen : (galPayload s r x ch ver res w).length = 40 := by simp [galPayload, hw]
    have h0 := buf_at hp (k := 0) (by omega)
    have h1 := buf_at hp (k := 1) (by omega)
    refine ⟨buf.getD 3 0, (buf.drop 8).take 40, ?_, by simp [hl], ?_⟩
    · unfold Sfrbx.ofBuffer
      rw [h0, h1]
      rfl
    · rw [List.take_take, show min 32 40 = 32 from rfl, List.take_drop]
      rw [hlen] at hp
      show (buf.take 40).drop 8 = w
      rw [hp]; rfl

theorem notGal_op {s : Byte} {pl j : List Byte} {m : Sfrbx} (hp : NotGal s pl) (h : SameIn (.sfrbx pl) (.sfrbx j m)) :
    ¬ (m.gnssId = 2 ∧ m.svId = s) := by
  obtain ⟨h2, h3⟩ := hp
  cases h with
  | sfrbx _ buf hl hp =>
    rintro ⟨a, b⟩
    have a : buf.getD 0 0 = 2 := a
    have b : buf.getD 1 0 = s := b
    rw [buf_at hp (show 0 < pl.length by omega)] at a
    rw [buf_at hp (show 1 < pl.length by omega)] at b
    rw [List.getElem?_eq_getElem (show 0 < pl.length by omega), List.getElem?_eq_getElem (show 1 < pl.length by omega), a, b] at h3
    rcases h3 with h3 | h3 <;> exact h3 rfl

theorem forall2_mem_right {α β : Type} {R : α → β → Prop} {a : List α} {b : List β} (h : List.Forall₂ R a b) {y : β} (hy : y ∈ b) :
    ∃ x ∈ a, R x y := by
  induction h with
  | nil => cases hy
  | cons h1 _ ih =>
    rcases List.mem_cons.1 hy with rfl | hy
    · exact ⟨_, List.mem_cons_self, h1⟩
    · obtain ⟨x, hx, hr⟩ := ih hy
      exact ⟨x, List.mem_cons_of_mem _ hx, hr⟩

theorem forall2_mem_left {α β : Type} {R : α → β → Prop} {a : List α} {b : List β} (h : List.Forall₂ R a b) {x : α} (hx : x ∈ a) :
    ∃ y ∈ b, R x y := by
  induction h with
  | nil => cases hx
  | cons h1 _ ih =>
    rcases List.mem_cons.1 hx with rfl | hx
    · exact ⟨_, List.mem_cons_self, h1⟩
    · obtain ⟨y, hy, hr⟩ := ih hx
      exact ⟨y, List.mem_cons_of_mem _ hy, hr⟩

theorem traffic_sends {s : Byte} {p : GalParams} {ins : List NavIn} {ops : List NavOp} (hs : List.Forall₂ SameIn ins ops)
    (h : GalTraffic s p ins) : SendsGal s p ops := by
  intro j m hm hg hsv
  obtain ⟨i, hi, hr⟩ := forall2_mem_right hs hm
  cases i with
  | addEph => cases hr
  | addGeph => cases hr
  | sfrbx pl =>
    rcases h pl hi with hn | ⟨w, hw, hcase⟩
    · exact absurd ⟨hg, hsv⟩ (notGal_op hn hr)
    · obtain ⟨x, d, e, hd, hd2⟩ := gal_op hw hr
      cases e
      rcases hcase with hb | ⟨t, k, h6, h2, ht, hsp⟩
      · left
        intro hgood
        refine hb (goodPage_take (d := d) ?_ hgood)
        rw [hd2, List.take_of_length_le (by rw [hw.1])]
      · exact .inr ⟨t, k, h6, h2, ht, sentPage_take (by rw [take_padded hw.1, hd2]) hd hsp⟩

theorem arrives_op {s : Byte} {p : GalParams} {t : GalTime} {k : Nat} {ins : List NavIn} {ops : List NavOp}
    (hs : List.Forall₂ SameIn ins ops) (h : GalArrives s p t k ins) : ArrivesGal s p t k ops := by
  obtain ⟨pl, w, hin, hw, hsp⟩ := h
  obtain ⟨op, hop, hr⟩ := forall2_mem_left hs hin
  obtain ⟨x, d, rfl, hd, hd2⟩ := gal_op hw hr
  exact ⟨_, _, hop, rfl, rfl, sentPage_take (by rw [take_padded hw.1, hd2]) hd hsp⟩

theorem arrives_in {s : Byte} {p : GalParams} {t : GalTime} {ins : List NavIn} {ops : List NavOp}
    (hs : List.Forall₂ SameIn ins ops) (htr : GalTraffic s p ins) (h : ArrivesGal s p t 0 ops) : GalArrives s p t 0 ins := by
  obtain ⟨j, m, hm, hg, hsv, hsp⟩ := h
  obtain ⟨i, hi, hr⟩ := forall2_mem_right hs hm
  cases i with
  | addEph => cases hr
  | addGeph => cases hr
  | sfrbx pl =>
    rcases htr pl hi with hn | ⟨w, hw, -⟩
    · exact absurd ⟨hg, hsv⟩ (notGal_op hn hr)
    · obtain ⟨x, d, e, hd, hd2⟩ := gal_op hw hr
      cases e
      exact ⟨pl, w, hi, hw, sentPage_take (by rw [take_padded hw.1, hd2]) (by simp [padded, hw.1]) hsp⟩

/-- The same for any decoder that was told `ins`. -/
theorem c117_told {ins : List NavIn} {n : Nav} {es : List Eff} (h : Told .lenient Nav.init ins n es) (s : Byte) (hs : s ≠ 0) (p : GalParams) (hp : p.Ok) (t2 : GalTime)
    (i0 i1 : List NavIn) (pl2 page2 pl page : List Byte) (h2 : IsGalPage s page2 pl2) (hs2 : SentPage p t2 2 (padded page2))
    (hl : IsGalPage s page pl) (hgood : GoodPage page)
    (hin : ins = i0 ++ .sfrbx pl2 :: (i1 ++ [.sfrbx pl]))
    (htr : GalTraffic s p (i1 ++ [.sfrbx pl]))
    (harr : ∀ k, k ≤ 6 → k ≠ 2 → ∃ t, GalArrives s p t k (i1 ++ [.sfrbx pl]))
    (hfit : ∀ t, GalTime.Ok t → GalArrives s p t 0 (i1 ++ [.sfrbx pl]) → p.Fits t) :
    ∃ e t pre, es.filterMap Eff.nav? = pre ++ reportTo (ephRegs (i0 ++ i1)) e ∧ ReportsGal e s p t ∧
      GalTime.Ok t ∧ GalArrives s p t 0 (i1 ++ [.sfrbx pl]) := by
  obtain ⟨ops, cs, h1, hrun, h3⟩ := h
  rw [hin] at h1
  obtain ⟨o0, _, k0, k2, rfl⟩ := forall2_append_left h1
  obtain ⟨op2, _, g2, k3, rfl⟩ := List.forall₂_cons_left_iff.mp k2
  have k3' := k3
  obtain ⟨o1, _, k4, k5, rfl⟩ := forall2_append_left k3
  obtain ⟨opl, _, g3, k6, rfl⟩ := List.forall₂_cons_left_iff.mp k5
  cases k6
  obtain ⟨x2, d2, rfl, hd2, hd2'⟩ := gal_op h2 g2
  obtain ⟨x, dl, rfl, hdl, hdl'⟩ := gal_op hl g3
  have wf := wf_all h1
  have hsplit : (o0 ++ .sfrbx (List.replicate 30 0) ⟨2, s, x2, d2⟩ :: o1) ++ [NavOp.sfrbx (List.replicate 30 0) ⟨2, s, x, dl⟩] =
      o0 ++ .sfrbx (List.replicate 30 0) ⟨2, s, x2, d2⟩ :: (o1 ++ [.sfrbx (List.replicate 30 0) ⟨2, s, x, dl⟩]) := by simp
  rw [← hsplit] at hrun wf
  obtain ⟨n1, c1, c2, hr1, hr2, hcs⟩ := Nav.run_append.mp hrun
  obtain ⟨n', e, t, hok, hstep, ha, hrep⟩ := Nav.c58_transmitted _ n1 c1 (List.replicate 30 0) (List.replicate 30 0) ⟨2, s, x, dl⟩
    ⟨2, s, x2, d2⟩ o0 (o1 ++ [.sfrbx (List.replicate 30 0) ⟨2, s, x, dl⟩]) p t2
    (fun op hop => wf op (List.mem_append_left _ hop)) (wf _ (by simp)) hr1 rfl hs
    (goodPage_take (d := page) (by rw [hdl', List.take_of_length_le (by rw [hl.1])]) hgood) hp hsplit ⟨rfl, rfl⟩
    (sentPage_take (by rw [take_padded h2.1, hd2']) hd2 hs2) (traffic_sends k3' htr)
    (fun k h6 h2 => (harr k h6 h2).imp fun t ht => arrives_op k3' ht)
    (fun t ok ht => hfit t ok (arrives_in k3' htr ht))
  refine ⟨e, t, c1.flatten, ?_, hrep, hok, arrives_in k3' htr ha⟩
  have hc2 : c2 = [reportTo (Nav.ephCbCount (o0 ++ .sfrbx (List.replicate 30 0) ⟨2, s, x2, d2⟩ :: o1)) e] := by
    rw [Nav.run, hstep, ok_bind] at hr2
    exact (Prod.mk.inj (Except.ok.inj hr2)).2.symm
  have hcnt : Nav.ephCbCount (o0 ++ .sfrbx (List.replicate 30 0) ⟨2, s, x2, d2⟩ :: o1) = ephRegs (i0 ++ i1) := by
    rw [← ephRegs_eq (List.rel_append k0 k4)]
    simp [Nav.ephCbCount]
  rw [h3, hcs, hc2, hcnt]
  simp

/-- **C117**: a device that is never configured as a base receives, after and among anything else, a page with word 2 of the
batch `p` of Galileo satellite `s`, and then the other words of that batch, in any order and number, with damaged pages and
pages of other kinds of that satellite and any traffic of others between, all in good frames. With the last good page (and so
with every one after each word has come), each of the callbacks registered so far is called once, with exactly those
parameters, dated by a word 0 that has been received. -/
theorem c117 {ss : List Ubx.Sched} {evs : List Ev} {d : Dev} {es : List Eff} (h : Life .lenient ss evs d es)
    (hb : ∀ i s, Ev.configBase i s ∉ evs) (s : Byte) (hs : s ≠ 0) (p : GalParams) (hp : p.Ok) (t2 : GalTime)
    (i0 i1 : List NavIn) (pl2 page2 pl page : List Byte) (h2 : IsGalPage s page2 pl2) (hs2 : SentPage p t2 2 (padded page2))
    (hl : IsGalPage s page pl) (hgood : GoodPage page)
    (hin : navLife ss evs = i0 ++ .sfrbx pl2 :: (i1 ++ [.sfrbx pl]))
    (htr : GalTraffic s p (i1 ++ [.sfrbx pl]))
    (harr : ∀ k, k ≤ 6 → k ≠ 2 → ∃ t, GalArrives s p t k (i1 ++ [.sfrbx pl]))
    (hfit : ∀ t, GalTime.Ok t → GalArrives s p t 0 (i1 ++ [.sfrbx pl]) → p.Fits t) :
    ∃ e t pre, es.filterMap Eff.nav? = pre ++ reportTo (ephRegs (i0 ++ i1)) e ∧ ReportsGal e s p t ∧
      GalTime.Ok t ∧ GalArrives s p t 0 (i1 ++ [.sfrbx pl]) :=
  c117_told (c112 h hb) s hs p hp t2 i0 i1 pl2 page2 pl page h2 hs2 hl hgood hin htr harr hfit


/-! ### A concrete case -/

/-- The eight words of one of the concrete pages. -/
def exPage (k : Nat) : List Byte := (([Nav.Data.gal0, Nav.Data.gal1, Nav.Data.gal2, Nav.Data.gal3, Nav.Data.gal4, Nav.Data.gal5,
  Nav.Data.gal6].getD k []).take 32)

def exGalPl (s : Byte) (k : Nat) : List Byte := galPayload s 1 0 5 2 0 (exPage k)

def exGalFrame (s : Byte) (k : Nat) : List Byte := ubxFrame 0x02 0x13 (exGalPl s k)

/-- Word 1 with a bit in error. -/
def exBad : List Byte := galPayload 7 1 0 5 2 0 (Nav.Data.gal1bad.take 32)

/-- The constructed example device, then: a callback, the words of a satellite in frames cut in the middle, with a word 2 of
another satellite, a damaged frame and a damaged page between, and a second callback. -/
def exGalLife : List Ev :=
  [.ephCb, .rx (exGalFrame 7 2 ++ exGalFrame 7 0 ++ exGalFrame 8 2), .rx ((exGalFrame 7 1).take 20), .rx ((exGalFrame 7 1).drop 20),
   .configRover 4, .rx (exGalFrame 7 6 ++ exGalFrame 7 4), .ephCb, .rx ((exGalFrame 7 3).dropLast ++ [0] ++ exGalFrame 7 3),
   .rx (ubxFrame 0x02 0x13 exBad ++ exGalFrame 7 5)]

/-- What comes after word 2 and before the last page. -/
def exGalMid : List NavIn :=
  [.sfrbx (exGalPl 7 0), .sfrbx (exGalPl 8 2), .sfrbx (exGalPl 7 1), .sfrbx (exGalPl 7 6), .sfrbx (exGalPl 7 4), .addEph,
   .sfrbx (exGalPl 7 3), .sfrbx exBad]

theorem exGalLife_in : navLife [exSched] exGalLife =
    [.addEph] ++ .sfrbx (exGalPl 7 2) :: (exGalMid ++ [.sfrbx (exGalPl 7 5)]) := by
  decide +kernel

/-- The run of the example device, undefined results of no consequence ignored. -/
def exRunL (evs : List Ev) : Option (Dev × List Eff) :=
  match construct .lenient exStart [exSched] with
  | .ok (some (some d, _)) =>
    match run .lenient d evs with
    | .ok x => some x
    | .error _ => none
  | _ => none

theorem exRunL_life {evs : List Ev} {d : Dev} {es : List Eff} (h : exRunL evs = some (d, es)) : Life .lenient [exSched] evs d es := by
  unfold exRunL at h
  split at h
  · rename_i d0 e0 hc
    split at h
    · rename_i x hr
      cases h
      exact ⟨_, _, _, d0, e0, ⟨_, _, _, _, _, List.length_replicate, List.length_replicate, List.length_replicate, rfl⟩,
        ⟨_, _, _, _, List.length_replicate, rfl⟩, ⟨_, _, _, _, List.length_replicate, rfl⟩, hc, hr⟩
    · cases h
  · cases h

theorem exPage_is (s : Byte) (k : Nat) (hk : k ≤ 6) : IsGalPage s (exPage k) (exGalPl s k) := by
  refine ⟨?_, 1, 0, 5, 2, 0, rfl⟩
  interval_cases k <;> decide

theorem exPage_sent (k : Nat) (hk : k ≤ 6) : SentPage Nav.exGal ⟨1200, 100000⟩ k (padded (exPage k)) := by
  obtain ⟨-, -, -, s0, s1, s2, s3, s4, s5, s6⟩ := Nav.exGal_sent
  interval_cases k
  · exact s0
  · exact s1
  · exact s2
  · exact s3
  · exact s4
  · exact s5
  · exact s6

theorem exBad_bad : ¬ GoodPage (Nav.Data.gal1bad.take 32) := by
  obtain ⟨-, -, -, -, -, -, -, h⟩ := Nav.good_pages
  exact fun hg => h (goodPage_take (by rw [List.take_take]; rfl) hg)

theorem exGal_traffic : GalTraffic 7 Nav.exGal (exGalMid ++ [.sfrbx (exGalPl 7 5)]) := by
  have hw : ∀ k, k ≤ 6 → k ≠ 2 → ∃ page, IsGalPage 7 page (exGalPl 7 k) ∧
      (¬ GoodPage page ∨ ∃ t k, k ≤ 6 ∧ k ≠ 2 ∧ GalTime.Ok t ∧ SentPage Nav.exGal t k (padded page)) :=
    fun k h6 h2 => ⟨exPage k, exPage_is 7 k h6, .inr ⟨⟨1200, 100000⟩, k, h6, h2, by unfold GalTime.Ok; decide, exPage_sent k h6⟩⟩
  intro pl hpl
  unfold exGalMid at hpl
  simp only [List.cons_append, List.nil_append, List.mem_cons, NavIn.sfrbx.injEq, List.not_mem_nil, or_false, reduceCtorEq,
    false_or] at hpl
  rcases hpl with rfl | rfl | rfl | rfl | rfl | rfl | rfl | rfl
  · exact .inr (hw 0 (by decide) (by decide))
  · exact .inl ⟨by decide, .inr (by decide)⟩
  · exact .inr (hw 1 (by decide) (by decide))
  · exact .inr (hw 6 (by decide) (by decide))
  · exact .inr (hw 4 (by decide) (by decide))
  · exact .inr (hw 3 (by decide) (by decide))
  · exact .inr ⟨_, ⟨by decide, 1, 0, 5, 2, 0, rfl⟩, .inl exBad_bad⟩
  · exact .inr (hw 5 (by decide) (by decide))

theorem exGal_arrives (k : Nat) (h6 : k ≤ 6) (h2 : k ≠ 2) :
    GalArrives 7 Nav.exGal ⟨1200, 100000⟩ k (exGalMid ++ [.sfrbx (exGalPl 7 5)]) := by
  refine ⟨exGalPl 7 k, exPage k, ?_, exPage_is 7 k h6, exPage_sent k h6⟩
  unfold exGalMid
  interval_cases k <;> simp at h2 ⊢

/-- Only the time 1200/100000 is in a word 0 of satellite 7 there. -/
theorem exGal_time (t : GalTime) (ht : t.Ok) (h : GalArrives 7 Nav.exGal t 0 (exGalMid ++ [.sfrbx (exGalPl 7 5)])) :
    t = ⟨1200, 100000⟩ := by
  obtain ⟨pl, w, hin, hw, hsp⟩ := h
  have hty : wType (padded w) = 0 := Nav.sent_wType hsp (by omega)
  have hwk : Nav.wU (padded w) 96 12 = t.week := Nav.sent_wU hsp 96 12 t.week (by simp [Nav.galFields]) ht.1
  have htw : Nav.wU (padded w) 108 20 = t.tow := Nav.sent_wU hsp 108 20 t.tow (by simp [Nav.galFields]) (by have := ht.2; omega)
  obtain ⟨hl, r, x, ch, ver, res, e⟩ := hw
  have hw : w = pl.drop 8 := by rw [e]; rfl
  have hs : pl[1]? = some 7 := by rw [e]; rfl
  clear hsp e
  subst hw
  unfold exGalMid at hin
  simp only [List.cons_append, List.nil_append, List.mem_cons, NavIn.sfrbx.injEq, List.not_mem_nil, or_false, reduceCtorEq,
    false_or] at hin
  rcases hin with rfl | rfl | rfl | rfl | rfl | rfl | rfl | rfl
  · cases t
    simp only [GalTime.mk.injEq]
    refine ⟨?_, ?_⟩
    · exact hwk.symm.trans (by decide +kernel)
    · exact htw.symm.trans (by decide +kernel)
  all_goals first
    | exact absurd hs (by decide +kernel)
    | exact absurd hty (by decide +kernel)

/-- All hypotheses of `c117` are met by `exGalLife`, whose run exists: both callbacks are called for satellite 7. -/
example : ∃ d es e t pre, Life .lenient [exSched] exGalLife d es ∧ es.filterMap Eff.nav? = pre ++ reportTo 2 e ∧
    ReportsGal e 7 Nav.exGal t := by
  have hs : (exRunL exGalLife).isSome = true := by decide +kernel
  obtain ⟨⟨d, es⟩, hx⟩ := Option.isSome_iff_exists.mp hs
  have hl := exRunL_life hx
  have hb : ∀ i s, Ev.configBase i s ∉ exGalLife := by intro i s; simp [exGalLife]
  obtain ⟨g, -, fits, -⟩ := Nav.exGal_sent
  obtain ⟨e, t, pre, h1, h2, -, -⟩ := c117 hl hb 7 (by decide) Nav.exGal g ⟨1200, 100000⟩ [.addEph] exGalMid _ _ _ _
    (exPage_is 7 2 (by omega)) (exPage_sent 2 (by omega)) (exPage_is 7 5 (by omega))
    (by
      have := Nav.sent_good (exPage_sent 5 (by omega)) (by omega)
      exact goodPage_take (by rw [take_padded (exPage_is 7 5 (by omega)).1]; rfl) this)
    exGalLife_in exGal_traffic (fun k h6 h2 => ⟨_, exGal_arrives k h6 h2⟩)
    (fun t ok ht => by rw [exGal_time t ok ht]; exact Nav.exGal_sent.2.2.1)
  exact ⟨d, es, e, t, pre, hl, h1, h2⟩

end Dev
end Ublox
