import Verif.Spec.NavEncGal
import Verif.Props.NavGal
import Verif.Props.NavEncGps

/-!
# C58 from the transmitter's side
-/

namespace Ublox.Nav

open Data

/-- No two of the fields share a bit, all inside the word. -/
def WApart : List (Nat × Nat) → Bool
  | [] => true
  | (a, n) :: r => r.all (fun x => decide (x.1 + x.2 ≤ a) || decide (a + n ≤ x.1)) && decide (a + n ≤ 128) && WApart r

theorem wfldBit_mem (fill : Nat → Bool) : ∀ (fs : List WFld), WApart (fs.map fun f => (f.a, f.n)) = true → ∀ f ∈ fs,
    ∀ i, f.a ≤ i → i < f.a + f.n → wfldBit fill fs i = f.v.testBit (f.n - 1 - (i - f.a)) := by
  intro fs
  induction fs with
  | nil => intro _ f hf; simp at hf
  | cons g fs ih =>
    intro ha f hf i h1 h2
    simp only [List.map_cons, WApart, Bool.and_eq_true, List.all_eq_true, Bool.or_eq_true, decide_eq_true_eq] at ha
    obtain ⟨⟨a1, a2⟩, a3⟩ := ha
    rcases List.mem_cons.mp hf with rfl | hm
    · rw [wfldBit, if_pos ⟨h1, h2⟩]
    · have hx := a1 (f.a, f.n) (List.mem_map_of_mem hm)
      dsimp only at hx
      rw [wfldBit, if_neg (by omega), ih a3 f hm i h1 h2]

theorem wapart_in : ∀ (l : List (Nat × Nat)), WApart l = true → ∀ x ∈ l, x.1 + x.2 ≤ 128 := by
  intro l
  induction l with
  | nil => intro _ x hx; simp at hx
  | cons g l ih =>
    intro ha x hx
    obtain ⟨a, n⟩ := g
    simp only [WApart, Bool.and_eq_true, decide_eq_true_eq] at ha
    rcases List.mem_cons.mp hx with rfl | hm
    · exact ha.1.2
    · exact ih ha.2 x hm

section
variable {p : GalParams} {t : GalTime} {k : Nat} {d : List Byte}

theorem wapart_fields (p : GalParams) (t : GalTime) (k : Nat) :
    WApart ((galFields p t k).map fun f => (f.a, f.n)) = true := by
  unfold galFields
  repeat' split
  all_goals rfl

theorem sent_wU (h : SentPage p t k d) (a n v : Nat) (hf : (⟨a, n, v⟩ : WFld) ∈ galFields p t k) (hv : v < 2 ^ n) :
    wU d a n = v := by
  have hi := wapart_in _ (wapart_fields p t k) _ (List.mem_map_of_mem (f := fun f : WFld => (f.a, f.n)) hf)
  dsimp only at hi
  obtain ⟨fill, hw⟩ := h.word
  refine bitsVal_eq_of_testBit _ _ _ _ hv fun j hj => ?_
  rw [hw _ (by omega)]
  have := wfldBit_mem fill _ (wapart_fields p t k) _ hf (a + j) (Nat.le_add_right _ _) (by dsimp only; omega)
  rw [this]
  dsimp only
  congr 1
  omega

theorem sent_wS (h : SentPage p t k d) (a n : Nat) (x : Int) (hn : 1 ≤ n) (hx : InS n x)
    (hf : (⟨a, n, rep n x⟩ : WFld) ∈ galFields p t k) : wS d a n = x := by
  unfold wS
  rw [sent_wU h a n _ hf (rep_lt n x), twosComp_rep n hn x hx]

theorem sent_wType (h : SentPage p t k d) (hk : k ≤ 6) : wType d = k := by
  have : k = 0 ∨ k = 1 ∨ k = 2 ∨ k = 3 ∨ k = 4 ∨ k = 5 ∨ k = 6 := by omega
  rcases this with rfl | rfl | rfl | rfl | rfl | rfl | rfl <;>
    exact sent_wU h 0 6 _ (by simp [galFields]) (by decide)

theorem sent_good (h : SentPage p t k d) (hk : k ≤ 6) : GoodPage d :=
  ⟨h.nominal, h.order, h.crc, by rw [sent_wType h hk]; exact hk⟩

theorem sent_iod (h : SentPage p t k d) (hp : p.Ok) (hk : 1 ≤ k ∧ k ≤ 4) : iodNav d = p.iod := by
  obtain ⟨h1, h4⟩ := hk
  have : k = 1 ∨ k = 2 ∨ k = 3 ∨ k = 4 := by omega
  rcases this with rfl | rfl | rfl | rfl <;>
    exact sent_wU h 6 10 _ (by simp [galFields]) hp.iod

end

section
variable {p : GalParams} {t t1 t2 t3 t4 t5 : GalTime} {d0 d1 d2 d3 d4 d5 : List Byte}

theorem galToe_sent (hp : p.Ok) (s1 : SentPage p t1 1 d1) : galToe d1 = p.toe * 60 := by
  unfold galToe; rw [sent_wU s1 16 14 p.toe (by simp [galFields]) hp.toe]

theorem galToc_sent (hp : p.Ok) (s4 : SentPage p t4 4 d4) : galToc d4 = p.toc * 60 := by
  unfold galToc; rw [sent_wU s4 54 14 p.toc (by simp [galFields]) hp.toc]

theorem toeWeek_sent (hp : p.Ok) (ht : t.Ok) (s0 : SentPage p t 0 d0) (s1 : SentPage p t1 1 d1) :
    toeWeek d0 d1 = p.toeWeek t := by
  unfold toeWeek GalParams.toeWeek galTow galWeek
  have := ht.2
  rw [galToe_sent hp s1, sent_wU s0 96 12 t.week (by simp [galFields]) ht.1,
    sent_wU s0 108 20 t.tow (by simp [galFields]) (by omega)]
  push_cast; rfl

theorem reportsGal_of_carries {e : Eph} {s : Byte} (hp : p.Ok) (ht : t.Ok) (s0 : SentPage p t 0 d0)
    (s1 : SentPage p t1 1 d1) (s2 : SentPage p t2 2 d2) (s3 : SentPage p t3 3 d3) (s4 : SentPage p t4 4 d4)
    (s5 : SentPage p t5 5 d5) (c : CarriesGal e s d0 d1 d2 d3 d4 d5) : ReportsGal e s p t := by
  constructor
  · exact c.sat
  · exact c.gnss
  · rw [c.toes, galToe_sent hp s1]
  · rw [c.m0, sent_wS s1 30 32 p.m0 (by omega) hp.m0 (by simp [galFields])]
  · rw [c.ecc, sent_wU s1 62 32 p.ecc (by simp [galFields]) hp.ecc]
  · rw [c.sqrta, sent_wU s1 94 32 p.sqrta (by simp [galFields]) hp.sqrta]
  · rw [c.omega0, sent_wS s2 16 32 p.omega0 (by omega) hp.omega0 (by simp [galFields])]
  · rw [c.i0, sent_wS s2 48 32 p.i0 (by omega) hp.i0 (by simp [galFields])]
  · rw [c.w, sent_wS s2 80 32 p.w (by omega) hp.w (by simp [galFields])]
  · rw [c.idot, sent_wS s2 112 14 p.idot (by omega) hp.idot (by simp [galFields])]
  · rw [c.omegadot, sent_wS s3 16 24 p.omegadot (by omega) hp.omegadot (by simp [galFields])]
  · rw [c.deltaN, sent_wS s3 40 16 p.deltaN (by omega) hp.deltaN (by simp [galFields])]
  · rw [c.cuc, sent_wS s3 56 16 p.cuc (by omega) hp.cuc (by simp [galFields])]
  · rw [c.cus, sent_wS s3 72 16 p.cus (by omega) hp.cus (by simp [galFields])]
  · rw [c.crc, sent_wS s3 88 16 p.crc (by omega) hp.crc (by simp [galFields])]
  · rw [c.crs, sent_wS s3 104 16 p.crs (by omega) hp.crs (by simp [galFields])]
  · rw [c.cic, sent_wS s4 22 16 p.cic (by omega) hp.cic (by simp [galFields])]
  · rw [c.cis, sent_wS s4 38 16 p.cis (by omega) hp.cis (by simp [galFields])]
  · rw [c.af0, sent_wS s4 68 31 p.af0 (by omega) hp.af0 (by simp [galFields])]
  · rw [c.af1, sent_wS s4 99 21 p.af1 (by omega) hp.af1 (by simp [galFields])]
  · rw [c.af2, sent_wS s4 120 6 p.af2 (by omega) hp.af2 (by simp [galFields])]
  · rw [c.tgd0, sent_wS s5 47 10 p.bgdA (by omega) hp.bgdA (by simp [galFields])]
  · rw [c.tgd1, sent_wS s5 57 10 p.bgdB (by omega) hp.bgdB (by simp [galFields])]
  · rw [c.iodc, sent_iod s1 hp (by omega)]
  · rw [c.iode, sent_iod s1 hp (by omega)]
  · rw [c.week, toeWeek_sent hp ht s0 s1]
  · rw [c.toe, toeWeek_sent hp ht s0 s1, galToe_sent hp s1]; push_cast; rfl
  · rw [c.toc, toeWeek_sent hp ht s0 s1, galToc_sent hp s4]; push_cast; rfl

end

/-! ## Pages since word 2 -/

theorem pagesOf_append (s : Byte) (a b : List NavOp) : pagesOf s (a ++ b) = pagesOf s a ++ pagesOf s b := by
  unfold pagesOf; exact List.filterMap_append

theorem mem_pagesOf {s : Byte} {ops : List NavOp} {d : List Byte} :
    d ∈ pagesOf s ops ↔ ∃ j m, NavOp.sfrbx j m ∈ ops ∧ m.gnssId = 2 ∧ m.svId = s ∧ GoodPage m.dwrd ∧ d = m.dwrd := by
  unfold pagesOf
  rw [List.mem_filterMap]
  constructor
  · rintro ⟨op, ho, h⟩
    cases op with
    | sfrbx j m =>
      dsimp only at h
      split at h
      · rename_i hc; exact ⟨j, m, ho, hc.1, hc.2.1, hc.2.2, (Option.some.inj h).symm⟩
      · cases h
    | _ => cases h
  · rintro ⟨j, m, ho, a, b, c, rfl⟩
    exact ⟨_, ho, if_pos ⟨a, b, c⟩⟩

theorem since_foldl (l acc : List (List Byte)) (h : ∀ d ∈ l, wType d ≠ 2) :
    l.foldl (fun acc d => if wType d = 2 then [d] else acc ++ [d]) acc = acc ++ l := by
  induction l generalizing acc with
  | nil => simp
  | cons x l ih =>
    rw [List.foldl_cons, if_neg (h x (by simp)), ih _ fun d hd => h d (by simp [hd])]
    simp

theorem sinceWord2_from (a : List (List Byte)) (d2 : List Byte) (b : List (List Byte)) (h2 : wType d2 = 2)
    (hb : ∀ d ∈ b, wType d ≠ 2) : sinceWord2 (a ++ d2 :: b) = d2 :: b := by
  unfold sinceWord2
  rw [List.foldl_append, List.foldl_cons, if_pos h2, since_foldl _ _ hb]
  rfl

theorem latestW_mem {k : Nat} {B : List (List Byte)} (h : ∃ d ∈ B, wType d = k) :
    ∃ x, latestW k B = some x ∧ x ∈ B ∧ wType x = k := by
  obtain ⟨y, hy, hk⟩ := h
  have hm : y ∈ B.filter (wType · = k) := List.mem_filter.mpr ⟨hy, by simpa using hk⟩
  have hne : B.filter (wType · = k) ≠ [] := fun hn => by rw [hn] at hm; cases hm
  have hl := List.getLast_mem hne
  rw [List.mem_filter] at hl
  exact ⟨_, List.getLast?_eq_some_getLast hne, hl.1, by simpa using hl.2⟩

/-- C58 from the transmitter's side: whatever happened before, and whatever other messages come in between, once a Galileo satellite
has sent word 2 of the batch `p` and then its words 0, 1, 3, 4, 5, 6 (at least once each, in any order, no other word 2), the
page that completes them, and every good page until the next word 2, makes every registered callback be called once, with exactly
the batch `p` of that satellite, dated by a word 0 that it sent. -/
theorem c58_transmitted (ops : List NavOp) (n : Nav) (cs : List (List NavCall)) (junk j2 : List Byte) (m m2 : Sfrbx)
    (pre suf : List NavOp) (p : GalParams) (t2 : GalTime)
    (hwf : ∀ op ∈ ops, op.WF) (hm : (NavOp.sfrbx junk m).WF) (hrun : Nav.init.run .lenient ops = .ok (n, cs))
    (hgal : m.gnssId = 2) (hs : m.svId ≠ 0) (hg : GoodPage m.dwrd) (hp : p.Ok)
    (hsplit : ops ++ [.sfrbx junk m] = pre ++ .sfrbx j2 m2 :: suf)
    (hm2 : m2.gnssId = 2 ∧ m2.svId = m.svId) (hd2 : SentPage p t2 2 m2.dwrd)
    (hsends : SendsGal m.svId p suf) (harr : ∀ k, k ≤ 6 → k ≠ 2 → ∃ t, ArrivesGal m.svId p t k suf)
    (hfit : ∀ t, GalTime.Ok t → ArrivesGal m.svId p t 0 suf → p.Fits t) :
    ∃ n' e t, GalTime.Ok t ∧ n.step .lenient (.sfrbx junk m) = .ok (n', reportTo (ephCbCount ops) e) ∧
      ArrivesGal m.svId p t 0 suf ∧ ReportsGal e m.svId p t := by
  have hpages : ∀ d ∈ pagesOf m.svId suf, ∃ t k, k ≤ 6 ∧ k ≠ 2 ∧ GalTime.Ok t ∧ SentPage p t k d ∧
      (k = 0 → ArrivesGal m.svId p t 0 suf) := by
    intro d hd
    obtain ⟨j, m', hin, a, b, hg, rfl⟩ := mem_pagesOf.mp hd
    rcases hsends j m' hin a b with h | ⟨t, k, h6, h2, hok, hsp⟩
    · exact absurd hg h
    · exact ⟨t, k, h6, h2, hok, hsp, by rintro rfl; exact ⟨j, m', hin, a, b, hsp⟩⟩
  have hty : ∀ d ∈ pagesOf m.svId suf, wType d ≠ 2 := by
    intro d hd
    obtain ⟨t, k, h6, h2, -, hsp, -⟩ := hpages d hd
    rw [sent_wType hsp h6]; exact h2
  have w2 := sent_wType hd2 (by omega)
  have hH : sinceWord2 (pagesOf m.svId (ops ++ [.sfrbx junk m])) = m2.dwrd :: pagesOf m.svId suf := by
    rw [hsplit, pagesOf_append, show pagesOf m.svId (.sfrbx j2 m2 :: suf) = m2.dwrd :: pagesOf m.svId suf from ?_,
      sinceWord2_from _ _ _ w2 hty]
    unfold pagesOf
    rw [List.filterMap_cons_some]
    exact if_pos ⟨hm2.1, hm2.2, sent_good hd2 (by omega)⟩
  have hlat : ∀ k, k ≤ 6 → k ≠ 2 → ∃ d t, latestW k (m2.dwrd :: pagesOf m.svId suf) = some d ∧ GalTime.Ok t ∧
      SentPage p t k d ∧ (k = 0 → ArrivesGal m.svId p t 0 suf) := by
    intro k h6 h2
    obtain ⟨t, j, m', hin, a, b, hsp⟩ := harr k h6 h2
    obtain ⟨z, hz, hzin, hzk⟩ := latestW_mem (k := k) (B := m2.dwrd :: pagesOf m.svId suf)
      ⟨m'.dwrd, List.mem_cons_of_mem _ (mem_pagesOf.mpr ⟨j, m', hin, a, b, sent_good hsp h6, rfl⟩), sent_wType hsp h6⟩
    rcases List.mem_cons.mp hzin with rfl | hzin
    · omega
    · obtain ⟨t', k', h6', -, hok, hsp', h0⟩ := hpages z hzin
      have : k' = k := by rw [← sent_wType hsp' h6', hzk]
      subst this
      exact ⟨z, t', hz, hok, hsp', h0⟩
  have hl2 : latestW 2 (m2.dwrd :: pagesOf m.svId suf) = some m2.dwrd := by
    obtain ⟨z, hz, hzin, hzk⟩ := latestW_mem (k := 2) (B := m2.dwrd :: pagesOf m.svId suf) ⟨m2.dwrd, by simp, w2⟩
    rcases List.mem_cons.mp hzin with rfl | hzin
    · exact hz
    · exact absurd hzk (hty z hzin)
  obtain ⟨d0, t0, l0, ok0, s0, a0⟩ := hlat 0 (by omega) (by omega)
  obtain ⟨d1, t1, l1, ok1, s1, -⟩ := hlat 1 (by omega) (by omega)
  obtain ⟨d3, t3, l3, ok3, s3, -⟩ := hlat 3 (by omega) (by omega)
  obtain ⟨d4, t4, l4, ok4, s4, -⟩ := hlat 4 (by omega) (by omega)
  obtain ⟨d5, t5, l5, ok5, s5, -⟩ := hlat 5 (by omega) (by omega)
  obtain ⟨d6, t6, l6, ok6, s6, -⟩ := hlat 6 (by omega) (by omega)
  have hcons : Consistent d0 d1 m2.dwrd d3 d4 :=
    ⟨sent_wU s0 6 2 2 (by simp [galFields]) (by decide), by rw [sent_iod s1 hp (by omega), sent_iod hd2 hp (by omega)],
      by rw [sent_iod s1 hp (by omega), sent_iod s3 hp (by omega)],
      by rw [sent_iod s1 hp (by omega), sent_iod s4 hp (by omega)]⟩
  have hfit' : DatesFit d0 d1 d4 := by
    have := hfit t0 ok0 (a0 rfl)
    unfold DatesFit
    unfold GalParams.Fits at this
    rw [toeWeek_sent hp ok0 s0 s1, galToe_sent hp s1, galToc_sent hp s4]
    push_cast
    exact this
  obtain ⟨n', e, hstep, hcar⟩ := c58_reported ops n cs junk m d0 d1 m2.dwrd d3 d4 d5 d6 hwf hm hrun hgal hs hg
    (by rw [hH]; exact l0) (by rw [hH]; exact l1) (by rw [hH]; exact hl2) (by rw [hH]; exact l3) (by rw [hH]; exact l4)
    (by rw [hH]; exact l5) (by rw [hH]; exact l6) hcons hfit'
  exact ⟨n', e, t0, ok0, hstep, a0 rfl, reportsGal_of_carries hp ok0 s0 s1 hd2 s3 s4 s5 hcar⟩

/-! ## Every word can be sent -/

/-- Ten words with the given bits in the first eight. -/
def packPage (f : Nat → Bool) : List Byte :=
  (List.range 40).map fun k => byteOf fun j => f (32 * (k / 4) + 8 * (3 - k % 4) + (7 - j))

theorem galBit_pack (f : Nat → Bool) (q : Nat) (h : q < 256) : galBit (packPage f) q = f q := by
  unfold galBit packPage
  have hk : 4 * (q / 32) + 3 - q % 32 / 8 < 40 := by omega
  rw [List.getD_eq_getElem?_getD, List.getElem?_map, List.getElem?_range hk]
  simp only [Option.map_some, Option.getD_some]
  rw [byteOf_bit _ _ (by omega)]
  congr 1
  omega

/-- The transmitter can send every word: for all parameters, there is a page. -/
theorem sentPage_exists (p : GalParams) (t : GalTime) (k : Nat) (fill : Nat → Bool) : ∃ d, SentPage p t k d := by
  -- the protected bits
  let w := wfldBit fill (galFields p t k)
  let g : Nat → Bool := fun i => if i < 6 then false else if i < 118 then w (i - 6) else if i = 118 then true else if i = 119 then false
    else if i < 136 then w (i - 120 + 112) else fill i
  obtain ⟨c, -, hc, hpoly⟩ := crc24_spec (packBits g 25) 25 (by simp [packBits])
  let f : Nat → Bool := fun q => if q < 114 then g (q + 4) else if q < 128 then false else if q < 210 then g (q - 128 + 118)
    else c.testBit (23 - (q - 210))
  have hbit : ∀ q, q < 256 → galBit (packPage f) q = f q := galBit_pack f
  have hframe : galFrame (packPage f) = packBits g 25 ++ packBits (fun i => c.testBit (23 - i)) 3 := by
    refine ext_bitAt (by simp [galFrame, packBits]) fun i hi => ?_
    rw [show (galFrame (packPage f)).length = 28 from packBits_length _ _] at hi
    have e : bitAt (galFrame (packPage f)) i = if i < 4 then false else if i < 118 then galBit (packPage f) (i - 4)
        else galBit (packPage f) (128 + (i - 118)) := bitAt_packBits _ _ _ (by omega)
    rw [e]
    by_cases h200 : i < 200
    · have : bitAt (packBits g 25 ++ packBits (fun i => c.testBit (23 - i)) 3) i = bitAt (packBits g 25) i := by
        unfold bitAt
        rw [List.getElem?_append_left (by rw [packBits_length]; omega)]
      rw [this, bitAt_packBits _ _ _ (by omega)]
      split
      · simp only [g]; rw [if_pos (by omega)]
      · split
        · rw [hbit _ (by omega)]
          simp only [f]
          rw [if_pos (by omega)]
          congr 1; omega
        · rw [hbit _ (by omega)]
          simp only [f]
          rw [if_neg (by omega), if_neg (by omega), if_pos (by omega)]
          congr 1; omega
    · have : bitAt (packBits g 25 ++ packBits (fun i => c.testBit (23 - i)) 3) i = bitAt (packBits (fun i => c.testBit (23 - i)) 3) (i - 200) := by
        unfold bitAt
        rw [List.getElem?_append_right (by rw [packBits_length]; omega), packBits_length]
        rw [show i / 8 - 25 = (i - 200) / 8 by omega, show i % 8 = (i - 200) % 8 by omega]
      rw [this, bitAt_packBits _ _ _ (by omega), if_neg (by omega), if_neg (by omega), hbit _ (by omega)]
      simp only [f]
      rw [if_neg (by omega), if_neg (by omega), if_neg (by omega), show 128 + (i - 118) - 210 = i - 200 by omega]
  refine ⟨packPage f, by simp [packPage], ⟨?_, ?_⟩, ⟨?_, ?_⟩, ?_, fill, ?_⟩
  · rw [hbit _ (by omega)]; rfl
  · rw [hbit _ (by omega)]; rfl
  · rw [hbit _ (by omega)]; rfl
  · rw [hbit _ (by omega)]; rfl
  · refine ⟨_, _, _, _, hframe, ?_⟩
    have : beNat (packBits (fun i => c.testBit (23 - i)) 3) = c := by
      unfold beNat fieldVal
      rw [packBits_length]
      refine bitsVal_eq_of_testBit _ 0 24 c hc fun j hj => ?_
      rw [bitAt_packBits _ _ _ (by omega)]
      congr 1; omega
    show toPoly (beNat (packBits (fun i => c.testBit (23 - i)) 3)) = _
    rw [this]
    rw [List.take_of_length_le (by simp [packBits])] at hpoly
    exact hpoly
  · intro i hi
    unfold wordBit
    split
    · rw [hbit _ (by omega)]
      simp only [f, g]
      rw [if_pos (by omega), if_neg (by omega), if_pos (by omega)]
      congr 1; omega
    · rw [hbit _ (by omega)]
      simp only [f, g]
      rw [if_neg (by omega), if_neg (by omega), if_pos (by omega), if_neg (by omega), if_neg (by omega), if_neg (by omega),
        if_neg (by omega), if_pos (by omega)]
      congr 1; omega

/-- A batch of parameters. -/
def exGal : GalParams :=
  { iod := 261, toe := 1000, m0 := -123456789, ecc := 19088743, sqrta := 2717908992, omega0 := -7654321, i0 := 655429905, w := -1,
    idot := -99, omegadot := -7777, deltaN := 1111, cuc := -22, cus := 33, crc := 4444, crs := -55, cic := -6, cis := 7, toc := 1000,
    af0 := -123456, af1 := -789, af2 := 1, bgdA := -3, bgdB := 4 }

theorem sentPage_ex {d : List Byte} {k : Nat} (hl : d.length = 40) (hg : GoodPage d)
    (h : ∀ i : Fin 128, wordBit d i.val = wfldBit (wordBit d) (galFields exGal ⟨1200, 100000⟩ k) i.val) :
    SentPage exGal ⟨1200, 100000⟩ k d :=
  ⟨hl, hg.nominal, hg.order, hg.crc, wordBit d, fun i hi => h ⟨i, hi⟩⟩

/-- The parameters of the concrete pages, which C58's examples feed to the decoder, fit, and the pages send them. -/
theorem exGal_sent : exGal.Ok ∧ GalTime.Ok ⟨1200, 100000⟩ ∧ exGal.Fits ⟨1200, 100000⟩ ∧
    SentPage exGal ⟨1200, 100000⟩ 0 gal0 ∧ SentPage exGal ⟨1200, 100000⟩ 1 gal1 ∧ SentPage exGal ⟨1200, 100000⟩ 2 gal2 ∧
    SentPage exGal ⟨1200, 100000⟩ 3 gal3 ∧ SentPage exGal ⟨1200, 100000⟩ 4 gal4 ∧ SentPage exGal ⟨1200, 100000⟩ 5 gal5 ∧
    SentPage exGal ⟨1200, 100000⟩ 6 gal6 := by
  obtain ⟨g0, g1, g2, g3, g4, g5, g6, -⟩ := good_pages
  refine ⟨?_, by unfold GalTime.Ok; decide, by unfold GalParams.Fits; decide, sentPage_ex rfl g0 ?_, sentPage_ex rfl g1 ?_,
    sentPage_ex rfl g2 ?_, sentPage_ex rfl g3 ?_, sentPage_ex rfl g4 ?_, sentPage_ex rfl g5 ?_, sentPage_ex rfl g6 ?_⟩
  · constructor <;> (try unfold InS) <;> decide
  all_goals decide +kernel

end Ublox.Nav
